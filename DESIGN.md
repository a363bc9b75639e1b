# Verification design for esa/NIDN

The subject is the Python package under `/repo/nidn` (read as text, never run).
`properties.jsonl` lists the properties, `lean/` holds the Lean 4 model and the proofs,
`MANIFEST.json` maps properties to theorems, `seeded/LOG.jsonl` records the seeded-bug runs, one line per attempt. Lines without `outcome` and lines with outcome
`killed` are edits that made every expected theorem fail. `survived` means that the expected theorem (`still_proved`) was
checked against the edited model and still held. `undecided` means that a broken helper lemma kept it from being checked.
Up to commit 5487d45 the log held the killed edits only; the surviving and undecided ones were added afterwards, at the end
of the lines of that time. A survivor that led to a stronger theorem appears again further down with `theorems_tightened`.

## 1. Conventions

* `lean/Verif/Model/*.lean`  - the model, function by function. Every definition cites file and lines.
* `lean/Verif/Spec/*.lean`   - small independent specifications, only where a property needs vocabulary
  that the model does not provide. A spec never calls a model function.
* `lean/Verif/Lemmas/*.lean` - helper lemmas (no property is stated there).
* `lean/Verif/Props/*.lean`  - the property theorems, each named after its property (`C01_...`), each with an
  `example` showing a concrete non-trivial instance of its hypotheses.
* Python exceptions are values: `Except PyErr a`.
* `_partial` marks a theorem weaker than the property; the doc-comment says what is missing.
  `_false` marks a theorem proving the negation of a property of the code, with a concrete witness.

### Numbers
Floating point is **not** modelled. `torch`/`numpy` floats are modelled as elements of an arbitrary ordered field
(`K` with `[Field K] [LinearOrder K] [IsStrictOrderedRing K]`, instantiated at `Rat` for concrete witnesses), or as
Mathlib's real numbers (when exp/log/sqrt are needed) or complex numbers (RCWA). So rounding, overflow, inf and
NaN arithmetic are outside the model, except where the code branches on NaN explicitly (that branch is modelled by a flag
or an `Option`). Python `int()` on floats is modelled as truncation towards zero. Python ints are `Int`/`Nat`.

## 2. Trusted base

* Lean 4.33.0 kernel; Mathlib definitions of the reals, complex numbers, matrices, exp/log/sqrt/pow.
* Axioms: only `propext`, `Classical.choice`, `Quot.sound` (checked with `#print axioms` by the gate).
* The reading of the Python code (the code is not executed here). Each definition cites its source lines.
* External libraries are modelled by their documented contracts: `torch.linspace/sort/argsort/eig/inverse/fft`,
  `numpy.logspace`, python list/slice/dict semantics, dict ordering, `deque(maxlen)`,
  loguru's level names, name filter and handlers (C194).
  `torch.eig` is a parameter: any `q`, `phi` satisfying the eigen equation. `argsort` is any sorting permutation.
* Not modelled: autograd, optimiser numerics (Adam is an arbitrary weight update), how plots are drawn (only the data
  handed to them), the text of log messages where no property names it, progress bars, the encoding of pickled files,
  GPU placement, performance.

## 3. Per property: what is modelled, how it is proved, what is missing

First the technique per area, then one entry per property. An entry lists the files of its theorems, the theorems and the status:
*proved* (all of the statement), *partial* (`_partial` theorems say what is missing, `_false` theorems are counterexamples in the code).

### Units and frequencies (`Model/Units.lean`)
* C01 the four conversions with the ZeroDivisionError branch; field algebra.
* C02 linspace/logspace/sort exactly as called; monotonicity and end points by induction/algebra. `np.sort` is `List.mergeSort`;
  the proof shows the list is already sorted so that sorting is the identity.
* C03 list maps over C02. C04 false of the code: index 0 is the largest wavelength (see section 4).

### Validation (`Model/Config.lean`)
* C05-C10 the config is an association list from names to a `Val` datatype (int, float, bool, str, list, other); every check is a
  branch in code order returning `Except PyErr Unit`. Proved by inverting the monadic sequence. C06, C08, C09, C10 are
  expected to be false in full; negations with witnesses plus the part that holds.

### RCWA (`Model/Trcwa*.lean`, `Model/Lattice.lean`, `Model/Conv.lean`)
* C11 state machine over the three Add calls, invariant by induction on the call list.
* C12 `_init_trcwa` as a fold over C11's operations, then `GridLayer_geteps` with its dispatch on `len(ep_all)==3`.
* C13 algebra over a field. C14 the truncation loop over an arbitrary sorted list of orders.
* C15 convolution matrix over an arbitrary Fourier coefficient function; `Epsilon_fft` zeroing rule.
* C16-C23 layers carry matrices `q, phi, kp` over the complex numbers (dimension arbitrary); `GetSMatrix` is a fold; correctness is an invariant
  of the fold relative to an independent specification (field continuity at each interface). Energy: sesquilinear flux invariants.
* C24 list-level model of the driver with the single-frequency solver as a parameter.

### Materials (`Model/Materials.lean`)
* C25-C28 tables as lists of rows; argmin as first minimiser; boolean masks as decidable predicates.

### Permittivity grids (`Model/EpsGrid.lean`)
* C29-C35 tensors are functions of indices; reshape is row-major index arithmetic.

### Losses and training (`Model/Loss.lean`, `Model/Training.lean`, `Model/Nets.lean`)
* C36-C38 folds over zipped lists with real powers. C39-C41 state machine over a list of iteration outcomes
  (failure / loss, flag, weight update). C42 shape calculus of the three networks.

### FDTD (`Model/Fdtd*.lean`)
* C43-C44 constructor and rounding. C45-C46 curls as functions on index triples; telescoping sums.
* C47 leap-frog energy with the curl bound by discrete Cauchy-Schwarz. C48 equality with an independently specified wrapped lattice, step by step. C49 PML profile. C50 registration state machine.
* C51-C53, C55, C56 a grid state (E, H, PML memories, detectors) and the step function with the PML terms.
* C54 slices and overriding writes. C57, C58 index generation and profiles.

### FDTD integration (`Model/FdtdIntegration.lean`, `Model/FdtdCoefficients.lean`)
* C59-C61, C78, C79, C83 floor arithmetic on positions, config mutation; the grid built by `init_fdtd` is proved equal to an independent description
  (`Props/FdtdStack.lean`) and all later statements about runs use that. C62-C66 signal processing on lists. C67, C68 driver level. C69 loop current.
* C70, C80-C82 `Model/Backend.lean`: string decision, padding arithmetic, unit conversions, pulses.

### Entries

* **C01** Unit conversions are mutually inverse - *proved*. All four conversions, round trips and the zero error.
  Files: `Props/Units.lean`.
  Theorems: `C01_freq_wl_roundtrip`, `C01_phys_freq_wl_roundtrip`, `C01_phys_wl_roundtrip`, `C01_zero_is_error`.
* **C02** Target frequencies sample exactly the requested wavelength band - *proved*. linear and log; numpy linspace/logspace/sort by contract, exact reals.
  Files: `Props/Units.lean`.
  Theorems: `C02_linear`, `C02_log`, `C02_unknown_distribution`.
* **C03** Frequency points and physical wavelengths correspond entry by entry - *proved*. entry-wise correspondence, order, range, config update, idempotence.
  Files: `Props/Units.lean`.
  Theorems: `C03_frequency_points`.
* **C04** Target spectra are compared from low to high wavelength - *partial*. False of the code: targets are compared from high to low wavelength. Negation with witness, and the actual order as _partial.
  Files: `Props/Units.lean`.
  Theorems: `C04_high_to_low_partial`, `C04_low_to_high_false`.
* **C05** An accepted config has every required key and no unknown key - *proved*. Both directions.
  Files: `Props/Config.lean`.
  Theorems: `C05_bad_keys_rejected`, `C05_keys`.
* **C06** An accepted config is well-typed - *partial*. False in full (bool as int, hidden_layers unchecked): negation with witnesses; _partial is what holds.
  Files: `Props/Config.lean`.
  Theorems: `C06_types_partial`, `C06_well_typed_false`.
* **C07** An accepted config has its scalar ranges in order - *proved*. All scalar ranges of accepted configs; default config accepted.
  Files: `Props/Config.lean`.
  Theorems: `C07_ranges`.
* **C08** An accepted config has no negative thickness, lattice or target entry - *partial*. False (negative entries accepted): witnesses; _partial: no zero thickness/source coordinate, lattice rows ordered.
  Files: `Props/Config.lean`.
  Theorems: `C08_list_entries_false`, `C08_no_zero_entries_partial`.
* **C09** An accepted config names a solver and a model the package implements - *partial*. False (solver/model names not validated): witnesses; _partial: exact dispatch. For settings with which the named network cannot be built see C136_false.
  Files: `Props/Config.lean`.
  Theorems: `C09_dispatch_partial`, `C09_known_names_false`.
* **C10** Validation fails only with its documented exception classes - *partial*. False (ZeroDivisionError, IndexError possible): witnesses; _partial: never ValueError, and exact condition for the documented classes.
  Files: `Props/ConfigErr.lean`.
  Theorems: `C10_documented_classes_false`, `C10_documented_classes_partial`, `C10_never_value_error_partial`.
* **C11** Layer bookkeeping is consistent for every order of layer additions - *proved*. Any sequence of the three Add calls: layer i reads back as the i-th call, counters and slots agree.
  Files: `Props/TrcwaLayers.lean`.
  Theorems: `C11_bookkeeping`, `C11_kind_counts`, `C11_patterned_slots`.
* **C12** The RCWA stack is the user's stack between two half-spaces - *partial*. Proved for uniform stacks and for patterned grids with Nx>1, Nx!=3; Nx=3 always raises RuntimeError, and Nx=1 with Ny>=2 (Ny!=3) and several layers also (both proved).
  Files: `Props/TrcwaLayers.lean`.
  Theorems: `C12_patterned_stack_partial`, `C12_single_row_false`, `C12_three_columns_false`, `C12_uniform_stack`.
* **C13** Reciprocal lattice vectors are dual to the lattice - *proved*. Over any field; the pair returned is the unique dual basis.
  Files: `Props/Lattice.lean`.
  Theorems: `C13_degenerate`, `C13_duality`, `C13_involution`, `C13_unique`, `C13_wrong_length`.
* **C14** Circular truncation keeps whole shells around the origin - *partial*. All claims for every non-degenerate lattice, request and tie-break, including completeness of shells among ALL integer orders (area argument); (0,0) first needs request >= 2 and no order shorter than the tolerance; a request of 1 gives an empty set (proved). C14_maximal: every finite set of fewer than nG orders that is separated from all longer orders by more than the tolerance is selected, so no order is left out needlessly.
  Files: `Props/Lattice.lean`, `Props/LatticeMax.lean`.
  Theorems: `C14_maximal`, `C14_origin_partial`, `C14_single_order_false`, `C14_whole_shells`.
* **C15** The permittivity convolution matrix is faithful to the pattern - *partial*. Entries, Hermitian symmetry and uniform case proved for every resolved order set (unresolved = IndexError, proved). C15_invertible: the matrix is invertible for every pattern with permittivities on one side of a line through zero. The noise filter drops entries with negative real and imaginary part: proved false with two witnesses.
  Files: `Props/Conv.lean`, `Props/ConvSolvable.lean`.
  Theorems: `C15_entries`, `C15_filter_false`, `C15_filtered_hermitian_false`, `C15_hermitian`, `C15_invertible`, `C15_solver_matrices_partial`, `C15_uniform`.
* **C16** The scattering matrix solves the layer-matching equations - *proved*. The S-matrix characterises exactly (iff) the solutions of the continuity equations; failures are only singular matrices or vanishing wave numbers.
  Files: `Props/SMatrix.lean`.
  Theorems: `C16_exterior`, `C16_failures`, `C16_reversed`, `C16_single`, `C16_solves`.
* **C17** Scattering matrices compose - *partial*. Star product proved; interior reconstruction proved for a working inverse; the code calls the non-existent torch.inv, so SolveInterior always raises AttributeError (proved).
  Files: `Props/SMatrix.lean`.
  Theorems: `C17_interior_false`, `C17_interior_partial`, `C17_star`.
* **C18** Splitting a layer does not change the optics - *proved*. For interior layers (the half-spaces keep their own thickness).
  Files: `Props/SMatrix.lean`.
  Theorems: `C18_split_layer`, `C18_zero_layer`.
* **C19** Lossless stacks conserve energy - *partial*. Uniform stacks: proved for every number of layers, incidence angle and polarisation (real frequency). Patterned layers: proved under the hypothesis that the convolution matrix is Hermitian. The noise filter of Epsilon_fft (see C15) can break it: C19_patterned_false is a lossless grating with R = 625/4704 and T = 721/96 for the solver's own matrices; hence partial. The witness uses an anisotropic pattern, for which the modes have a closed form.
  Files: `Props/Energy.lean`, `Props/FilterEnergy.lean`.
  Theorems: `C19_patterned_false`, `C19_patterned_partial`, `C19_uniform`.
* **C20** Passive stacks never amplify - *partial*. R+T<=1 for passive uniform stacks at real frequency (C20_uniform); patterned layers under the C15 filter hypothesis, without which the claim is false (C19_patterned_false, a lossless and therefore passive grating with R+T > 7). At the driver's complex frequency the proof needs Im(omega*eps)>=0 and normal incidence (C20_damped_partial); that condition fails for metals with Re eps<0 and vanishing loss, and there the claim is false of the code: C20_false, a lossless metal layer between the driver's vacuum layers for which the solver answers with R+T>1, for all wavelengths above 26 units of length.
  Files: `Props/Energy.lean`, `Props/MetalGain.lean`.
  Theorems: `C20_damped_partial`, `C20_false`, `C20_patterned_partial`, `C20_uniform`.
* **C21** A single interface reproduces Fresnel's formulas - *partial*. Single interface equals the Fresnel formulas at normal incidence, for any order set (oblique incidence: C112); vacuum stack gives R=0, T=1 at real frequency. With the driver's complex frequency (1+i/2Q) T<1 for vacuum: C21_vacuum_driver_false.
  Files: `Props/Fresnel.lean`.
  Theorems: `C21_fresnel`, `C21_fresnel_real`, `C21_vacuum`, `C21_vacuum_driver_false`.
* **C22** Evanescent and absorbing modes decay, never grow - *proved*. Proved for uniform and patterned eigen-systems (branch selection) at every complex frequency in the first quadrant.
  Files: `Props/Flux.lean`.
  Theorems: `C22_patterned`, `C22_phase`, `C22_strict`, `C22_uniform`.
* **C23** Power flux splits consistently into forward, backward and orders - *proved*. Poynting flux equals the sum over diffraction orders and splits into forward and backward parts for non-mixed orders.
  Files: `Props/Flux.lean`.
  Theorems: `C23_by_order`, `C23_one_way`, `C23_orders_sum`, `C23_total`, `C23_total_real`.
* **C24** RCWA spectra are frequency-local - *proved*. Driver and dispatcher modelled with the single-frequency solver as a parameter.
  Files: `Props/RcwaDriver.lean`.
  Theorems: `C24_complete`, `C24_entries`, `C24_errors`, `C24_local`.
* **C25** Material permittivity is the square of the tabulated refractive index - *proved*. Nearest row (first on ties), square of the complex index, totality and error classes.
  Files: `Props/Materials.lean`.
  Theorems: `C25_index_squared`, `C25_load`, `C25_nearest`, `C25_passive`, `C25_total`.
* **C26** Material lookup by name is exact - *partial*. Proved for collections of at least two materials. With a single material squeeze() drops the material axis: lookup returns the first frequency only (or IndexError).
  Files: `Props/Materials.lean`.
  Theorems: `C26_construction`, `C26_keyError`, `C26_lookup_partial`, `C26_names`, `C26_single_material_false`, `C26_stem`.
* **C27** The reported closest material is a true minimiser - *proved*. For any argmin satisfying torch's contract.
  Files: `Props/Materials.lean`.
  Theorems: `C27_minimiser`, `C27_zero_iff`.
* **C28** Layer builders paint exactly the described region - *proved*. All three builders, mirror symmetry and degenerate parameters.
  Files: `Props/LayerBuilder.lean`.
  Theorems: `C28_circle`, `C28_circle_mirror`, `C28_square`, `C28_square_empty`, `C28_square_mirror`, `C28_uniform`.
* **C29** Regression permittivities respect the configured range - *partial*. Voxel models and network models with noise or without zero-avoidance: proved. Zero-avoidance runs after clipping: exact characterisation of the ranges that stay safe (C29_avoid_zero_range) and a counterexample.
  Files: `Props/EpsGrid.lean`.
  Theorems: `C29_avoid_zero_range`, `C29_false`, `C29_imag`, `C29_network_partial`, `C29_voxel`.
* **C30** A regression model can reach every permittivity in the configured range - *partial*. Real part proved. Imaginary part reaches its whole range iff imag_min_eps = 0 (imag_min_eps is never added); counterexample for [1,3].
  Files: `Props/EpsGrid.lean`.
  Theorems: `C30_imag_false`, `C30_imag_partial`, `C30_real`.
* **C31** Each frequency slice comes from the model's answer for that frequency - *partial*. False for N_freq >= 2: the reshape interleaves channels and frequencies. The exact layout is proved (C31_layout_partial), correctness for one frequency, and which entries are wrong.
  Files: `Props/EpsGrid.lean`, `Props/EpsValues.lean`.
  Theorems: `C31_false`, `C31_layout_partial`, `C31_single_frequency_partial`, `C31_values_partial`, `C31_wrong_everywhere_else_false`.
* **C32** Zero-avoidance keeps permittivity away from zero and changes nothing else - *partial*. The function itself is proved in full; the returned grid only without noise (noise is added afterwards, voxel models skip it).
  Files: `Props/EpsGrid.lean`, `Props/EpsValues.lean`.
  Theorems: `C32_avoid_zero`, `C32_classification`, `C32_grid_partial`, `C32_noise_false`.
* **C33** Oversampling replicates blocks - *proved*. Regression and classification; size condition, block structure.
  Files: `Props/Classification.lean`, `Props/EpsGrid.lean`.
  Theorems: `C33_blocks`, `C33_classification`, `C33_size`.
* **C34** Classification yields a probability mixture of real materials - *partial*. Weights: positive, normalised, ranking, shift invariance, sharpness bound. Mixture for at least two materials and two frequencies; for one frequency squeeze() drops the axis and the result is the material list itself, independent of the model.
  Files: `Props/Classification.lean`, `Props/EpsValues.lean`.
  Theorems: `C34_distribution`, `C34_mixture_partial`, `C34_ranking`, `C34_sharpness`, `C34_shift`, `C34_single_frequency_false`, `C34_weights`.
* **C35** Sampling coordinates cover the cube and respect layer thickness - *proved*. Even ticks and thickness-weighted z positions.
  Files: `Props/Classification.lean`.
  Theorems: `C35_ticks`, `C35_z_uniform`, `C35_z_weighted`.
* **C36** The spectrum loss is a faithful distance - *proved*. Non-negative, explicit value, zero iff targets met, R/T symmetric for physical spectra, flag iff some R+T>1, empty spectrum is an error.
  Files: `Props/Loss.lean`.
  Theorems: `C36_empty`, `C36_nonneg_flag`, `C36_symmetric`, `C36_value`, `C36_zero`.
* **C37** Renormalised points are physical - *partial*. False: T is divided by the already renormalised R. Partial: both values stay in [0,1], the sum is at least one, and one only if R or T is zero.
  Files: `Props/Loss.lean`.
  Theorems: `C37_false`, `C37_partial`.
* **C38** The likelihood regulariser measures indecision - *proved*. Range, zero set and reflection symmetry of the min form; zero set of the max form.
  Files: `Props/Loss.lean`.
  Theorems: `C38_max`, `C38_min`, `C38_reflect`.
* **C39** Training logs account for every successful iteration - *proved*. State machine over arbitrary outcome lists; logs equal the successful losses, averages over the last 20.
  Files: `Props/Training.lean`.
  Theorems: `C39_failure_silent`, `C39_length`, `C39_logs`.
* **C40** Training returns the best model seen - *partial*. False: a renormalised record blocks later physical models. Partial: holds when the overall minimum is first reached by a physical iteration; stored models are always physical records.
  Files: `Props/Training.lean`.
  Theorems: `C40_false`, `C40_partial`, `C40_physical_run_partial`, `C40_stored_partial`.
* **C41** Each solver failure halves the learning rate and nothing else - *proved*. Halving law, positivity including the plateau scheduler, restored weights, repeated failures.
  Files: `Props/Training.lean`.
  Theorems: `C41_failure`, `C41_halving`, `C41_positive`, `C41_repeated`, `C41_scheduler`.
* **C42** Networks built from a config are well-formed for every depth - *partial*. Siren: all depths. Nerf: false at 3 and 4 hidden layers (skip position), proved for all other depths.
  Files: `Props/Nets.lean`.
  Theorems: `C42_nerf_depth3_false`, `C42_nerf_depth4_false`, `C42_nerf_partial`, `C42_siren`, `C42_unknown`.
* **C43** The FDTD time step satisfies the stability limit - *partial*. Default and requested Courant numbers, the 1/sqrt(D) limit and the ValueError are proved. False for non-positive Courant numbers, which are accepted (C43_false); C43_partial excludes them.
  Files: `Props/FdtdGrid.lean`.
  Theorems: `C43_default`, `C43_false`, `C43_limit`, `C43_partial`, `C43_request`, `C43_zero_dim`.
* **C44** Distances and times are rounded to the nearest grid unit - *partial*. Distances and times given as floats are rounded to the nearest index, keys are normalised as stated. Grid.run truncates instead of rounding (C44_run_false).
  Files: `Props/FdtdGrid.lean`.
  Theorems: `C44_distance`, `C44_keys`, `C44_nearest`, `C44_run_false`, `C44_run_partial`, `C44_time`.
* **C45** Discrete curls are divergence free, so Gauss's laws are preserved - *proved*. div curl = 0 for both curls in the interior, and Gauss laws preserved by every run on quiet regions.
  Files: `Props/FdtdCurl.lean`.
  Theorems: `C45_curlE`, `C45_curlH`, `C45_fresh`, `C45_gauss_E`, `C45_gauss_H`.
* **C46** The two discrete curls are adjoint up to the grid boundary - *proved*. Adjointness of the two curls with an explicit boundary flux.
  Files: `Props/FdtdCurl.lean`.
  Theorems: `C46_adjoint`, `C46_interior`.
* **C47** Source-free propagation conserves energy and stays bounded - *partial*. Discrete Poynting balance in any dimension; conservation, dissipation and boundedness in 1-D, on 1-, 2-, 3-D periodic grids (C47_periodic*) and on 1-, 2-, 3-D grids that just end on some axes and are periodic on the others (C47_walls*), up to (excluding) the Courant limit. C47_walls needs the border planes dark at the start; C47_walls_stay_dark shows that fresh grids keep them dark whatever sources inside the grid do. At the limit itself the fields of a periodic grid grow without bound (C47_limit_false). One-dimensional grids with PML are in C139.
  Files: `Props/FdtdEnergy.lean`, `Props/FdtdTorusEnergy.lean`, `Props/FdtdWalls.lean`.
  Theorems: `C47_balance`, `C47_bounded`, `C47_bounded_any`, `C47_conserved`, `C47_dissipative`, `C47_lift`, `C47_limit_false`, `C47_periodic`, `C47_periodic_bounded`, `C47_walls`, `C47_walls_bounded`, `C47_walls_stay_dark`.
* **C48** Periodic boundaries make the grid a torus - *proved*. The grid with periodic boundaries is proved equal, step by step, to an independently specified wrapped lattice with one plane less per periodic axis.
  Files: `Props/FdtdTorus.lean`.
  Theorems: `C48_planes`, `C48_torus`.
* **C49** Absorbing layers have a monotone, mirror-symmetric, dissipative profile - *proved*. Holds for every thickness, Courant number and stability parameter.
  Files: `Props/FdtdPml.lean`.
  Theorems: `C49_coefficients`, `C49_electric`, `C49_layer`, `C49_magnetic`, `C49_memory`, `C49_memory_run`, `C49_mirror`.
* **C50** Each side of the grid gets at most one boundary of the right kind - *proved*. Proved for all sequences of placements of distinct objects; DomainBorderPML included.
  Files: `Props/FdtdBoundary.lean`.
  Theorems: `C50_domain`, `C50_exclusive`, `C50_periodic_side`, `C50_pml_side`.
* **C51** An empty grid stays dark - *partial*. Proved for all grids without PML, any objects and periodic boundaries (C51_dark_partial, C51_detectors_partial). With a PML it is false: the 1e-16 constant in the PML update lights the layer in the first step (C51_false, all positive Courant numbers).
  Files: `Props/FdtdRun.lean`.
  Theorems: `C51_dark_partial`, `C51_detectors_partial`, `C51_false`.
* **C52** FDTD is linear in its sources - *partial*. Affine superposition and scaling hold for every grid, PML included (C52_superposition, C52_scaling, C52_signals); exact linearity for grids without PML (C52_linear_partial). With PML the 1e-16 constant breaks exact linearity (C52_false).
  Files: `Props/FdtdRun.lean`.
  Theorems: `C52_false`, `C52_linear_partial`, `C52_scaling`, `C52_signals`, `C52_superposition`.
* **C53** Signals travel at most one cell per step - *partial*. Finite propagation speed proved for every grid, with sources and PMLs added on any set of planes; solver level: C53_error, C53_solver_partial (line source; detector far from source and PMLs). C53_pml_false: next to a PML the detector is not exactly dark, because PMLs add 1e-16 in every step.
  Files: `Props/FdtdCoefficients.lean`, `Props/FdtdPipeline.lean`, `Props/FdtdScaling.lean`, `Props/FdtdSpeed.lean`.
  Theorems: `C53_cone`, `C53_dark`, `C53_detector`, `C53_error`, `C53_pml_false`, `C53_silent`, `C53_solver_partial`, `C53_source`.
* **C54** Objects set material only inside themselves, latest wins, vacuum is neutral - *partial*. Proved for whole and bounded slices and single non-negative x, y indices. False in four ways: the border component of the top plane takes the grid's far-end value (C54_border_false), a plain object keeps an earlier absorption (C54_absorption_false), index -1 silently sets nothing (C54_last_false), absorbing objects at a z index raise (C54_zindex_false).
  Files: `Props/FdtdObjects.lean`.
  Theorems: `C54_absorption_false`, `C54_border_false`, `C54_inside`, `C54_last_false`, `C54_latest`, `C54_vacuum`, `C54_zindex_false`.
* **C55** Resetting a grid reproduces the run - *partial*. Proved for grids without PML. False with PML, whose memories survive the reset (C55_false, all positive Courant numbers).
  Files: `Props/FdtdRun.lean`.
  Theorems: `C55_detectors_partial`, `C55_false`, `C55_fields_partial`.
* **C56** Detectors record one sample per step at the requested cells - *proved*. Sample counts, sample contents and source inclusion proved for all grids and run lengths; the cell list of line detectors across the grid is C56_line.
  Files: `Props/FdtdRun.lean`, `Props/FdtdSources.lean`.
  Theorems: `C56_count`, `C56_includes_source`, `C56_line`, `C56_samples`.
* **C57** Line sources inject the configured total amplitude - *partial*. Profile, cells, update, totals and pulse ends proved for all line sources; point sources except Ricker (C57_point_signals_partial). False of Ricker point sources (UnboundLocalError, C57_ricker_false) and of line sources given by three single indices (NaN, C57_single_false). C57_profile_width: how wide the profile of a line source is.
  Files: `Props/FdtdSignals.lean`.
  Theorems: `C57_ends`, `C57_injects`, `C57_line`, `C57_line_signals`, `C57_point`, `C57_point_signals_partial`, `C57_profile`, `C57_profile_width`, `C57_ricker_false`, `C57_single_false`, `C57_total`, `C57_update`.
* **C58** Line and block index lists stay inside the grid - *partial*. Line detectors and sources: proved for single indices and slices with non-negative bounds. False of negative slice bounds (C58_negative_false), of index lists mixed with slices (C58_list_false) and of block detectors over full slices (C58_block_false) or index lists (C58_blocklist_false); C58_block_partial covers blocks that stop before the end. C58_lists_cells: with three lists of indices a line source or line detector sits exactly on the listed cells, in order; C58_lists_lengths: lists of unequal length end in an IndexError for line sources, line detectors and block detectors.
  Files: `Props/FdtdLists.lean`, `Props/FdtdSources.lean`.
  Theorems: `C58_block_false`, `C58_block_partial`, `C58_blocklist_false`, `C58_line_partial`, `C58_list_false`, `C58_lists_cells`, `C58_lists_lengths`, `C58_negative_false`, `C58_reversed`.
* **C59** The FDTD geometry is a contiguous stack with detectors on either side - *partial*. Layer slices adjoin, cover the stack, detectors and layers proved inside the free space, materials written to the addressed cells, complete grid proved equal to an independent description (C59_init_partial; C59_point_partial for point sources), for positive geometry. False of detectors next to the rear PML (C59_detector_false), PMLs thinner than a cell (C59_pml_false), and negative thicknesses (C59_thickness_false).
  Files: `Props/FdtdEntry.lean`, `Props/FdtdLayout.lean`, `Props/FdtdStack.lean`.
  Theorems: `C59_accepted`, `C59_detector_false`, `C59_detectors_partial`, `C59_init_partial`, `C59_layers_partial`, `C59_material_partial`, `C59_pml_false`, `C59_point_partial`, `C59_thickness_false`.
* **C60** The grid resolves the shortest wavelength - *proved*. Scaling is the least value with ten cells per shortest wavelength and the configured minimum, for all inputs; lifted to all wavelengths of the spectrum (C60_run: to every run of the FDTD driver).
  Files: `Props/FdtdEntry.lean`, `Props/FdtdLayout.lean`.
  Theorems: `C60_run`, `C60_smallest`, `C60_spectrum`.
* **C61** Computing a spectrum leaves the user's configuration meaning unchanged - *partial*. Effects on the config proved for all accepted configs, both solvers, and idempotence of the run whatever its outcome. C61_thickness_false: a one-element thickness list is replaced by one entry per layer, so changing N_layers afterwards is rejected.
  Files: `Props/FdtdSpectrum.lean`.
  Theorems: `C61_again`, `C61_config_partial`, `C61_thickness_false`, `C61_views`.
* **C62** Returned FDTD coefficients are normalised when they exceed one - *partial*. Holds for sums below 1.05; from 1.05 on the pair is returned unchanged (C62_false).
  Files: `Props/FdtdCoefficients.lean`.
  Theorems: `C62_false`, `C62_partial`.
* **C63** Transient removal returns a non-trivial tail of the signal - *partial*. Holds for more than two windows after the leading zeros and for fewer than two; exactly two windows raise RuntimeError (C63_false); a signal of zeros with a short tail keeps less than a window (C63_zeros_false).
  Files: `Props/FdtdCoefficients.lean`.
  Theorems: `C63_false`, `C63_short`, `C63_tail_partial`, `C63_zeros_false`.
* **C64** Peak finding returns exactly the strict interior maxima - *proved*. All of the statement.
  Files: `Props/FdtdCoefficients.lean`.
  Theorems: `C64_peaks`.
* **C65** Coefficients depend only on relative signal strength - *partial*. Positive constants leave T and R unchanged unless an absolute threshold is crossed; negative ones change them (C65_sign_false); weak signals raise ValueError (C65_weak_false); k^2 law and non-negativity proved.
  Files: `Props/FdtdScaling.lean`.
  Theorems: `C65_nonneg`, `C65_scale_partial`, `C65_sign_false`, `C65_square_partial`, `C65_steady`, `C65_weak_false`.
* **C66** A structure made of vacuum is invisible to the FDTD pipeline - *partial*. Reflection zero always; transmission one if both thresholds keep the same tail (C66_same_tail); in general not (C66_false: 5/8). C66_signals: a stack of permittivity one gives exactly the free-space signals; C66_solver_partial carries this to the solver; C66_accepted: an accepted config for which the whole solver returns exactly R = 0, T = 1.
  Files: `Props/FdtdPipeline.lean`, `Props/FdtdScaling.lean`, `Props/FdtdWitness.lean`.
  Theorems: `C66_accepted`, `C66_false`, `C66_partial`, `C66_same_tail`, `C66_signals`, `C66_solver_partial`.
* **C67** Both solvers agree on which index is which frequency - *partial*. Index, length and order of both solvers' lists proved for all configs and grids. C67_stale_false: the RCWA solver uses frequencies stored by an earlier configuration.
  Files: `Props/FdtdSpectrum.lean`.
  Theorems: `C67_both_partial`, `C67_fdtd`, `C67_slice`, `C67_stale_false`.
* **C68** Detector averaging is the spatial mean - *proved*. All of the statement.
  Files: `Props/FdtdCoefficients.lean`.
  Theorems: `C68_linear`, `C68_mean`, `C68_uniform`.
* **C69** The current detector averages two loop currents - *partial*. The y part of the upper loop is counted twice (C69_false); uniform fields give zero.
  Files: `Props/FdtdCoefficients.lean`.
  Theorems: `C69_false`, `C69_partial`.
* **C70** Backend selection and zero padding accept exactly the documented requests - *partial*. Exact set of accepted names and all outcomes of set_backend; padding for a requested number of bins and the default. C70_names_false: any torch attribute is accepted as number type; C70_rejected_false: an unknown type moves the backend to the CPU; C70_negative_false, C70_resolution_false: negative paddings.
  Files: `Props/Backend.lean`.
  Theorems: `C70_accepts_partial`, `C70_bins_partial`, `C70_default`, `C70_documented`, `C70_names_false`, `C70_negative_false`, `C70_rejected_false`, `C70_rejected_partial`, `C70_resolution_false`.
* **C71** Shipped materials never amplify light - *partial*. All ten tables transcribed. Nine are passive at every frequency; aluminium oxide has negative k in eleven rows, so it amplifies at every wavelength of 0.28 um and below (C71_aluminium_oxide_false); passive windows proved.
  Files: `Props/Tables.lean`.
  Theorems: `C71_aluminium_oxide_false`, `C71_aluminium_oxide_partial`, `C71_collection`, `C71_passive_partial`, `C71_tables_sorted`.
* **C72** Every frequency is scored by the loss - *partial*. False: zip truncates, so frequencies without a target are ignored. Partial: equal lengths.
  Files: `Props/Loss.lean`.
  Theorems: `C72_false`, `C72_partial`.
* **C73** Training recovers from a solver failure - *partial*. False: before the first stored model the reloaded state is the live one, a deterministic failure repeats for ever. Partial: once a model is stored.
  Files: `Props/Training.lean`.
  Theorems: `C73_false`, `C73_partial`.
* **C74** Every accepted encoding dimension can be evaluated - *partial*. False: only encoding_dim = 4 matches the four-column input. Partial: encoding_dim = 4.
  Files: `Props/Nets.lean`.
  Theorems: `C74_false`, `C74_partial`.
* **C75** A voxel model starts inside the configured ranges - *proved*. Affine image of [0,1) inside the range; onto; classification rejected.
  Files: `Props/Nets.lean`.
  Theorems: `C75_grid`, `C75_onto`, `C75_range`.
* **C76** A rejected placement leaves the grid as it was - *partial*. False: boundaries are appended to the grid before any check, so a rejected one stays active (C76_boundary_false). What is preserved is proved.
  Files: `Props/FdtdBoundary.lean`.
  Theorems: `C76_boundary_false`, `C76_boundary_partial`.
* **C77** Assigning one boundary object to two sides gives both sides that boundary - *partial*. False: the object is accepted twice but only acts on the second side (C77_reuse_false). Named objects are protected (C77_named_partial).
  Files: `Props/FdtdBoundary.lean`.
  Theorems: `C77_named_partial`, `C77_reuse_false`.
* **C78** The FDTD solver simulates the lateral pattern it is given or refuses it - *partial*. Proved for laterally uniform grids; C78_false: only the first lateral cell of a grid is simulated, a checkerboard gets the vacuum answer.
  Files: `Props/FdtdSpectrum.lean`.
  Theorems: `C78_false`, `C78_uniform_partial`.
* **C79** The check for enough time steps only warns - *partial*. Proved whenever some real part is non-negative; C79_metal_false: if all real parts are negative the check raises a ValueError (sqrt of a negative number, then int of NaN).
  Files: `Props/FdtdSpectrum.lean`.
  Theorems: `C79_metal_false`, `C79_warns_partial`.
* **C80** The frequency-domain routine returns the spectrum of a recorded signal - *partial*. C80_fft_false: the routine always raises after the first step (padding mode unknown to torch); only the empty result before the first step is returned. C80_frequencies is the part that does work, the frequency axis.
  Files: `Props/Backend.lean`.
  Theorems: `C80_fft_false`, `C80_frequencies`, `C80_start_partial`.
* **C81** Unit conversions of the fields are inverse to each other - *proved*. Proved over the reals.
  Files: `Props/Backend.lean`.
  Theorems: `C81_impedance`, `C81_inverse`.
* **C82** Normalised pulses have peak value one and the requested width - *proved*. Proved over the reals.
  Files: `Props/Backend.lean`.
  Theorems: `C82_derivative`, `C82_gaussian`.
* **C83** The sources emit the wavelength that is simulated - *partial*. Continuous signals (5 %) and Ricker pulses of line sources proved for all grids; C83_hanning_false: the Hanning pulse ignores the grid's time step and misses a factor 2π.
  Files: `Props/FdtdWaves.lean`.
  Theorems: `C83_continuous_partial`, `C83_hanning_false`, `C83_ricker_partial`.
* **C84** A plane source acts on exactly the addressed plane - *partial*. Placement, refusal and effect proved for locations given by single indices and slices with non-negative bounds. False for the last plane addressed by -1 (accepted, acts on no cell), and of the polarisation check, which is a substring test ('xy', '' are accepted and drive the normal component).
  Files: `Props/FdtdPlane.lean`.
  Theorems: `C84_last_false`, `C84_order`, `C84_placed_partial`, `C84_polarization_false`, `C84_refused`, `C84_sets`.
* **C85** A plane source emits in the same direction for both polarisations - *partial*. False: the H component is imposed with the same sign for both polarisations, so the two emit in opposite directions. What holds: fields perpendicular to each other and the normal.
  Files: `Props/FdtdPlane.lean`.
  Theorems: `C85_direction_false`, `C85_normal_partial`.
* **C86** A soft point source plays its waveform into its cell - *partial*. Placement and per-step effect of unnamed sources proved. False for named sources: registering one always raises UnboundLocalError.
  Files: `Props/FdtdPlane.lean`.
  Theorems: `C86_named_false`, `C86_placed`, `C86_step`.
* **C87** A layer absorbs what the imaginary part of its permittivity says - *proved*. Real part exact; the imaginary part within 3 % (semi-implicit conductivity at finite time step).
  Files: `Props/FdtdLoss.lean`.
  Theorems: `C87_layer`, `C87_passive`.
* **C88** Validation accepts every config that is in order - *proved*. Acceptance against an independent structure ConfigInOrder describing the documented keys, types and ranges.
  Files: `Props/ConfigAccept.lean`.
  Theorems: `C88_accepts`.
* **C89** No solver runs on an invalid config, and the named network is built - *proved*. Both parts proved for every solver and every config.
  Files: `Props/ConfigAccept.lean`.
  Theorems: `C89_network`, `C89_rejected`.
* **C90** A point source of an accepted config is placed where it is configured - *partial*. Proved when the y coordinate lies in the three rows of the simulated grid; false in general: the default config with a point source is accepted and every simulation raises IndexError.
  Files: `Props/FdtdPoint.lean`.
  Theorems: `C90_cell_partial`, `C90_row_fails`, `C90_row_false`.
* **C91** The FDTD solver illuminates the stack under normal incidence - *proved*. Proved for line sources and the mean of the two rows that are coupled by the periodic update (rows 1 and 2), between the absorbing layers.
  Files: `Props/FdtdRows.lean`.
  Theorems: `C91_mean`.
* **C92** The wave front arrives at the detectors on time - *proved*. Proved with an explicit margin from the absorbing layers: the detector must not be reachable from a PML cell within the D + 2 steps (a PML emits its additive 1e-16). The default config does not meet the margin because its source touches the PML.
  Files: `Props/FdtdFront.lean`.
  Theorems: `C92_arrival`.
* **C93** A trained config can be used again with all its settings - *proved*. Config effects of run_training (with at least one call of the solver) on all entries; C93_runs: a second run with the result of a first one is prepared without error, for every network and every config.
  Files: `Props/TrainConfig.lean`.
  Theorems: `C93_again`, `C93_runs`.
* **C94** Every config can be printed - *partial*. False after training: the entries model, results and best_model_state_dict have no width format and raise TypeError (C94_trained_false). C94_printed_partial: configs without runtime objects.
  Files: `Props/TrainConfig.lean`.
  Theorems: `C94_printed_partial`, `C94_trained_false`.
* **C95** Spectrum plots show the simulated wavelengths and the logged error - *proved*. Proved on the data handed to matplotlib; the drawing itself is not modelled.
  Files: `Props/Plots.lean`.
  Theorems: `C95_lengths`, `C95_logged`, `C95_spectra`.
* **C96** Grid plots show the magnitude of the permittivity - *partial*. False: plot_model_grid averages before taking the modulus (1 and -1 are shown as 0), plot_epsilon_grid takes the Euclidean norm over frequencies (four frequencies of permittivity 1 are shown as 2). The partial theorems say what is shown.
  Files: `Props/Plots.lean`.
  Theorems: `C96_epsilon_false`, `C96_epsilon_partial`, `C96_model_false`, `C96_model_partial`.
* **C97** Grid plots show every cell at its own place with the right label - *proved*. Proved on the data handed to matplotlib, for tensors of the configured size. C97_sizes: tensors with another number of cells are refused. A tensor of another shape with the same number of cells is accepted and drawn in the shape of the config.
  Files: `Props/Plots.lean`.
  Theorems: `C97_cells`, `C97_curves`, `C97_per_frequency`, `C97_sizes`.
* **C98** The material plot names the closest material of each cell - *proved*. Proved with matplotlib's rule for discrete colour maps (int((c - vmin)/(vmax - vmin)*n)) as part of the model.
  Files: `Props/Plots.lean`.
  Theorems: `C98_names`.
* **C99** All plots of a trained config can be saved - *partial*. False for one to three frequencies: plot_model_grid_per_freq always asks for the first four (C99_few_false). C99_saved_partial: four or more frequencies and per-frequency material data.
  Files: `Props/Plots.lean`.
  Theorems: `C99_few_false`, `C99_saved_partial`.
* **C100** The trained network fits the settings - *partial*. False if the config still holds the network of an earlier run (C100_stale_false): regression, then classification with the same config. C100_fresh_partial: networks built by the run itself.
  Files: `Props/TrainConfig.lean`.
  Theorems: `C100_fresh_partial`, `C100_stale_false`.
* **C101** Mode amplitudes can be queried anywhere in the structure - *partial*. False for every layer in the middle (AttributeError: torch has no inv, C101_inner_false). The partial theorems cover the first and last layer, the interface of two layers and the transmitted power.
  Files: `Props/RcwaFields.lean`.
  Theorems: `C101_back_partial`, `C101_front_partial`, `C101_inner_false`, `C101_interface_partial`, `C101_power_partial`.
* **C102** The solver solves Maxwell's equations - *proved*. Maxwell's equations in Fourier space are a separate specification (Spec/Maxwell.lean); both directions, completeness by uniqueness of solutions of the linear differential equation. Retained orders only: truncation error is not bounded. For patterned layers the matrices are those after Epsilon_fft's filter (C15); the hypotheses are that eigen-solver returned a basis of eigenvectors with non-zero eigenvalues.
  Files: `Props/Maxwell.lean`.
  Theorems: `C102_grid`, `C102_grid_realises`, `C102_solver`, `C102_stack`, `C102_uniform`, `C102_uniform_realises`.
* **C103** Fields inside the structure can be queried - *partial*. False: every query raises AttributeError (torch has no isinstance). C103_front_partial: with the missing function replaced the first layer's fields solve Maxwell's equations.
  Files: `Props/RcwaFields.lean`.
  Theorems: `C103_error_false`, `C103_front_partial`, `C103_queries_false`.
* **C104** Volume integrals integrate the modes over the thickness - *partial*. False: every call raises AttributeError in SolveInterior, and Gmeshgrid raises ValueError on its own. C104_weights_partial: the formulas of the weights are the right integrals off the diagonal. Not modelled behind the failing call: the weights are used conjugated and Mx, My are applied to (-Ey, Ex).
  Files: `Props/RcwaFields.lean`.
  Theorems: `C104_diagonal_false`, `C104_mesh_false`, `C104_volume_false`, `C104_weights_partial`.
* **C105** The permittivity profile of a layer can be read back - *partial*. False for patterned layers (always an error) and Fourier layers (returns None).
  Files: `Props/RcwaFields.lean`.
  Theorems: `C105_fourier_false`, `C105_patterned_false`, `C105_uniform_partial`.
* **C106** Both documented truncation schemes select orders - *partial*. False for the parallelogram scheme, which always raises TypeError (torch.sqrt of an int).
  Files: `Props/RcwaFields.lean`.
  Theorems: `C106_circular_partial`, `C106_parallelogram_false`, `C106_refused`.
* **C107** Light from behind behaves like light on the turned structure - *partial*. C107_mirror_partial: exact mirror symmetry for the same normalisation, for any structure. False: with different media on the two sides the powers are normalised with the wrong one (C107_energy_false, R + T = 1/2 for vacuum and index two; C107_scaled_partial: sqrt(eps0/epsN) in general).
  Files: `Props/Backward.lean`.
  Theorems: `C107_energy_false`, `C107_energy_partial`, `C107_mirror_partial`, `C107_scaled_partial`, `C107_unknown`.
* **C108** Powers by order are physical and add up to the totals - *proved*. Totals for every structure; sign and evanescence between transparent half-spaces at real frequencies; specular for stacks of uniform layers at any complex frequency. C108_unnormalised says what normalize = 0 means.
  Files: `Props/Orders.lean`.
  Theorems: `C108_orders`, `C108_specular`, `C108_sum`, `C108_unnormalised`.
* **C109** The excitation is the plane wave that was asked for - *partial*. C109_wave_partial gives all six components. False for the documented meaning of the amplitudes when the front medium is not vacuum (they are magnetic amplitudes).
  Files: `Props/RcwaFields.lean`.
  Theorems: `C109_amplitude_false`, `C109_vacuum`, `C109_wave_partial`.
* **C110** Anisotropic patterns act along their own axes - *partial*. False: x and y are exchanged (C110_axes_false); C110_swapped_partial proves which pattern acts on which component.
  Files: `Props/Maxwell.lean`.
  Theorems: `C110_axes_false`, `C110_swapped_partial`.
* **C111** The steady-state test looks at whole oscillations - *partial*. Holds (with two periods) whenever the configured minimum density already resolves the shortest wavelength with ten points (C111_window_partial). False otherwise: the grid is refined, the window is not. With the default density it is shorter than a period below 0.476 micrometres (C111_short_false) and empty below 33 nm, where no run succeeds (C111_empty_false).
  Files: `Props/FdtdWindow.lean`.
  Theorems: `C111_empty_false`, `C111_short_false`, `C111_window_partial`.
* **C112** Homogeneous stacks agree with the textbook thin-film method - *proved*. C112_films: equality with the independent specification Spec/Films.lean at real frequencies, for every input for which the solver answers and no order grazes (division by zero in the code). C112_driver: at the driver's complex frequency and normal incidence, including that it answers, with the loss in the front layer. Consequences with existence: C112_fresnel (Snell), C112_brewster, C112_total, C112_quarter; C112_halfwave.
  Files: `Props/Films.lean`, `Props/FilmsCases.lean`.
  Theorems: `C112_brewster`, `C112_driver`, `C112_films`, `C112_fresnel`, `C112_halfwave`, `C112_quarter`, `C112_total`.
* **C113** The RCWA solver answers for every passive structure - *partial*. C113_modes: for regular layers the solver answers exactly when no front part of the stack (the first layers, the last one continued for ever) carries a field without being lit. C113_damped_partial, C113_patterned_partial: never fails for passive uniform or patterned layers at frequencies with positive imaginary part; the matrices of Epsilon_fft exist for every such pattern (C15_invertible). Missing: patterned layers with coefficients that the filter of C15 drops; independence of the eigenvectors is assumed. C113_driver: homogeneous stacks at the driver's frequencies, no assumption. C113_real: real frequencies if all retained orders propagate in front. C113_plasmon_false: without that it fails, at the surface plasmon of a lossless metal.
  Files: `Props/ConvSolvable.lean`, `Props/Solvable.lean`.
  Theorems: `C113_damped_partial`, `C113_driver`, `C113_modes`, `C113_patterned_partial`, `C113_plasmon_false`, `C113_real`.
* **C114** The answer does not depend on the choice of eigenvectors - *proved*. C114_eigenvectors: both directions (answers, and the same answer), for every two lists of layers that the solver may hold for the same structure (Spec/Structure.lean `Built`). Hypothesis: the matrices of the layers of one of them are invertible and no mode has wave number zero.
  Files: `Props/Invariance.lean`.
  Theorems: `C114_eigenvectors`.
* **C115** Scale invariance of Maxwell's equations - *proved*. C115_scale (complex frequencies included), C115_orders (candidates, sort and truncation). Patterned layers hold arbitrary eigenvectors on either side.
  Files: `Props/Invariance.lean`, `Props/Orientation.lean`.
  Theorems: `C115_orders`, `C115_scale`.
* **C116** Shifting all patterns together changes nothing - *partial*. C116_shift_partial: holds when the filter of Epsilon_fft leaves the coefficients of the pattern and of the shifted pattern alone (all of them zero, or with real or imaginary part at least 1e-14). Missing: the other patterns. C116_shift_false: a lossless grating of two pixels reflects nothing, shifted by one pixel 47.9 %, computed in closed form from the program's own equations.
  Files: `Props/Shift.lean`, `Props/ShiftWitness.lean`.
  Theorems: `C116_shift_false`, `C116_shift_partial`.
* **C117** Rotating or reflecting structure and light together changes nothing - *proved*. C117_rotation, C117_mirror for all lattices and patterns; C117_orders for the selection.
  Files: `Props/Orientation.lean`.
  Theorems: `C117_mirror`, `C117_orders`, `C117_rotation`.
* **C118** The numbering of the diffraction orders does not matter - *proved*. C118_selection: any two sorts retain the same orders up to numbering. C118_numbering: the answer is independent of the numbering.
  Files: `Props/Relabel.lean`, `Props/Selection.lean`.
  Theorems: `C118_numbering`, `C118_selection`.
* **C119** Symmetric patterns respond symmetrically - *proved*. C119_flip, C119_turn, C119_polarisation for every renumbering of the orders that realises the symmetry; C119_selection: it exists for every request.
  Files: `Props/Relabel.lean`, `Props/Selection.lean`.
  Theorems: `C119_flip`, `C119_polarisation`, `C119_selection`, `C119_turn`.
* **C120** Absorbing layers stretch exactly the derivative across them - *partial*. C120_electric_partial, C120_magnetic: for runs of any length from any fields, the layer fresh, among any other boundaries; the memory recursion is solved in closed form; the 1e-16 the code adds is part of the statement. The cell must lie in one layer only, outside planes overwritten by periodic boundaries, sources and conductors. Missing: the electric field in the first plane of an upper layer, which is not damped although it conducts (C120_entry for all grids, C120_first_false).
  Files: `Props/FdtdStretch.lean`.
  Theorems: `C120_electric_partial`, `C120_entry`, `C120_first_false`, `C120_magnetic`.
* **C121** Light runs the opposite way with the same reflectance and transmittance - *proved*. C121_specular (reflection, complex frequencies and lossy layers included), C121_through (transmission through the turned stack along the reversed path; the exact factor of the damping in the two outer layers is part of the statement and is 1 at real frequencies), C121_pairs (the retained orders always come in opposite pairs, so the hypothesis on the numbering holds on every lattice), C121_subwavelength (whole reflectance when only the central order propagates). Proved from a bilinear invariant of the stack, the filter on the permittivity included. Not claimed for diffracted orders: their reversed illumination uses a shifted set of orders, which the truncation does not keep.
  Files: `Props/Reciprocity.lean`.
  Theorems: `C121_pairs`, `C121_specular`, `C121_subwavelength`, `C121_through`.
* **C122** The gradients that training follows exist - *partial*. C122_films (any angle and complex frequency, wherever the solver answers and no squared wave number lies on the positive half line), C122_driver (unconditional for films at the driver's frequencies and normal incidence, transparent films and the edges of diffraction orders included), C122_patterned (patterned layers wherever every wave decays, also where eigenvalues coincide), C122_damped (passive patterns at damped frequencies, with no Fourier coefficient at or below the filter's threshold). False at the filter's threshold: C122_jump, C122_filter_false. Exact arithmetic; torch's own derivative rules (which divide by differences of eigenvalues) are not modelled.
  Files: `Props/Smooth.lean`, `Props/SmoothFilter.lean`, `Props/SmoothPattern.lean`.
  Theorems: `C122_damped`, `C122_driver`, `C122_films`, `C122_filter_false`, `C122_jump`, `C122_patterned`.
* **C123** Waves on the FDTD grid travel undistorted, never faster than light, and resolved waves almost as fast - *proved*. C123_wave: exact solution for every number of steps; C123_exists: the wave exists below the limit; C123_speed, C123_velocity: the phase velocity between (1 - |kappa|^2/24) and 1 times that of light, in cells per step and in SI units. Uniform lossless media and periodic boundaries only; absorbing layers and interfaces are not covered.
  Files: `Props/FdtdDispersion.lean`.
  Theorems: `C123_exists`, `C123_speed`, `C123_velocity`, `C123_wave`.
* **C124** What the FDTD grid settles into behind a stack of layers is the thin-film solution, and refining the grid leads to the RCWA result - *proved*. C124_films: exact film formulas for every settled state (impedances cos(kappa/2)/n, phase kappa per cell); C124_settling, C124_films_settling: the same for grids whose row sums only tend to an oscillation about a static field; C124_driver: the grid the solver builds for a configured stack settles into the films of that stack, each within one cell of its thickness, with the loss scaled by lossFactor; C124_power: power balance; C124_persists, C124_exists, C124_settles: such states exist and persist on the grid for every passive stack; C124_converges: limit of vanishing spacing; C124_agrees: the limit is what the RCWA solver returns. Not covered: that a simulation with NIDN's source settles within its steps, and the detectors' normalisation (C62, C65).
  Files: `Props/FdtdFilms.lean`, `Props/FdtdFilmsDriver.lean`, `Props/FdtdFilmsLimit.lean`.
  Theorems: `C124_agrees`, `C124_converges`, `C124_driver`, `C124_exists`, `C124_films`, `C124_films_settling`, `C124_persists`, `C124_power`, `C124_settles`, `C124_settling`, `C124_stationary`.
* **C125** Stored results can be loaded again and do not replace one another - *partial*. C125_roundtrip, C125_saves: storing and loading. C125_distinct, C125_both_partial: names without slash lead to different files unless folder, name and second agree. C125_batch_partial: after a batch of configs with different names all runs and plots are there. False in general: same name within one second (C125_replaced_false), a name with a slash raises after the training and the run is lost (C125_slash_false), two configs of one batch with the same name: the plots of the first are overwritten (C125_batch_false). Pickling is taken to be faithful; links, permissions and a full disk are not modelled.
  Files: `Props/Runs.lean`.
  Theorems: `C125_batch_false`, `C125_batch_partial`, `C125_both_partial`, `C125_distinct`, `C125_missing`, `C125_replaced_false`, `C125_roundtrip`, `C125_saves`, `C125_slash_false`.
* **C126** Components of a grid are available under their names, and the stored readings hold every detector's signals - *partial*. C126_accepted, C126_when: when a placement succeeds and that the name then stands for the component; C126_stays_partial: names keep their meaning under every program; C126_saved_partial: exactly two arrays per detector. False in general: save_data raises as soon as one detector is unnamed (C126_unnamed_false) or measures currents (C126_current_false); a rejected detector of the same name replaces the stored readings (C126_rejected_false); a component called full_sim_name is lost (C126_simname_false); the add_ methods raise for every component (C126_add_false) and leave an absorbing object behind (C126_add_leaves_false).
  Files: `Props/FdtdNames.lean`.
  Theorems: `C126_accepted`, `C126_add_false`, `C126_add_leaves_false`, `C126_current_false`, `C126_order`, `C126_rejected_false`, `C126_saved_partial`, `C126_simname_false`, `C126_stays_partial`, `C126_unnamed_false`, `C126_when`.
* **C127** The FDTD spectrum tells the requested wavelengths apart - *partial*. C127_simulate, C127_point: with a continuous source the wavelength enters a simulation of a lossless stack only through the number of time steps per period (and the integer window of the steady-state test), for every stack and config; C127_separate_partial: wavelengths that differ by at least the way of light in one time step get different periods, and the simulated wavelength is within half of that way. False in general: with the default settings the target points 1.00 and 1.01 micrometres of an accepted config give identical results for every lossless stack with the same permittivities at both (C127_resolution_false), although eight default layers of index 2 reflect 0 and more than 1/5 at the two (C127_films).
  Files: `Props/FdtdResolution.lean`.
  Theorems: `C127_films`, `C127_point`, `C127_resolution_false`, `C127_separate_partial`, `C127_simulate`.
* **C128** The coefficients of settled signals are ratios of powers - *partial*. C128_power: the power found in any stretch of at least 2P + 2 samples of an oscillation with P samples per period is exactly half the squared amplitude, for every phase off the ties; C128_ratio: the coefficients of four settled signals are the squared ratios of the amplitudes. False of ties, when a crest lies exactly half way between two samples: no sample is a strict maximum and the power is taken from the highest sample, too small by the factor cos^2(pi/P) (C128_tied, C128_tied_false).
  Files: `Props/FdtdSettled.lean`.
  Theorems: `C128_power`, `C128_ratio`, `C128_tied`, `C128_tied_false`.
* **C129** The decibel map of a block detector shows how many decibels each cell is above the quietest one - *partial*. C129_map, C129_zero, C129_units, C129_rejected for all readings; C129_total_partial: a map is drawn exactly when every cell moves - one cell standing still makes the smallest swing zero and all values infinite or nan. C129_decibel_false: the numbers are not decibels of intensity (ten times the logarithm of an amplitude ratio is half of them).
  Files: `Props/FdtdDecibel.lean`.
  Theorems: `C129_decibel_false`, `C129_map`, `C129_rejected`, `C129_total_partial`, `C129_units`, `C129_zero`.
* **C130** The picture of a grid shows fields and components in their cells - *partial*. C130_rejected (ValueError iff), C130_energy_partial and C130_total_partial (pixels; when a picture is drawn), C130_object_partial, C130_pml, C130_periodic, C130_line, C130_detector (exactly which points are covered or lie on lines), C130_plane_partial, C130_point_partial. False of point sources: the marker sits on a corner of the pixel, and in cuts across y marker and blanked pixel use the y coordinate as x (C130_point_false, may raise IndexError); of plane sources seen from the side, drawn with zero area (C130_plane_false); of objects placed with a negative index, drawn outside the picture (C130_object_false).
  Files: `Props/FdtdPicture.lean`.
  Theorems: `C130_detector`, `C130_energy_partial`, `C130_line`, `C130_object_false`, `C130_object_partial`, `C130_periodic`, `C130_plane_false`, `C130_plane_partial`, `C130_pml`, `C130_point_false`, `C130_point_partial`, `C130_rejected`, `C130_total_partial`.
* **C131** Frames never overwrite each other, and making the video leaves the process as it was - *partial*. C131_frames, C131_video (any success), C131_unsaved. False when ffmpeg is missing or fails: CalledProcessError is constructed with one argument, so a TypeError is raised, and the working directory stays changed (C131_failure_false).
  Files: `Props/FdtdVideo.lean`.
  Theorems: `C131_failure_false`, `C131_frames`, `C131_unsaved`, `C131_video`.
* **C132** Without the warning about too few time steps the simulation is long enough - *partial*. C132_long_partial: without warning the steps suffice for 99 percent of the way, for all stacks whose real permittivities occur in the grid. The missing percent is real: C132_short_false - with exactly the recommended number there is no warning, and the light goes at most 99 percent of the way, since the grid's Courant number is 0.99/sqrt(2) and the recommendation assumes 1/sqrt(2). C132_warning (the converse direction) and C132_computed (when the check raises) are complete.
  Files: `Props/FdtdSteps.lean`.
  Theorems: `C132_computed`, `C132_long_partial`, `C132_short_false`, `C132_warning`.
* **C133** Printing a grid lists every component with its kind, name and position - *partial*. C133_prints_partial: for every program of accepted placements of different components, none on an empty list of cells, the text is given explicitly (one entry per component, in order, with its position); C133_entry and C133_location: the entries are in index notation for all slices with and without bounds and steps, and positions that are not lists of cells can be read off. False of the code: after a refused placement printing raises for good (C133_rejected_false); detectors on empty ranges are accepted and make printing raise (C133_empty_false); every boundary is called PML (C133_kind_false); of lists only the first and last cell are shown (C133_cells_false); the bracket notation means different things for plane sources and detectors (C133_brackets_false). Texts of numbers that are not integers are parameters; SoftArbitraryPointSource is left out. C133_first_line, C133_told_apart: every entry opens with the class and the name of the component, and components of different class or name have different entries; C133_at_cell, C133_at_slices, C133_at_plane: the line below gives the cell, the ranges or the box the component was registered with; C133_header: the size of the grid stands first. C133_rejected_keeps: refused second placements of sources and detectors leave the shown place as it was; C133_half_moved_false: a boundary that is refused at its second or third axis is left with the first coordinates changed. C133_at_object, C133_at_pml: the same for objects and absorbing boundaries.
  Files: `Props/FdtdPrint.lean`, `Props/FdtdPrintWhere.lean`.
  Theorems: `C133_at_cell`, `C133_at_object`, `C133_at_plane`, `C133_at_pml`, `C133_at_slices`, `C133_brackets_false`, `C133_cells_false`, `C133_empty_false`, `C133_entry`, `C133_first_line`, `C133_half_moved_false`, `C133_header`, `C133_kind_false`, `C133_location`, `C133_missing`, `C133_prints_partial`, `C133_raises`, `C133_rejected_false`, `C133_rejected_keeps`, `C133_text`, `C133_told_apart`.
* **C134** Every accepted config leads to a permittivity grid of the configured shape - *partial*. C134_regression: holds for every accepted regression config with a network of two outputs on four inputs, or a voxel model; C134_networks: nerf (depth other than 3 and 4) and siren are such networks. C134_classification_partial: holds for classifications with at least two frequencies, or one material. False of the code: with one frequency and several materials every accepted config gives one slice per material and the RCWA solver stops with an AssertionError (C134_single_false); a nerf with three hidden layers cannot be reshaped (C134_depth_false).
  Files: `Props/Shapes.lean`.
  Theorems: `C134_classification_partial`, `C134_depth_false`, `C134_networks`, `C134_regression`, `C134_single_false`.
* **C135** plot_detection shows when a pulse arrives at each line detector - *partial*. C135_plots_partial: envelopes and arrivals, for all dictionaries of line and other detectors whose last entry has readings and (without specific_plot) at most four columns. C135_envelope, C135_delay: exact analytic signal in place of scipy's float one. C135_first_cell: only the first cell of a detector counts. C135_names: the names written by save_data are taken. False of the code: UnboundLocalError without detectors (C135_empty_false); ValueError, and nothing shown, if the last detector is a block detector with more than four columns (C135_block_false); TypeError if the readings of the last entry have two axes only (C135_flat_false).
  Files: `Props/FdtdArrival.lean`.
  Theorems: `C135_block_false`, `C135_delay`, `C135_empty_false`, `C135_envelope`, `C135_first_cell`, `C135_flat_false`, `C135_names`, `C135_plots_partial`.
* **C136** An accepted config can be trained - *partial*. C136_exact: for accepted configs with positive wavelengths, the preparation succeeds if and only if seed, iterations and network settings are as listed in Trainable (constructors modelled layer by layer; limits of torch and numpy as contracts). C136_partial: sufficient settings for nerf and siren. C136_false: eight kinds of accepted configs that cannot be trained. The GPU switch is left out.
  Files: `Props/TrainBuild.lean`.
  Theorems: `C136_exact`, `C136_false`, `C136_partial`.
* **C137** An accepted RCWA run of uniform layers is answered, correctly - *partial*. C137_uniform_partial: the whole chain (config entries, frequencies, validation, dispatch, lattice, order selection with any tie-breaking, layer stack, RCWA) for accepted configs with a proper cell, at least two orders, positive surrounding permittivities, non-negative thicknesses and permittivities that do not amplify at the damped frequency; the values are those of the characteristic-matrix method at that frequency. C137_false: accepted configs for which a vacuum stack is not answered. C137_without_frequencies: the AssertionError if no frequencies are stored. Several cells per layer: C156.
  Files: `Props/RcwaEntry.lean`.
  Theorems: `C137_false`, `C137_uniform_partial`, `C137_without_frequencies`.
* **C138** A current detector records the current of each requested cell in each step - *partial*. C138_partial (slices), C138_cell (integers), C138_lists: number, place and time of the readings for cells that have neighbours below on each axis (or lie on an axis of one cell); the value is the one of C69. C138_ampere: the loop current is the displacement current of the next step. False: C138_no_current_false (1/2 where nothing flows), C138_lists_false (two points, eight readings), C138_edge_false (index 0 reads the last plane), C138_whole_false (a whole axis raises in the first step). Detectors with a name already taken are in C126.
  Files: `Props/FdtdCurrent.lean`.
  Theorems: `C138_ampere`, `C138_cell`, `C138_edge_false`, `C138_lists`, `C138_lists_false`, `C138_no_current_false`, `C138_partial`, `C138_whole_false`.
* **C139** A one-dimensional simulation that ends in absorbing layers never blows up - *partial*. C139_apart_partial: two runs of the same row of cells stay within √((c + κ(1+40/a))/(1−c)) times initial distance plus the difference of what the sources added (κ the greatest relative permittivity or permeability, c the Courant number, a the loss parameter of the layers), by an energy that counts fields and memories of the layers and never grows. C139_bounded_partial: a single run between layers of vacuum, same factor, plus a term of at most (k + A·k²)·10⁻¹⁶ order after k steps. C139_false: the last sentence is false, because PML.update_E adds 10⁻¹⁶ to every component in the layers in every step: a dark grid ends up beyond every bound. Missing: grids with more than one cell across; sources that set rather than add; conductors inside the layers; the tangential fields of the outermost planes are required to agree (fresh grids do).
  Files: `Props/FdtdLayerStable.lean`.
  Theorems: `C139_apart_partial`, `C139_bounded_partial`, `C139_false`.
* **C140** The transfer-matrix method returns the reflectance and transmittance of the stack - *proved*. C140_films: R and T of coh_tmm equal the reflectance and transmittance of the characteristic-matrix method (Spec/Films.lean, also used for the RCWA solver). C140_accepts: stacks of passive materials in which the normal component of the index has positive real and non-negative imaginary part raise nothing. The arcsine is a parameter; only sin(arcsin z) = z is used.
  Files: `Props/Tmm.lean`, `Props/TmmAccept.lean`.
  Theorems: `C140_accepts`, `C140_films`.
* **C141** RCWA solver and transfer-matrix method agree on uniform layers - *partial*. C141_agree_partial: both calls succeed and agree, for grids with one cell per layer and the configs C137_uniform_partial covers. C141_painted: the same for several equal cells per layer, for configs C156_painted covers. Missing: unequal cells (for which coh_tmm has no counterpart) and the configs that C137_false and C156_false list.
  Files: `Props/TmmRcwa.lean`.
  Theorems: `C141_agree_partial`, `C141_painted`.
* **C142** absorp_in_each_layer accounts for all the light - *proved*. C142_sum, C142_shares, C142_RT: the power that enters layer i is the flux of the field at its front; its derivative along the layer is minus a loss that is not negative for passive materials (Lemmas/TmmFlux.lean), and the flux is continuous at interfaces.
  Files: `Props/TmmEnergy.lean`, `Props/TmmRcwa.lean`.
  Theorems: `C142_RT`, `C142_shares`, `C142_sum`.
* **C143** position_resolved returns a solution of Maxwell's equations through the whole stack - *proved*. C143_interfaces, C143_maxwell, C143_losses: the fields are the forward and backward waves of the layer; continuity comes from the interface matrices of coh_tmm, the wave equation from Snell's law.
  Files: `Props/TmmFields.lean`.
  Theorems: `C143_interfaces`, `C143_losses`, `C143_maxwell`.
* **C144** The analytic absorption function is the absorption in the layer - *proved*. C144_run, C144_integral, C144_operations: run(z) is complex in the source (its imaginary part vanishes where the parts are filled in by fill_in); the share is the integral of its real part.
  Files: `Props/TmmFields.lean`.
  Theorems: `C144_integral`, `C144_operations`, `C144_run`.
* **C145** Places in a stack are found, and the power flow never grows along them - *proved*. C145_find, C145_places, C145_flow. For the flow the stack must be passive and have no layer with attenuation above exp(-35).
  Files: `Props/TmmPlaces.lean`.
  Theorems: `C145_find`, `C145_flow`, `C145_places`.
* **C146** Turning a stack around keeps its transmittance - *proved*. C146_amplitudes, C146_transmittance, C146_reflectance, C146_accepts. For the reflectances layers that attenuate by more than exp(-35) are excluded, since the code clamps them.
  Files: `Props/TmmReverse.lean`.
  Theorems: `C146_accepts`, `C146_amplitudes`, `C146_reflectance`, `C146_transmittance`.
* **C147** inc_group_layers sorts every layer into the right place - *proved*. C147_accepts, C147_groups: invariant of the loop, then read off at its end.
  Files: `Props/TmmGroups.lean`.
  Theorems: `C147_accepts`, `C147_groups`.
* **C148** Incoherent layers balance their intensities - *proved*. C148_balance (with uniqueness), C148_thickness, C148_coherent, C148_slab, C148_accepts. The specification Balanced is a set of linear equations between intensities; the code's matrices do not occur in it.
  Files: `Props/TmmIncAccept.lean`, `Props/TmmIncoherent.lean`.
  Theorems: `C148_accepts`, `C148_balance`, `C148_coherent`, `C148_slab`, `C148_thickness`.
* **C149** Energy is conserved between incoherent layers - *partial*. C149_sum holds for every accepted stack. C149_RT_partial and C149_shares_partial need incoherent layers of real index, where the waves travel (WellGrouped). For absorbing incoherent layers the claim is false (C149_energy_false: a layer of index 1+i in air gives R + T = 9/5 and a negative share), because the code adds the powers of the two directions although in absorbing media they interfere. Missing: stacks with an incoherent layer behind total reflection.
  Files: `Props/TmmIncAccept.lean`, `Props/TmmIncEnergy.lean`.
  Theorems: `C149_RT_partial`, `C149_energy_false`, `C149_shares_partial`, `C149_sum`.
* **C150** Absorption inside coherent layers between incoherent ones - *partial*. False of the code: the test for coherent layers raises ValueError for all of them (C150_find_false, for every stack and layer). C150_rest_partial proves the claim for the lines behind the test, given the entry they would get.
  Files: `Props/TmmIncPlaces.lean`.
  Theorems: `C150_find_false`, `C150_rest_partial`.
* **C151** Forward angles and refraction - *proved*. C151_opposite, C151_answers, C151_snell, C151_real.
  Files: `Props/TmmAngles.lean`.
  Theorems: `C151_answers`, `C151_opposite`, `C151_real`, `C151_snell`.
* **C152** At normal incidence the polarisation does not matter - *proved*. C152_normal.
  Files: `Props/TmmNormal.lean`.
  Theorems: `C152_normal`.
* **C153** The unit of length does not matter for the transfer-matrix module - *proved*. C153_coherent, C153_reverse, C153_incoherent relate whole results, errors included; C153_places, C153_shares, C153_incoherent_shares, C153_find the functions computed from them. In real arithmetic: the code's tests against EPSILON do not involve lengths.
  Files: `Props/TmmUnits.lean`.
  Theorems: `C153_coherent`, `C153_find`, `C153_incoherent`, `C153_incoherent_shares`, `C153_places`, `C153_reverse`, `C153_shares`.
* **C154** Layers that change nothing in a coherent stack - *partial*. C154_split_partial, C154_absent, C154_substrate, C154_front, where no layer attenuates the field by more than exp(-35). Beyond that the code cuts the attenuation off, and splitting an opaque film changes T (C154_split_false: the film of double thickness lets through as much as the single one).
  Files: `Props/TmmLayers.lean`.
  Theorems: `C154_absent`, `C154_front`, `C154_split_false`, `C154_split_partial`, `C154_substrate`.
* **C155** Unpolarised light and ellipsometry of coherent stacks - *proved*. C155_average (an integral over the directions of polarisation), C155_energy (for a light from a transparent medium and a stack of which no layer emits), C155_ratio, C155_answers, C155_brewster, C155_total, C155_surface (acceptance). In real arithmetic; NaN and infinity are the error .nan of the model.
  Files: `Props/TmmPolar.lean`.
  Theorems: `C155_answers`, `C155_average`, `C155_brewster`, `C155_energy`, `C155_ratio`, `C155_surface`, `C155_total`.
* **C156** An accepted RCWA run of patterned layers is answered, physically - *partial*. C156_painted (equal cells in each layer: film formulas, for any eigenvectors), C156_patterned_partial (unequal cells: needs that the layer matrices can be diagonalised, that the 1e-14 filter on Fourier coefficients does nothing and that the permittivities are strictly passive at the damped frequency), C156_resolved (a rectangular lattice and at least TRCWA_NG-1 cells per direction resolve all orders). Where the claim is false of the code: C156_unresolved (orders the cells do not resolve: IndexError), C156_columns_false (Nx = 3, or Nx = 1 with Ny at least 2 but not 3 and several layers: RuntimeError), C156_false (the default config with 2x2 cells, for every grid). The eigensolver is a parameter with a contract: it returns eigenpairs, and a basis if there is one.
  Files: `Props/RcwaGrid.lean`.
  Theorems: `C156_columns_false`, `C156_false`, `C156_painted`, `C156_patterned_partial`, `C156_resolved`, `C156_unresolved`.
* **C157** An accepted FDTD run ends in spectra or in a complaint about the recorded signals - *partial*. C157_answered (which outcome for which recordings, windows of at least one sample), C157_runs_partial (from the accepted config to the recordings and the outcome; missing: point sources, sources outside the grid, PML below one cell, wavelengths or thicknesses that are not positive, overflow of the fields). Where an answer cannot be had: C157_window_false (a window of no sample: never an answer), C157_short (wavelengths below a third of the configured cell), C157_short_false (an accepted config for 20 to 30 nm that no tensor answers).
  Files: `Props/FdtdForward.lean`.
  Theorems: `C157_answered`, `C157_runs_partial`, `C157_short`, `C157_short_false`, `C157_window_false`.
* **C158** Objects with a tensor material give every cell its own value - *partial*. C158_cells, C158_rejected for all keys C54 covers; placeTensors_scalar: with numbers this is the model of C54. False: C158_alignment_false (tensors with one axis: permittivities belong to field components, conductivities to cells along x), C158_reuse_false (an absorbing object cannot be placed a second time on a block of another size, because its conductivity was replaced by a tensor of the first size).
  Files: `Props/FdtdTensors.lean`.
  Theorems: `C158_alignment_false`, `C158_cells`, `C158_rejected`, `C158_reuse_false`.
* **C159** A training run is reproducible from its seed - *partial*. Model of run_training with the two global generators as state (Model/TrainSeed.lean); what torch, solver and losses compute is an arbitrary function. C159_reproducible (any history; also: repeating after clearing the network), C159_seed_unused (given network and no noise: the seed has no effect), C159_generators (state left behind), C159_longer (more iterations extend the logs). False: C159_again_false (the config holds the trained network afterwards, so calling run_training again goes on from it) and C159_resume_false (nor do two short runs equal a long one: the last step is thrown away when the best state is reloaded).
  Files: `Props/TrainSeed.lean`.
  Theorems: `C159_again_false`, `C159_generators`, `C159_longer`, `C159_reproducible`, `C159_resume_false`, `C159_seed_unused`.
* **C160** Noise perturbs the permittivities around their values - *partial*. C160_size (bound and range), C160_classification (exact effect on the ratio of material weights; centred). False for regression models: C160_bias (for every permittivity with room in the range the mean over opposite random numbers is lower by noise_scale times the width of the range), C160_centred_false (witness with the default scale).
  Files: `Props/Noise.lean`.
  Theorems: `C160_bias`, `C160_centred_false`, `C160_classification`, `C160_size`.
* **C161** A simulation can be run in pieces, and running longer only adds samples - *partial*. C161_pieces, C161_longer for numbers of steps, C161_niter for the solver (init_fdtd, run, detector signals). Durations in seconds are cut to whole steps call by call: C161_seconds_false (two runs of half a time step do nothing), C161_seconds_partial (at most one step is lost; none if one duration is a whole number of steps).
  Files: `Props/FdtdPieces.lean`.
  Theorems: `C161_longer`, `C161_niter`, `C161_pieces`, `C161_seconds_false`, `C161_seconds_partial`.
* **C162** Orders that the structure does not couple to the incident light have no influence - *proved*. C162_groups is the general statement (two groups of orders between which all Fourier coefficients of all patterns vanish: the run with both has an answer exactly if the runs with each do, and it is that of the group of the incident wave); C162_supercell (repeated cells), C162_lines and C162_lines_same (gratings of lines on a rectangular lattice) follow from the same lemmas without assuming that the other group can be solved. The layers are assumed Regular (invertible matrices, no grazing order), as for the other theorems about patterned layers. C162_truncation: with the number of orders kept (as TRCWA_NG does) a doubled cell gives R = 0 instead of 110736/231361.
  Files: `Props/Supercell.lean`, `Props/SupercellCases.lean`.
  Theorems: `C162_groups`, `C162_lines`, `C162_lines_same`, `C162_supercell`, `C162_truncation`.
* **C163** The FDTD grid treats its axes alike - *proved*. C163_axes: the run of the turned grid is the turned run (fields, memory of the absorbing layers, detector readings), for rotations and all sources or any permutation and sources that only add to E. C163_layer and C163_fresh: the absorbing layers and the empty grid that the code builds on the exchanged axes are the turned ones. C163_line_source, C163_point_source, C163_line_detector: placement with exchanged keys. C163_plane_breaks: one cell with a plane source for which the exchange of x and y gives another magnetic field, so the restriction on plane sources is needed.
  Files: `Props/FdtdAxes.lean`.
  Theorems: `C163_axes`, `C163_fresh`, `C163_layer`, `C163_line_detector`, `C163_line_source`, `C163_plane_breaks`, `C163_point_source`.
* **C164** Only the ratios of the lengths to the wavelength matter to the FDTD spectra - *proved*. C164_spectra: equality of the whole result of compute_spectrum_fdtd, errors included, floats as reals. C164_hanning: for every grid, every wavelength of at least 0.2 micrometres and every factor above one the Hanning pulse of the scaled problem differs from the original in step 1, so the exception in the statement is needed.
  Files: `Props/FdtdScaleFree.lean`.
  Theorems: `C164_hanning`, `C164_spectra`.
* **C165** Source and detector of an FDTD simulation can change places - *proved*. C165_reciprocity is the general form for source profiles, C165_dipoles the one for single components, C165_point the one for the point sources of the package (they feed E_z), C165_swap the case of equal materials, C165_simulation the one for the grids of init_fdtd, free space or layers. The proof treats the absorbing layers as convolutions with their memory kernels and works in the field of fractions of formal power series in the delay (Lemmas/FdtdSeries.lean). The constant 1e-16 the layers add to their correction term cancels because the effect of a source is a difference of two runs.
  Files: `Props/FdtdReciprocity.lean`.
  Theorems: `C165_dipoles`, `C165_point`, `C165_reciprocity`, `C165_simulation`, `C165_swap`.
* **C166** A source acts the same whenever it is switched on, and records are convolutions - *proved*. C166_state compares two grids of the same construction in any states, C166_delay moves the start of a source, C166_kicks splits any drive into its steps, C166_convolution is the form for a source of fixed profile and C166_point the one for point sources. The proofs combine four runs with weights 1, -1, -1, 1 (Props/FdtdRun.lean) after moving the clock of one pair.
  Files: `Props/FdtdResponse.lean`.
  Theorems: `C166_convolution`, `C166_delay`, `C166_kicks`, `C166_point`, `C166_state`.
* **C167** The numpy stand-ins of the RCWA solver are the numpy functions - *partial*. The values are exact complex numbers, so precision shows in the data type only. C167_dot_partial is the agreement with numpy.dot, stated with Mathlib's matrix products, for the shapes and types that work; C167_dot_false has the exceptions: vector times matrix and single times double real operands raise, and a single complex operand brings a double one down to single. C167_sound is the other direction: whatever is returned has the numbers of the numpy product. C167_unit shows the effect of the default type, which import nidn sets to double and run_training to single on a GPU.
  Files: `Props/TorchOps.lean`.
  Theorems: `C167_constants`, `C167_dot_false`, `C167_dot_partial`, `C167_double`, `C167_sound`, `C167_transpose`, `C167_transpose_matrix`, `C167_unit`.
* **C168** The recorded activations of a siren are those of its forward pass - *proved*. C168_record describes every entry through the forward pass of the first modules; C168_errors, C168_count the rest; C168_same_network ties the module list to the network of Model/Nets.lean. Rows are evaluated one at a time; gradients are left out.
  Files: `Props/SirenRecord.lean`.
  Theorems: `C168_count`, `C168_errors`, `C168_record`, `C168_same_network`.
* **C169** Quarter-wave stacks behave as mirrors and coatings should in both solvers - *proved*. C169_tmm and C169_rcwa are unconditional: that the solvers succeed is part of the conclusion (they use C140_accepts and C113_real). C169_bragg, C169_better, C169_mirror and C169_coating follow from C169_tmm. The specification (quarterIndex, Fresnel's formula) does not mention the solvers. The arcsine need only invert the sine and send 0 to 0. For the Fourier-modal solver the extra orders have to propagate in front and must not graze in any layer; the frequency is real, whereas the driver adds a small imaginary part.
  Files: `Props/Bragg.lean`.
  Theorems: `C169_better`, `C169_bragg`, `C169_coating`, `C169_mirror`, `C169_rcwa`, `C169_tmm`.
* **C170** Along a periodic direction the place does not matter - *partial*. C170_moved is the general statement for two grids in the relation MovedAlong (first and last plane of the ring hold the same), C170_uniform its special case. C170_place_partial is about grids as the code makes them with one point source; the source has to keep off the first and the last plane. C170_seam_false: on the first plane the contribution of a source is overwritten by the copy of the last plane in the next step, on the last plane it reaches only one neighbour; the echo at the source is -1/4 and 3/4 instead of 1/2.
  Files: `Props/FdtdTranslate.lean`.
  Theorems: `C170_moved`, `C170_place_partial`, `C170_seam_false`, `C170_uniform`.
* **C171** In a flat FDTD grid the two polarisations do not mix - *proved*. C171_polarisation: two simulations in the relation SamePolarisation (same size, Courant number, time, and everything of one polarisation) stay in it; nothing is asked of the other polarisation. SameSources is the general condition on sources, same_soft gives it for additive sources. C171_stays compares with the source-free run. The example is the solver's own geometry.
  Files: `Props/FdtdFlat.lean`.
  Theorems: `C171_foreign`, `C171_polarisation`, `C171_stays`.
* **C172** A mirrored simulation gives the mirrored fields - *partial*. C172_mirrored_partial holds along an axis with a periodic boundary when all boundaries are periodic; C172_sides_partial is its consequence for one source in a uniform medium. C172_ends_false: along an axis without a periodic boundary the two ends differ; the differences of H are missing in the first plane and those of E in the last one, so that the lower end is an electric wall (E across stays zero) and the upper end a magnetic wall. Absorbing layers are left out: they add 1e-16 to every component, also to those that change their sign.
  Files: `Props/FdtdMirror.lean`.
  Theorems: `C172_ends_false`, `C172_mirrored_partial`, `C172_sides_partial`.
* **C173** Objects look the same from both sides - *partial*. C173_object_partial: objects without conductivity, at least two planes thick, off the first and last plane of the axis, in a grid with one background; the result is in the form that C172 asks for, so the fields are mirrored too. C173_thin_false: objects of one plane are not symmetric (the border is only treated if the axis has more than one plane). C173_absorbing_false: the permittivity of an absorbing object is symmetric, its absorption is not.
  Files: `Props/FdtdMirrorObject.lean`.
  Theorems: `C173_absorbing_false`, `C173_object_partial`, `C173_thin_false`.
* **C174** A lossless FDTD simulation can be run backwards - *proved*. C174_backwards: k + j steps, turn round, j steps, turn round = k steps, all cells and components; soft sources may be present if they have fallen silent. C174_distinct: states with equal fields after k steps had equal fields before. C174_losses: with a conductivity the field does not come back (so the hypothesis is needed). Exact arithmetic; PMLs and plane sources (which overwrite fields) are excluded by the hypotheses.
  Files: `Props/FdtdReverse.lean`.
  Theorems: `C174_backwards`, `C174_distinct`, `C174_losses`.
* **C175** A thick absorbing layer hides what is behind it - *proved*. C175_opaque: rtForward answers for every thickness d >= 0, R(d) -> R of the stack that ends in the absorbing half-space (also computed by rtForward), T(d) -> 0 and T(d) exp(2 w Im(c) d) converges. From C113 (the solver answers), C112 (film formulas) and the limit of a characteristic matrix, where passivity of the films behind bounds the fields away from zero. Exact real arithmetic, real frequency, no order grazing in any layer.
  Files: `Props/Opaque.lean`.
  Theorems: `C175_opaque`.
* **C176** Energy leaves a part of an FDTD grid only through its surface - *proved*. C176_balance: one step; C176_run: the whole run; C176_steady: periodic fields; C176_passive: energy plus outflow never grows; C176_adjoining: outflows of adjoining boxes add up. Energy is the leap-frog energy E(n)^2 eps + H(n-1/2) H(n+1/2) mu; the power through a face pairs E of one cell with H of the cell before it, as the staggered grid does. Exact arithmetic. Cells inside PMLs, on the first and last plane of a periodic axis and in plane sources are excluded by the hypothesis Unwritten.
  Files: `Props/FdtdPoynting.lean`.
  Theorems: `C176_adjoining`, `C176_balance`, `C176_passive`, `C176_run`, `C176_steady`.
* **C177** The order in which parts are added to an FDTD grid does not matter - *partial*. C177_order: any permutation, from any state that is the same on both ends of the periodic axes; C177_built: new grids with layers as the library builds them; C177_overlap: why plane sources must be apart; C177_objects_partial: two objects; missing there are objects at the far end of the grid, for which the order does matter (C177_far_false, the border rule of C54).
  Files: `Props/FdtdOrder.lean`.
  Theorems: `C177_built`, `C177_far_false`, `C177_objects_partial`, `C177_order`, `C177_overlap`.
* **C178** The gradients of the FDTD spectra exist - *proved*. C178_fields: any grid with any boundaries and sources; C178_signals: the samples of both detectors of a NIDN simulation; C178_coefficients: the coefficients from smooth signals off ties (structure Untied lists the comparisons); C178_point: one wavelength of the driver end to end on a permittivity tensor with smooth entries; C178_jump_false: at a tie the transmittance jumps although all samples are analytic, so the exclusion of ties is needed. Existence of the derivative is proved; that torch computes it is the correctness of its autograd and not modelled.
  Files: `Lemmas/FdtdSmooth.lean`, `Props/FdtdSmooth.lean`.
  Theorems: `C178_coefficients`, `C178_fields`, `C178_jump_false`, `C178_point`, `C178_signals`.
* **C179** FDTD simulations converge to Maxwell's equations - *proved*. For grids whose axes are periodic or one cell thick (structure SampledGrid says how a grid samples a problem; Spec/MaxwellTime.lean states Maxwell's equations and the Yee places independently). Media that jump, as at the faces of layers, are the subject of C182, sources that of C183 (there the solution is not smooth and the order is lower). Absorbing layers are outside the statement; that a simulation between them settles is C180.
  Files: `Spec/MaxwellTime.lean`, `Lemmas/FdtdConverge.lean`, `Props/FdtdConverge.lean`.
  Theorems: `C179_everywhere`, `C179_order`.
* **C180** FDTD simulations settle - *proved*. Differences of two runs, because the PML adds 10^-16 to its memory in every step (C139_false): the fields of a single run drift, so the hypothesis of C124_driver that they oscillate about a static field is not met by long runs, whereas the difference to the run without source always settles. The component along the row keeps static offsets and is excluded. In a grid that is periodic across, only the sums across are covered: modes that vary across may be trapped. The rate is not given explicitly. Whether a wave comes from behind the stack depends on the reflection of the absorbing layer and is left as a hypothesis.
  Files: `Lemmas/Decay.lean`, `Lemmas/LineDecay.lean`, `Props/FdtdSettle.lean`, `Props/FdtdSettleRows.lean`, `Props/FdtdSettleStack.lean`.
  Theorems: `C180_driver`, `C180_films`, `C180_forgets`, `C180_rows`, `C180_settles`.
* **C181** A grid tells its size and the time that has passed - *partial*. Everything holds except the places: a place in the last half cell of any grid is given the index one past the end (C181_places_false). The docstrings of x, y and z promise numbers of cells and are wrong (C181_cells_false). Real arithmetic: with floats, a run for exactly time_passed seconds may be one step short.
  Files: `Model/FdtdQueries.lean`, `Props/FdtdQueries.lean`.
  Theorems: `C181_cells_false`, `C181_copies`, `C181_history`, `C181_places_false`, `C181_places_partial`, `C181_size`, `C181_time`.
* **C182** FDTD simulations converge in layered media - *proved*. Extends C179 to media that jump (structure LayeredFields in Spec/MaxwellLayers.lean states the equations between the faces and the conditions on them); the case of C183 without currents. The materials of a cell are those at its Yee places, so faces may lie anywhere. The example is a standing wave in layers of refractive indices 1 and 2. Sources are the subject of C183; absorbing layers are outside the statement.
  Files: `Spec/MaxwellLayers.lean`, `Lemmas/FdtdConvergeMean.lean`, `Props/FdtdConvergePieces.lean`, `Props/FdtdConvergeLayers.lean`.
  Theorems: `C182_layers`.
* **C183** FDTD simulations with sources converge - *proved*. Structure DrivenFields in Spec/MaxwellSheets.lean states the equations between the faces and the jump conditions on them; DrivenGrid says how a grid samples such a problem. A soft source that adds v to a cell in a step stands for the surface current -v / (courant number x inverse permittivity), independently of the cell size. C182 is the case without currents. The example is a sine source in one plane of a periodic box. Absorbing layers are outside the statement.
  Files: `Spec/MaxwellSheets.lean`, `Props/FdtdConvergePieces.lean`, `Props/FdtdConvergeDriven.lean`.
  Theorems: `C183_driven`.
* **C184** FDTD validation warns about exactly the layers the grid cannot represent - *partial*. Proved for which layers are warned about (if each layer has its own thickness) and for silence; the named thickness is right for the first layer and within one cell for the others. False of the code for the named thickness of later layers (_check_grid_scale does not move the start of a layer behind the layers before it) and for layers that share one thickness (only the first is warned about). Arithmetic is exact, as elsewhere in the config model.
  Files: `Model/GridScale.lean`, `Props/GridScale.lean`.
  Theorems: `C184_model`, `C184_repeated_false`, `C184_silent`, `C184_value_false`, `C184_value_partial`, `C184_warned`.
* **C185** The convolution matrix multiplies fields by the pattern - *proved*. The meaning of the matrix C15 describes entry by entry. The multiplication needs no condition on the orders beyond the success of both functions. torch.fft.fft2 is part of the trusted base.
  Files: `Model/Fft.lean`, `Props/Fft.lean`.
  Theorems: `C185_best`, `C185_coefficients`, `C185_complete`, `C185_multiplies`, `C185_recovers`.
* **C186** With oversampling the RCWA solver sees the pixels of a pattern - *proved*. Spec: pixelImage and imageCoeff, an integral over the unit square. Pixel m covers the interval from m/Nx to (m+1)/Nx. repeatXY is the model of the two repeat_interleave calls (C33). Without oversampling the solver works with the coefficients of point samples, which are off by up to the stated error for r = 1.
  Files: `Props/Oversample.lean`.
  Theorems: `C186_close`, `C186_limit`, `C186_matrix`.
* **C188** The impedance of a node is the ratio of its voltage and current spectra - *partial*. False of the code (C188_impedance_false): the padding mode "edge" is not one of torch's, so the routine never reaches the spectra. C188_start_partial: it returns exactly before the first step. C188_reason: well-formed records meet the NotImplementedError of the padding (if reshape accepts the step count).
  Files: `Model/Impedance.lean`, `Props/Impedance.lean`.
  Theorems: `C188_impedance_false`, `C188_reason`, `C188_start_partial`.
* **C190** More orders and larger permittivities move the matrices of a layer in one direction - *proved*. About the convolution matrix and the inverse that Epsilon_fft returns for isotropic patterns; nothing is claimed about the filtered second matrix (C15_filter_false) nor about the convergence of reflectances. The example has the inverse permittivity of the zeroth order climb from 1/2 to 2/3.
  Files: `Props/ConvMonotone.lean`.
  Theorems: `C190_monotone`, `C190_more_orders`.
* **C189** The inverse permittivity of a patterned layer lies between the inverse of the mean and the mean of the inverse - *proved*. About the first matrix Epsilon_fft returns (the inverse permittivity for the field across the layers) of an isotropic pattern; the second one is filtered (C15_filter_false). C189_between and C189_bounds are for lossless positive patterns. The example shows that both inequalities matter: 2, 1/2 and 2/3 for a grating of 1 and 3 with one order.
  Files: `Props/ConvInverse.lean`.
  Theorems: `C189_anisotropic`, `C189_between`, `C189_bounds`, `C189_complete`, `C189_passive`.
* **C191** A pattern that the diffraction orders cannot see acts as a uniform layer of its mean permittivity - *proved*. Hypotheses: the grid resolves the orders; the mean permittivity is above the threshold of the filter of Epsilon_fft (real or imaginary part at least 1e-14; otherwise the filter replaces it by zero, C15_filter_false); the layers of the averaged structure are regular (no grazing order). The example has stripes of 1 and 3 that the orders 0 and 1 see as a layer of 2.
  Files: `Props/Homogenise.lean`.
  Theorems: `C191_constant`, `C191_one_order`, `C191_unseen`.
* **C192** Patterns that are close have permittivity matrices that are close - *partial*. False of the second matrix (C192_filter_false): passive patterns arbitrarily close to each other, both answered, have entries that differ by more than 1/2, because the filter drops coefficients with small real and imaginary parts also when the real part is large and negative. The other three theorems hold in full.
  Files: `Props/ConvRobust.lean`.
  Theorems: `C192_close`, `C192_filter_false`, `C192_inverse_bounded`, `C192_inverse_close`.
* **C187** The permittivities a patterned layer works with lie between those of its pattern - *proved*. About the convolution matrix itself, which Epsilon_fft inverts; the second matrix it returns is filtered (C15_filter_false), and nothing is claimed for that one. The example attains both ends of the range.
  Files: `Props/ConvHull.lean`, `Props/ConvSpectrum.lean`.
  Theorems: `C187_complete`, `C187_eigenvalues`, `C187_lossless`, `C187_passive`, `C187_range`.
* **C194** Setting the log level decides which messages of the package are shown - *partial*. False of refused names (C194_refused_false): all handlers are removed before loguru refuses the name, so nothing is shown from then on. False of the surrounding program (C194_foreign_false): importing nidn removes its handlers and adds one that only takes messages of the package. Levels, the name filter and the refusal of unknown names are loguru's documented behaviour, taken as contract; str.upper is a parameter.
  Files: `Model/LogLevel.lean`, `Props/LogLevel.lean`.
  Theorems: `C194_foreign_false`, `C194_import`, `C194_last`, `C194_refused_false`, `C194_set_partial`.
* **C195** A smooth design gives the same spectra on every grid that is fine enough for it - *partial*. False of grids that only pass the index check of get_conv (C195_coarse_false): on three samples it accepts the orders -1, 0, 1, but negative and positive orders share entries of the transform, so 2 + cos(2 pi x) gets a link between the orders -1 and 1 that it does not have. The other three theorems hold in full, under the stated condition on the grid (FineFor).
  Files: `Props/SampledDesign.lean`.
  Theorems: `C195_coarse_false`, `C195_coefficients`, `C195_matrices`, `C195_solver`.
* **C193** Oversampling changes Fourier coefficients by fixed factors and removes aliases - *proved*. Exact companion of the limit in C186: the factor is the mean of the wave over the samples of one cell (cellFactor). C193_extinct is about the matrix get_conv returns; the other theorems about the coefficients of the pattern.
  Files: `Props/OversampleExact.lean`.
  Theorems: `C193_alias`, `C193_extinct`, `C193_factor`, `C193_kept`, `C193_mean`, `C193_smaller`.
* **C196** Designs with more pixels than pairs of orders are not determined by any spectrum - *proved*. C196_unique is the converse, so hidden waves are the exact condition. Says that the inverse problem the training solves has no unique solution for fine designs; the code does not claim uniqueness, so this is no disagreement.
  Files: `Props/Twins.lean`.
  Theorems: `C196_exists`, `C196_hidden`, `C196_oversampled`, `C196_solver`, `C196_twins`, `C196_unique`.
* **C197** The type of a run decides how its model becomes a permittivity grid - *partial*. Full for accepted configs (C197_dispatch) and, as to the weights, for all configs (C197_weights). False of configs with another type or none (C197_unknown_false). The two conversions are parameters here; their values and shapes are the subject of other properties.
  Files: `Model/EpsDispatch.lean`, `Props/EpsDispatch.lean`.
  Theorems: `C197_dispatch`, `C197_unknown_false`, `C197_weights`.

## 4. Disagreements found (model / code / property)

Every item is backed by a theorem of MANIFEST.json (name in parentheses).

1. C04: the default config says targets go from low to high wavelength, but frequencies are sorted ascending, so entry 0 meets the **largest** wavelength (`C04_low_to_high_false`).
2. C06: `isinstance(True, int)`: booleans pass as integers; several numeric keys are never type-checked (`C06_well_typed_false`).
3. C08: `all(cfg[key]) > 0.0` compares a bool with 0: negative entries pass (`C08_list_entries_false`).
4. C09: `solver` and `model_type` are never range-checked; an unknown solver makes `compute_spectrum` return None (`C09_known_names_false`).
5. C10: a zero lower wavelength raises ZeroDivisionError, short lists IndexError (`C10_documented_classes_false`).
6. C12: `len(ep_all) == 3` is meant to detect anisotropy, but is also true for a plain grid with Nx = 3; Nx = 1 with Ny >= 2 and several layers fails in reshape.
7. C14: a request of 1 order yields an empty set (even (0,0) is lost); a complete last shell that fits is dropped.
8. C15: the "numerical noise" filter lacks abs(): every Fourier coefficient with negative real and negative imaginary part is zeroed, which also breaks Hermitian symmetry. Too coarse grids end in IndexError.
9. C17: `SolveInterior` calls the non-existent `torch.inv`, so field reconstruction always raises AttributeError.
10. C19-C21: the driver uses the complex frequency f(1 + i/(2 Q_abs)): energy conservation holds only at real frequency, a vacuum stack transmits slightly less than one (`C21_vacuum_driver_false`), and lossless layers with negative permittivity are slightly active.
11. C26: with a single material `squeeze()` drops the material axis, and the lookup returns the first frequency only (`C26_single_material_false`).
12. C29: zero-avoidance runs after clipping and can leave the configured range. C30: imag_min_eps is not added. C32: noise is added after zero-avoidance.
13. C31: the reshape to (.., 2*N_freq) interleaves channels and frequencies; for two or more frequencies real and imaginary parts are mixed up.
14. C34: classification with one frequency: `squeeze()` makes the result independent of the model (`C34_single_frequency_false`).
15. C37: T is renormalised with the already renormalised R (sum larger than one).
16. C40: best_loss is also lowered by renormalised iterations that are not saved; a later physical model may never be stored. C73: before the first store the reloaded state is the live one.
17. C42: NERF's skip connection is inconsistent for 3 and 4 hidden layers. C74: only encoding_dim = 4 works.
18. C43: zero and negative Courant numbers are accepted. C44: `Grid.run` with a float truncates instead of rounding.
19. C47: at the Courant limit itself a periodic grid grows without bound (`C47_limit_false`); the limit is accepted by the constructor.
20. C51-C53: the PML adds 1e-16 in each step, so an empty grid does not stay dark, the solver is affine instead of linear, and causality near a PML is only approximate.
21. C54: an object's last plane takes, in the normal component, the permittivity of the grid's far end; a plain object keeps an earlier absorption; index -1 sets nothing; absorbing objects at a z index raise.
22. C55: reset clears neither PML memories nor recordings.
23. C57: Ricker pulses of a point source raise UnboundLocalError; a line source given by three single indices is NaN. C58: negative slice bounds and mixed lists select other cells than slicing would; block detectors index one past the end on full slices.
24. C59: the accepted boundary case puts the transmission detector into the PML; a PML thinner than one cell is an IndexError; negative thicknesses pass.
25. C61: a one-element PER_LAYER_THICKNESS is replaced in the user's config.
26. C62: sums of 1.05 and more are returned unnormalised. C63: exactly two windows raise RuntimeError.
27. C65, C66: the thresholds of transient removal are absolute and differ between free space and material, so amplitude, sign and even a vacuum stack can change the transmission.
28. C67: the RCWA solver keeps using target_frequencies of an earlier configuration (`C67_stale_false`).
29. C69: the y part of the upper loop current is counted twice.
30. C70: any attribute of torch is accepted as number type; a rejected name may still change the device; negative paddings. C80: the Fourier routine always raises.
31. C71: the aluminium oxide table has negative extinction in eleven rows: the material amplifies.
32. C72: zip truncation: frequencies without target are silently ignored.
33. C76: a rejected boundary stays active. C77: a reused PML object covers only the second side.
34. C78: only the first lateral cell of a patterned grid is simulated by FDTD. C79: all-metal stacks raise ValueError.
35. C83: the Hanning pulse ignores the grid's time step and misses a factor 2 pi, so it does not have the requested wavelength.
36. C84: a plane source on index -1 is accepted and acts on nothing; the polarisation check is a substring test. C85: the two polarisations of one plane emit in opposite directions.
37. C86: a named soft point source always raises UnboundLocalError. C90: the default config with a point source is accepted, but the simulated grid has three rows only and placing the source raises IndexError.
38. C94: `print_cfg` raises TypeError for every config that has been trained with. C96: both grid plots show something else than the mean magnitude once there is more than one frequency. C99: `save_all_plots` stops with IndexError after three of six files for fewer than four frequencies.
39. C100: a second training run silently keeps the network of the first, also when type or model_type have changed (the notebooks remove it by hand with `cfg.pop("model")`).
40. C101, C103, C104, C105, C106: the query functions of the RCWA solver that the driver does not use call functions torch does not have (`torch.inv`, `torch.isinstance`, `torch.ifft2`, `torch.sqrt` of an int) and fail for every input (fields, stress, volume integrals, amplitudes in middle layers, profiles of patterned layers, parallelogram truncation).
41. C107: powers of light from behind are divided by the incident power in the *front* medium: for lossless structures R + T = sqrt(eps0/epsN).
42. C109: the amplitudes given to `MakeExcitationPlanewave` are magnetic field amplitudes; the electric field is smaller by the refractive index of the front medium.
43. C110: the first two patterns of an anisotropic layer act along y and x instead of x and y.
44. C19, C20: the filter of `Epsilon_fft` tests `re < 1e-14 and im < 1e-14` without absolute values. It drops couplings with negative real and imaginary part and keeps their conjugates; a lossless grating then reflects and transmits 7.6 times the incident power (`C19_patterned_false`).
45. C111: the window of the steady-state test uses the configured minimum density instead of the density of the grid. With the default of 10 points it is shorter than one period for wavelengths below 0.476 micrometres, most of the visible blue.
46. C113: at a real frequency and a period at which a retained order excites the surface plasmon of a lossless metal (permittivity -2), the solver raises for every excitation. The driver's damped frequencies avoid this.
47. C116: because of the filter of item 44, shifting a pattern by one pixel can change the reflectance; for a lossless grating of two pixels from 0 to 0.479 (`C116_shift_false`).
48. C120: in an upper absorbing layer the first plane has a positive conductivity that never takes effect: the difference across the inner edge is taken inside the layer's own arrays and is left out (`C120_first_false`); lower layers have no such plane.
49. C122: the filter of item 44 makes reflectance a discontinuous function of the pixels: two pixels 145/169 + 2it and 193/169 reflect less than 1e-20 for every 0 <= t < 1e-14 and more than 1/20 from t = 1e-14 on (`C122_jump`, `C122_filter_false`). Gradients across such a point are meaningless.
50. C125: `save_run` uses the name and the second as file name without checking that the file exists; the batch script uses one folder per name, so two configs that keep the default name `example_name` share it and the plots of the first are silently replaced. A name with a slash raises only after the training, and the run is not stored.
51. C126: `Grid.add_source/add_boundary/add_detector/add_object` call `_register_grid` without a position and raise for every component. `save_data` raises if one detector has no name or is a current detector; so it always raises on a grid with a soft point source, which adds an unnamed current detector.
52. C127: a source keeps its period as a whole number of time steps, so with a continuous source the FDTD spectrum is a step function of the wavelength. With the default settings 1.00 and 1.01 micrometres are simulated by the same program run (`C127_resolution_false`), where eight default layers of index 2 reflect 0 and more than 1/5 (`C127_films`).
53. C128: `_torch_find_peaks` asks for strict maxima, so an oscillation whose crest lies exactly half way between two samples has no peaks and `_peak_based_coefficient_computation` falls back to half the squared highest sample: two equal amplitudes give the transmission cos^2(pi/P) with P time steps per period (`C128_tied_false`; 5 percent for the 14 steps of the default settings).
54. C129: `dB_map_2D` takes ten times the logarithm of a ratio of amplitudes; as decibels of intensity the factor would be twenty (`C129_decibel_false`). If one cell of the detector stands still, its swing is zero and every value of the map is infinite or nan.
55. C130: `visualize` marks point sources on a corner of their pixel; in cuts across y it uses the y coordinate where x is meant, so marker and blanked pixel are in the wrong place and the call may raise an IndexError (`C130_point_false`). Plane sources seen from the side are rectangles of zero area with line width zero, hence invisible (`C130_plane_false`). Objects placed with a negative single index are drawn outside the picture (`C130_object_false`).
56. C131: when ffmpeg fails or is missing `generate_video` raises a TypeError, because `CalledProcessError` needs two arguments, and leaves the process in the folder of the simulation (`C131_failure_false`).
57. C132: the recommended number of time steps assumes the time step of a Courant number of one over the square root of two, the grid uses 99 percent of that; with exactly the recommended number of steps the light goes at most 99 percent of the documented way and no warning is given (`C132_short_false`). The default of 200 steps is criticised for every wavelength and permittivity (example).
58. C133: printing a grid after a refused placement raises AttributeError, and no further placement repairs it, because the refused component is already in the list of the grid but has no position (`C133_rejected_false`). All boundaries print as `PML`, periodic ones too (`C133_kind_false`). `[0, ... , 5]` stands for the cells 0 to 4 for a plane source and for the cells 0 to 5 for a block detector (`C133_brackets_false`).
59. C134: with `N_freq = 1` a classification gives a permittivity grid whose last axis has one entry per material, because the squeezed table of materials loses its frequency axis and is then broadcast along it; the RCWA solver stops with an AssertionError (`C134_single_false`).
60. C20: the small imaginary part the driver adds to every frequency acts like a loss where the permittivity is positive and like a gain where it is negative; a lossless metal layer (permittivity -100, thickness `1/(100 pi f)`) is answered with `R + T > 1` (`C20_false`). The excess is small, some millionths, because the added part is one in 200000.
61. C135: `plot_detection` labels the axes in a second loop that uses the variable of the first one, so the detector that comes last decides how many subplots are labelled, even if it was left out: with a block detector of more than four columns the function stops with a ValueError before anything is shown (`C135_block_false`), and without detectors with an UnboundLocalError (`C135_empty_false`).
62. C136: validation accepts configs that cannot be trained: a negative seed or one from 2^32 on (ValueError of numpy, after torch took it), a number of iterations or hidden layers that is not an int (TypeError; iterations only after the network has been built and stored in the config), an `encoding_dim` that is zero or negative, a `siren_omega` that is not positive (RuntimeError of `uniform_`), a voxel model for classification (AssertionError), and negative wavelength ranges, one that ends at 0 with a ZeroDivisionError (`C136_false`; `C136_exact` lists all conditions).
63. C137: validation accepts RCWA configs that no grid of uniform layers can be simulated with: `TRCWA_NG = 1` (no order is selected, IndexError), `TRCWA_NG = True` (AssertionError), parallel lattice vectors such as [[1,-1],[-1,1]] (ZeroDivisionError), lattice vectors with three components (AssertionError), a front permittivity that is 0 or negative (NaN) (`C137_false`).
64. C138: a current detector reads the last plane of the grid when placed on index 0 (`C138_edge_false`), records all combinations of the coordinates of index lists (`C138_lists_false`), stops the run with an IndexError when placed over a whole axis (`C138_whole_false`), and, because of the doubled term of C69, reports a current in a curl-free magnetic field where none flows (`C138_no_current_false`).
65. C139: `PML.update_E` adds 10⁻¹⁶ to all three components of every cell of a layer in every step (boundaries.py:404-409), so the fields of a dark grid without sources grow linearly without bound (`C139_false`); up to this drift the layers are stable (`C139_bounded_partial`).
66. C133: `PML` stores the given indices axis by axis, so a refused second registration of a boundary can leave it half moved; printing then shows a place nobody asked for (`C133_half_moved_false`).
67. C149: `inc_tmm` creates light when an incoherent layer absorbs: a layer of index 1+i in air at normal incidence gives `R + T = 9/5`, and `inc_absorp_in_each_layer` a negative share (`C149_energy_false`). Forward and backward powers do not add up in absorbing media.
68. C150: `inc_find_absorp_analytic_fn` raises ValueError for every layer: `isnan` of the pair stored for a coherent layer is an array, whose truth value is ambiguous (`C150_find_false`). Behind the test, `add` compares the exponents of the forward and backward function for equality; they are equal in exact arithmetic (`C150_rest_partial`), but with rounding they need not be.
69. C151: a wave along the surface goes backwards at both angles, so `snell` may return either, and a last medium within `100 EPSILON` beyond the critical angle can get the growing wave; for `n cos(theta) = 100i EPSILON` exactly the function raises AssertionError (`C151_opposite`, `C151_answers`). Layers other than the first and last are never flipped, as documented.
70. `tmm_core` takes `arcsin` from the top level of SciPy, where current versions no longer have it; every call of `snell` then raises AttributeError. The model takes the arcsine as a parameter.
71. C140, C142: layers with more than 35 of attenuation are treated as if they had 35 (the code prints a warning), so their transmittance is too large; theorems about energy exclude them. An opaque film therefore lets through more light in one piece than written as two films (`C154_split_false`).
72. C156: `_validate_config` accepts cell counts the solver cannot handle. The default config with `Nx = Ny = 2` ends in IndexError for every grid, because nine orders are selected and a 2x2 pattern has Fourier coefficients for differences of at most one (`C156_false`; the general condition is `C156_unresolved`). `Nx = 3`, or `Nx = 1` with `Ny` at least 2 (but not 3) and several layers, end in RuntimeError, because `TRCWA` reads the grid as a list of three tensor components or concatenates mismatched shapes (`C156_columns_false`).
73. C157: the window of the transient test is `int(3 * FDTD_min_gridpoints_per_unit_magnitude * wavelength / 1e-6)` and is 0 for wavelengths below a third of the configured cell (33 nm by default), although the grid itself is refined for them. `torch.split` with size 0 then raises RuntimeError, so such accepted configs never give spectra (`C157_short_false`). A signal of exactly two windows raises RuntimeError as well.
74. C158: `AbsorbingObject._register_grid` overwrites the conductivity the user gave with a tensor of the size of the place, so the same object fails on a place of another size. Tensors with one or two axes are aligned with the last axes as permittivity (torch broadcasting) but with the first axes as conductivity (`[..., None]`).
75. C159: a second call of `run_training` with the same config is not a repetition: the config still holds the network of the first run. The seed is set again, so noise repeats while the weights do not.
76. C160: `torch.randn_like(eps.real) - 0.5` centres numbers that are already centred (it would be right for `torch.rand_like`), so the noise of regression models lowers permittivities by `noise_scale` of the range on average, and is twice as wide as configured.
77. C162: the number of orders (`TRCWA_NG`) says nothing about the resolution of the structure. A grating described by a doubled cell with the same number of orders can become invisible (`C162_truncation`: R = 0 instead of 0.479); the comparison needs the same coupled orders (`C162_supercell`).
78. C167: `torch_dot` is described as compatible with numpy's product but refuses a vector times a matrix (`torch.dot` wants two vectors) and a single times a double real operand, and it lowers a double operand to single beside a single complex one (`C167_dot_false`). The solver stays in double precision because `import nidn` makes double the default; after a training with `use_gpu` the default is single for the rest of the process, and the S-matrices start from a single-precision unit matrix (`C167_unit`).
79. C170: a source on the first plane of a periodic axis is lost: `update_E` of the boundary copies the last plane over it in the next step, before anything else reads it but the magnetic update of one neighbour; on the last plane it drives only one neighbour (`C170_seam_false`). Point sources have to keep off these planes.
80. C172: the two ends of an FDTD axis are different mirrors. `curl_H` leaves out the first plane and `curl_E` the last one; where no periodic boundary copies planes, the lower end holds the tangential electric field at its start value (an electric wall, reflecting with a change of sign) and the upper end lets it move freely (a magnetic wall). A source in the middle of three cells leaves the lower one dark for ever and reaches the upper one after two steps (`C172_ends_false`). The absorbing layers end in these walls.
81. C173: the comment "This way, the object is made symmetric" (objects.py:71-72) holds for the permittivity of objects of at least two planes, not for objects of one plane (`C173_thin_false`) and not for the absorption of absorbing objects, which is also set in the border component (`C173_absorbing_false`).
82. C178: because peaks must be strict maxima (item 53), the FDTD transmittance is not a continuous function of the permittivities: where the two largest samples of a period are equal it jumps, although every sample is analytic (`C178_jump_false`). A gradient step across such a point is not described by the gradient.
83. `Grid.x`, `Grid.y` and `Grid.z` (grid.py:226-239) are documented and annotated as the number of cells but return lengths in metres. A place in the last half cell of a grid, given as a float, is rounded to an index one past the last cell (grid.py:172-176), so a part placed there is out of range or silently empty although the place is inside the grid.
84. The warning of `_check_grid_scale` (validate_config.py:33-42) cuts every layer as if it were the first, while init_fdtd.py:99-117 stacks them. For a second layer of 0.15 µm on a grid of 0.1 µm it says 0.1 µm where the simulation uses 0.2 µm (C184). If one thickness stands for all layers only "layer 1" is warned about, because the list is expanded after validation.
85. nidn/fdtd/fourier.py:226-291 `impedance` pads with mode "edge", which torch does not have, so after the first step it never returns (C188_impedance_false), like `FFT` (C80_fft_false).
86. The filter of `Epsilon_fft` (fft_funs.py:33-36) makes the matrix for the eigen-solver jump: two passive patterns as close as one likes can have entries that differ by more than 1/2 (C192_filter_false), so the computed spectra need not depend continuously on the design.
87. nidn/utils/set_log_level.py:11-18 removes every handler of the process-wide logger before it knows that the new level is valid: a mistyped level such as "warn" raises ValueError and leaves no output at all (C194_refused_false), and `import nidn` silences the messages of the importing program (C194_foreign_false).
88. `get_conv` (fft_funs.py:41-54) accepts every order set whose differences are below the number of samples, although the transform tells apart only half of these: with three samples and the orders -1, 0, 1 the entry between the orders -1 and 1 is that of the difference -1 (C195_coarse_false). No warning is given.
89. nidn/training/model/model_to_eps_grid.py:297-301 has no final else: for a type that is neither "classification" nor "regression" it returns None, and `eps, _ = model_to_eps_grid(...)` in the plots raises a TypeError that does not name the setting (C197_unknown_false).
