{
 "claims": [
  {
   "property": "C01",
   "status": "proved",
   "theorems": [
    "Nidn.C01_freq_wl_roundtrip",
    "Nidn.C01_phys_freq_wl_roundtrip",
    "Nidn.C01_phys_wl_roundtrip",
    "Nidn.C01_zero_is_error"
   ],
   "note": "All four conversions, round trips and the zero error."
  },
  {
   "property": "C02",
   "status": "proved",
   "theorems": [
    "Nidn.C02_linear",
    "Nidn.C02_log",
    "Nidn.C02_unknown_distribution"
   ],
   "note": "linear and log; numpy linspace/logspace/sort by contract, exact reals."
  },
  {
   "property": "C03",
   "status": "proved",
   "theorems": [
    "Nidn.C03_frequency_points"
   ],
   "note": "entry-wise correspondence, order, range, config update, idempotence."
  },
  {
   "property": "C04",
   "status": "partial",
   "theorems": [
    "Nidn.C04_high_to_low_partial",
    "Nidn.C04_low_to_high_false"
   ],
   "note": "False of the code: targets are compared from high to low wavelength. Negation with witness, and the actual order as _partial."
  },
  {
   "property": "C05",
   "status": "proved",
   "theorems": [
    "Nidn.C05_bad_keys_rejected",
    "Nidn.C05_keys"
   ],
   "note": "Both directions."
  },
  {
   "property": "C06",
   "status": "partial",
   "theorems": [
    "Nidn.C06_types_partial",
    "Nidn.C06_well_typed_false"
   ],
   "note": "False in full (bool as int, hidden_layers unchecked): negation with witnesses; _partial is what holds."
  },
  {
   "property": "C07",
   "status": "proved",
   "theorems": [
    "Nidn.C07_ranges"
   ],
   "note": "All scalar ranges of accepted configs; default config accepted."
  },
  {
   "property": "C08",
   "status": "partial",
   "theorems": [
    "Nidn.C08_list_entries_false",
    "Nidn.C08_no_zero_entries_partial"
   ],
   "note": "False (negative entries accepted): witnesses; _partial: no zero thickness/source coordinate, lattice rows ordered."
  },
  {
   "property": "C09",
   "status": "partial",
   "theorems": [
    "Nidn.C09_dispatch_partial",
    "Nidn.C09_known_names_false"
   ],
   "note": "False (solver/model names not validated): witnesses; _partial: exact dispatch. For settings with which the named network cannot be built see C136_false."
  },
  {
   "property": "C10",
   "status": "partial",
   "theorems": [
    "Nidn.C10_documented_classes_false",
    "Nidn.C10_documented_classes_partial",
    "Nidn.C10_never_value_error_partial"
   ],
   "note": "False (ZeroDivisionError, IndexError possible): witnesses; _partial: never ValueError, and exact condition for the documented classes."
  },
  {
   "property": "C11",
   "status": "proved",
   "theorems": [
    "Nidn.C11_bookkeeping",
    "Nidn.C11_kind_counts",
    "Nidn.C11_patterned_slots"
   ],
   "note": "Any sequence of the three Add calls: layer i reads back as the i-th call, counters and slots agree."
  },
  {
   "property": "C12",
   "status": "partial",
   "theorems": [
    "Nidn.C12_patterned_stack_partial",
    "Nidn.C12_single_row_false",
    "Nidn.C12_three_columns_false",
    "Nidn.C12_uniform_stack"
   ],
   "note": "Proved for uniform stacks and for patterned grids with Nx>1, Nx!=3; Nx=3 always raises RuntimeError, and Nx=1 with Ny>=2 (Ny!=3) and several layers also (both proved)."
  },
  {
   "property": "C13",
   "status": "proved",
   "theorems": [
    "Nidn.C13_degenerate",
    "Nidn.C13_duality",
    "Nidn.C13_involution",
    "Nidn.C13_unique",
    "Nidn.C13_wrong_length"
   ],
   "note": "Over any field; the pair returned is the unique dual basis."
  },
  {
   "property": "C14",
   "status": "partial",
   "theorems": [
    "Nidn.C14_maximal",
    "Nidn.C14_origin_partial",
    "Nidn.C14_single_order_false",
    "Nidn.C14_whole_shells"
   ],
   "note": "All claims for every non-degenerate lattice, request and tie-break, including completeness of shells among ALL integer orders (area argument); (0,0) first needs request >= 2 and no order shorter than the tolerance; a request of 1 gives an empty set (proved). C14_maximal: every finite set of fewer than nG orders that is separated from all longer orders by more than the tolerance is selected, so no order is left out needlessly."
  },
  {
   "property": "C15",
   "status": "partial",
   "theorems": [
    "Nidn.C15_entries",
    "Nidn.C15_filter_false",
    "Nidn.C15_filtered_hermitian_false",
    "Nidn.C15_hermitian",
    "Nidn.C15_invertible",
    "Nidn.C15_solver_matrices_partial",
    "Nidn.C15_uniform"
   ],
   "note": "Entries, Hermitian symmetry and uniform case proved for every resolved order set (unresolved = IndexError, proved). C15_invertible: the matrix is invertible for every pattern with permittivities on one side of a line through zero. The noise filter drops entries with negative real and imaginary part: proved false with two witnesses."
  },
  {
   "property": "C16",
   "status": "proved",
   "theorems": [
    "Nidn.C16_exterior",
    "Nidn.C16_failures",
    "Nidn.C16_reversed",
    "Nidn.C16_single",
    "Nidn.C16_solves"
   ],
   "note": "The S-matrix characterises exactly (iff) the solutions of the continuity equations; failures are only singular matrices or vanishing wave numbers."
  },
  {
   "property": "C17",
   "status": "partial",
   "theorems": [
    "Nidn.C17_interior_false",
    "Nidn.C17_interior_partial",
    "Nidn.C17_star"
   ],
   "note": "Star product proved; interior reconstruction proved for a working inverse; the code calls the non-existent torch.inv, so SolveInterior always raises AttributeError (proved)."
  },
  {
   "property": "C18",
   "status": "proved",
   "theorems": [
    "Nidn.C18_split_layer",
    "Nidn.C18_zero_layer"
   ],
   "note": "For interior layers (the half-spaces keep their own thickness)."
  },
  {
   "property": "C19",
   "status": "partial",
   "theorems": [
    "Nidn.C19_patterned_false",
    "Nidn.C19_patterned_partial",
    "Nidn.C19_uniform"
   ],
   "note": "Uniform stacks: proved for every number of layers, incidence angle and polarisation (real frequency). Patterned layers: proved under the hypothesis that the convolution matrix is Hermitian. The noise filter of Epsilon_fft (see C15) can break it: C19_patterned_false is a lossless grating with R = 625/4704 and T = 721/96 for the solver's own matrices; hence partial. The witness uses an anisotropic pattern, for which the modes have a closed form."
  },
  {
   "property": "C20",
   "status": "partial",
   "theorems": [
    "Nidn.C20_damped_partial",
    "Nidn.C20_false",
    "Nidn.C20_patterned_partial",
    "Nidn.C20_uniform"
   ],
   "note": "R+T<=1 for passive uniform stacks at real frequency (C20_uniform); patterned layers under the C15 filter hypothesis, without which the claim is false (C19_patterned_false, a lossless and therefore passive grating with R+T > 7). At the driver's complex frequency the proof needs Im(omega*eps)>=0 and normal incidence (C20_damped_partial); that condition fails for metals with Re eps<0 and vanishing loss, and there the claim is false of the code: C20_false, a lossless metal layer between the driver's vacuum layers for which the solver answers with R+T>1, for all wavelengths above 26 units of length."
  },
  {
   "property": "C21",
   "status": "partial",
   "theorems": [
    "Nidn.C21_fresnel",
    "Nidn.C21_fresnel_real",
    "Nidn.C21_vacuum",
    "Nidn.C21_vacuum_driver_false"
   ],
   "note": "Single interface equals the Fresnel formulas at normal incidence, for any order set (oblique incidence: C112); vacuum stack gives R=0, T=1 at real frequency. With the driver's complex frequency (1+i/2Q) T<1 for vacuum: C21_vacuum_driver_false."
  },
  {
   "property": "C22",
   "status": "proved",
   "theorems": [
    "Nidn.C22_patterned",
    "Nidn.C22_phase",
    "Nidn.C22_strict",
    "Nidn.C22_uniform"
   ],
   "note": "Proved for uniform and patterned eigen-systems (branch selection) at every complex frequency in the first quadrant."
  },
  {
   "property": "C23",
   "status": "proved",
   "theorems": [
    "Nidn.C23_by_order",
    "Nidn.C23_one_way",
    "Nidn.C23_orders_sum",
    "Nidn.C23_total",
    "Nidn.C23_total_real"
   ],
   "note": "Poynting flux equals the sum over diffraction orders and splits into forward and backward parts for non-mixed orders."
  },
  {
   "property": "C24",
   "status": "proved",
   "theorems": [
    "Nidn.C24_complete",
    "Nidn.C24_entries",
    "Nidn.C24_errors",
    "Nidn.C24_local"
   ],
   "note": "Driver and dispatcher modelled with the single-frequency solver as a parameter."
  },
  {
   "property": "C25",
   "status": "proved",
   "theorems": [
    "Nidn.C25_index_squared",
    "Nidn.C25_load",
    "Nidn.C25_nearest",
    "Nidn.C25_passive",
    "Nidn.C25_total"
   ],
   "note": "Nearest row (first on ties), square of the complex index, totality and error classes."
  },
  {
   "property": "C26",
   "status": "partial",
   "theorems": [
    "Nidn.C26_construction",
    "Nidn.C26_keyError",
    "Nidn.C26_lookup_partial",
    "Nidn.C26_names",
    "Nidn.C26_single_material_false",
    "Nidn.C26_stem"
   ],
   "note": "Proved for collections of at least two materials. With a single material squeeze() drops the material axis: lookup returns the first frequency only (or IndexError)."
  },
  {
   "property": "C27",
   "status": "proved",
   "theorems": [
    "Nidn.C27_minimiser",
    "Nidn.C27_zero_iff"
   ],
   "note": "For any argmin satisfying torch's contract."
  },
  {
   "property": "C28",
   "status": "proved",
   "theorems": [
    "Nidn.C28_circle",
    "Nidn.C28_circle_mirror",
    "Nidn.C28_square",
    "Nidn.C28_square_empty",
    "Nidn.C28_square_mirror",
    "Nidn.C28_uniform"
   ],
   "note": "All three builders, mirror symmetry and degenerate parameters."
  },
  {
   "property": "C29",
   "status": "partial",
   "theorems": [
    "Nidn.C29_avoid_zero_range",
    "Nidn.C29_false",
    "Nidn.C29_imag",
    "Nidn.C29_network_partial",
    "Nidn.C29_voxel"
   ],
   "note": "Voxel models and network models with noise or without zero-avoidance: proved. Zero-avoidance runs after clipping: exact characterisation of the ranges that stay safe (C29_avoid_zero_range) and a counterexample."
  },
  {
   "property": "C30",
   "status": "partial",
   "theorems": [
    "Nidn.C30_imag_false",
    "Nidn.C30_imag_partial",
    "Nidn.C30_real"
   ],
   "note": "Real part proved. Imaginary part reaches its whole range iff imag_min_eps = 0 (imag_min_eps is never added); counterexample for [1,3]."
  },
  {
   "property": "C31",
   "status": "partial",
   "theorems": [
    "Nidn.C31_false",
    "Nidn.C31_layout_partial",
    "Nidn.C31_single_frequency_partial",
    "Nidn.C31_values_partial",
    "Nidn.C31_wrong_everywhere_else_false"
   ],
   "note": "False for N_freq >= 2: the reshape interleaves channels and frequencies. The exact layout is proved (C31_layout_partial), correctness for one frequency, and which entries are wrong."
  },
  {
   "property": "C32",
   "status": "partial",
   "theorems": [
    "Nidn.C32_avoid_zero",
    "Nidn.C32_classification",
    "Nidn.C32_grid_partial",
    "Nidn.C32_noise_false"
   ],
   "note": "The function itself is proved in full; the returned grid only without noise (noise is added afterwards, voxel models skip it)."
  },
  {
   "property": "C33",
   "status": "proved",
   "theorems": [
    "Nidn.C33_blocks",
    "Nidn.C33_classification",
    "Nidn.C33_size"
   ],
   "note": "Regression and classification; size condition, block structure."
  },
  {
   "property": "C34",
   "status": "partial",
   "theorems": [
    "Nidn.C34_distribution",
    "Nidn.C34_mixture_partial",
    "Nidn.C34_ranking",
    "Nidn.C34_sharpness",
    "Nidn.C34_shift",
    "Nidn.C34_single_frequency_false",
    "Nidn.C34_weights"
   ],
   "note": "Weights: positive, normalised, ranking, shift invariance, sharpness bound. Mixture for at least two materials and two frequencies; for one frequency squeeze() drops the axis and the result is the material list itself, independent of the model."
  },
  {
   "property": "C35",
   "status": "proved",
   "theorems": [
    "Nidn.C35_ticks",
    "Nidn.C35_z_uniform",
    "Nidn.C35_z_weighted"
   ],
   "note": "Even ticks and thickness-weighted z positions."
  },
  {
   "property": "C36",
   "status": "proved",
   "theorems": [
    "Nidn.C36_empty",
    "Nidn.C36_nonneg_flag",
    "Nidn.C36_symmetric",
    "Nidn.C36_value",
    "Nidn.C36_zero"
   ],
   "note": "Non-negative, explicit value, zero iff targets met, R/T symmetric for physical spectra, flag iff some R+T>1, empty spectrum is an error."
  },
  {
   "property": "C37",
   "status": "partial",
   "theorems": [
    "Nidn.C37_false",
    "Nidn.C37_partial"
   ],
   "note": "False: T is divided by the already renormalised R. Partial: both values stay in [0,1], the sum is at least one, and one only if R or T is zero."
  },
  {
   "property": "C38",
   "status": "proved",
   "theorems": [
    "Nidn.C38_max",
    "Nidn.C38_min",
    "Nidn.C38_reflect"
   ],
   "note": "Range, zero set and reflection symmetry of the min form; zero set of the max form."
  },
  {
   "property": "C39",
   "status": "proved",
   "theorems": [
    "Nidn.C39_failure_silent",
    "Nidn.C39_length",
    "Nidn.C39_logs"
   ],
   "note": "State machine over arbitrary outcome lists; logs equal the successful losses, averages over the last 20."
  },
  {
   "property": "C40",
   "status": "partial",
   "theorems": [
    "Nidn.C40_false",
    "Nidn.C40_partial",
    "Nidn.C40_physical_run_partial",
    "Nidn.C40_stored_partial"
   ],
   "note": "False: a renormalised record blocks later physical models. Partial: holds when the overall minimum is first reached by a physical iteration; stored models are always physical records."
  },
  {
   "property": "C41",
   "status": "proved",
   "theorems": [
    "Nidn.C41_failure",
    "Nidn.C41_halving",
    "Nidn.C41_positive",
    "Nidn.C41_repeated",
    "Nidn.C41_scheduler"
   ],
   "note": "Halving law, positivity including the plateau scheduler, restored weights, repeated failures."
  },
  {
   "property": "C42",
   "status": "partial",
   "theorems": [
    "Nidn.C42_nerf_depth3_false",
    "Nidn.C42_nerf_depth4_false",
    "Nidn.C42_nerf_partial",
    "Nidn.C42_siren",
    "Nidn.C42_unknown"
   ],
   "note": "Siren: all depths. Nerf: false at 3 and 4 hidden layers (skip position), proved for all other depths."
  },
  {
   "property": "C43",
   "status": "partial",
   "theorems": [
    "Nidn.C43_default",
    "Nidn.C43_false",
    "Nidn.C43_limit",
    "Nidn.C43_partial",
    "Nidn.C43_request",
    "Nidn.C43_zero_dim"
   ],
   "note": "Default and requested Courant numbers, the 1/sqrt(D) limit and the ValueError are proved. False for non-positive Courant numbers, which are accepted (C43_false); C43_partial excludes them."
  },
  {
   "property": "C44",
   "status": "partial",
   "theorems": [
    "Nidn.C44_distance",
    "Nidn.C44_keys",
    "Nidn.C44_nearest",
    "Nidn.C44_run_false",
    "Nidn.C44_run_partial",
    "Nidn.C44_time"
   ],
   "note": "Distances and times given as floats are rounded to the nearest index, keys are normalised as stated. Grid.run truncates instead of rounding (C44_run_false)."
  },
  {
   "property": "C45",
   "status": "proved",
   "theorems": [
    "Nidn.C45_curlE",
    "Nidn.C45_curlH",
    "Nidn.C45_fresh",
    "Nidn.C45_gauss_E",
    "Nidn.C45_gauss_H"
   ],
   "note": "div curl = 0 for both curls in the interior, and Gauss laws preserved by every run on quiet regions."
  },
  {
   "property": "C46",
   "status": "proved",
   "theorems": [
    "Nidn.C46_adjoint",
    "Nidn.C46_interior"
   ],
   "note": "Adjointness of the two curls with an explicit boundary flux."
  },
  {
   "property": "C47",
   "status": "partial",
   "theorems": [
    "Nidn.C47_balance",
    "Nidn.C47_bounded",
    "Nidn.C47_bounded_any",
    "Nidn.C47_conserved",
    "Nidn.C47_dissipative",
    "Nidn.C47_lift",
    "Nidn.C47_limit_false",
    "Nidn.C47_periodic",
    "Nidn.C47_periodic_bounded",
    "Nidn.C47_walls",
    "Nidn.C47_walls_bounded",
    "Nidn.C47_walls_stay_dark"
   ],
   "note": "Discrete Poynting balance in any dimension; conservation, dissipation and boundedness in 1-D, on 1-, 2-, 3-D periodic grids (C47_periodic*) and on 1-, 2-, 3-D grids that just end on some axes and are periodic on the others (C47_walls*), up to (excluding) the Courant limit. C47_walls needs the border planes dark at the start; C47_walls_stay_dark shows that fresh grids keep them dark whatever sources inside the grid do. At the limit itself the fields of a periodic grid grow without bound (C47_limit_false). One-dimensional grids with PML are in C139."
  },
  {
   "property": "C48",
   "status": "proved",
   "theorems": [
    "Nidn.C48_planes",
    "Nidn.C48_torus"
   ],
   "note": "The grid with periodic boundaries is proved equal, step by step, to an independently specified wrapped lattice with one plane less per periodic axis."
  },
  {
   "property": "C49",
   "status": "proved",
   "theorems": [
    "Nidn.C49_coefficients",
    "Nidn.C49_electric",
    "Nidn.C49_layer",
    "Nidn.C49_magnetic",
    "Nidn.C49_memory",
    "Nidn.C49_memory_run",
    "Nidn.C49_mirror"
   ],
   "note": "Holds for every thickness, Courant number and stability parameter."
  },
  {
   "property": "C50",
   "status": "proved",
   "theorems": [
    "Nidn.C50_domain",
    "Nidn.C50_exclusive",
    "Nidn.C50_periodic_side",
    "Nidn.C50_pml_side"
   ],
   "note": "Proved for all sequences of placements of distinct objects; DomainBorderPML included."
  },
  {
   "property": "C51",
   "status": "partial",
   "theorems": [
    "Nidn.C51_dark_partial",
    "Nidn.C51_detectors_partial",
    "Nidn.C51_false"
   ],
   "note": "Proved for all grids without PML, any objects and periodic boundaries (C51_dark_partial, C51_detectors_partial). With a PML it is false: the 1e-16 constant in the PML update lights the layer in the first step (C51_false, all positive Courant numbers)."
  },
  {
   "property": "C52",
   "status": "partial",
   "theorems": [
    "Nidn.C52_false",
    "Nidn.C52_linear_partial",
    "Nidn.C52_scaling",
    "Nidn.C52_signals",
    "Nidn.C52_superposition"
   ],
   "note": "Affine superposition and scaling hold for every grid, PML included (C52_superposition, C52_scaling, C52_signals); exact linearity for grids without PML (C52_linear_partial). With PML the 1e-16 constant breaks exact linearity (C52_false)."
  },
  {
   "property": "C53",
   "status": "partial",
   "theorems": [
    "Nidn.C53_cone",
    "Nidn.C53_dark",
    "Nidn.C53_detector",
    "Nidn.C53_error",
    "Nidn.C53_pml_false",
    "Nidn.C53_silent",
    "Nidn.C53_solver_partial",
    "Nidn.C53_source"
   ],
   "note": "Finite propagation speed proved for every grid, with sources and PMLs added on any set of planes; solver level: C53_error, C53_solver_partial (line source; detector far from source and PMLs). C53_pml_false: next to a PML the detector is not exactly dark, because PMLs add 1e-16 in every step."
  },
  {
   "property": "C54",
   "status": "partial",
   "theorems": [
    "Nidn.C54_absorption_false",
    "Nidn.C54_border_false",
    "Nidn.C54_inside",
    "Nidn.C54_last_false",
    "Nidn.C54_latest",
    "Nidn.C54_vacuum",
    "Nidn.C54_zindex_false"
   ],
   "note": "Proved for whole and bounded slices and single non-negative x, y indices. False in four ways: the border component of the top plane takes the grid's far-end value (C54_border_false), a plain object keeps an earlier absorption (C54_absorption_false), index -1 silently sets nothing (C54_last_false), absorbing objects at a z index raise (C54_zindex_false)."
  },
  {
   "property": "C55",
   "status": "partial",
   "theorems": [
    "Nidn.C55_detectors_partial",
    "Nidn.C55_false",
    "Nidn.C55_fields_partial"
   ],
   "note": "Proved for grids without PML. False with PML, whose memories survive the reset (C55_false, all positive Courant numbers)."
  },
  {
   "property": "C56",
   "status": "proved",
   "theorems": [
    "Nidn.C56_count",
    "Nidn.C56_includes_source",
    "Nidn.C56_line",
    "Nidn.C56_samples"
   ],
   "note": "Sample counts, sample contents and source inclusion proved for all grids and run lengths; the cell list of line detectors across the grid is C56_line."
  },
  {
   "property": "C57",
   "status": "partial",
   "theorems": [
    "Nidn.C57_ends",
    "Nidn.C57_injects",
    "Nidn.C57_line",
    "Nidn.C57_line_signals",
    "Nidn.C57_point",
    "Nidn.C57_point_signals_partial",
    "Nidn.C57_profile",
    "Nidn.C57_profile_width",
    "Nidn.C57_ricker_false",
    "Nidn.C57_single_false",
    "Nidn.C57_total",
    "Nidn.C57_update"
   ],
   "note": "Profile, cells, update, totals and pulse ends proved for all line sources; point sources except Ricker (C57_point_signals_partial). False of Ricker point sources (UnboundLocalError, C57_ricker_false) and of line sources given by three single indices (NaN, C57_single_false). C57_profile_width: how wide the profile of a line source is."
  },
  {
   "property": "C58",
   "status": "partial",
   "theorems": [
    "Nidn.C58_block_false",
    "Nidn.C58_block_partial",
    "Nidn.C58_blocklist_false",
    "Nidn.C58_line_partial",
    "Nidn.C58_list_false",
    "Nidn.C58_lists_cells",
    "Nidn.C58_lists_lengths",
    "Nidn.C58_negative_false",
    "Nidn.C58_reversed"
   ],
   "note": "Line detectors and sources: proved for single indices and slices with non-negative bounds. False of negative slice bounds (C58_negative_false), of index lists mixed with slices (C58_list_false) and of block detectors over full slices (C58_block_false) or index lists (C58_blocklist_false); C58_block_partial covers blocks that stop before the end. C58_lists_cells: with three lists of indices a line source or line detector sits exactly on the listed cells, in order; C58_lists_lengths: lists of unequal length end in an IndexError for line sources, line detectors and block detectors."
  },
  {
   "property": "C59",
   "status": "partial",
   "theorems": [
    "Nidn.C59_accepted",
    "Nidn.C59_detector_false",
    "Nidn.C59_detectors_partial",
    "Nidn.C59_init_partial",
    "Nidn.C59_layers_partial",
    "Nidn.C59_material_partial",
    "Nidn.C59_pml_false",
    "Nidn.C59_point_partial",
    "Nidn.C59_thickness_false"
   ],
   "note": "Layer slices adjoin, cover the stack, detectors and layers proved inside the free space, materials written to the addressed cells, complete grid proved equal to an independent description (C59_init_partial; C59_point_partial for point sources), for positive geometry. False of detectors next to the rear PML (C59_detector_false), PMLs thinner than a cell (C59_pml_false), and negative thicknesses (C59_thickness_false)."
  },
  {
   "property": "C60",
   "status": "proved",
   "theorems": [
    "Nidn.C60_run",
    "Nidn.C60_smallest",
    "Nidn.C60_spectrum"
   ],
   "note": "Scaling is the least value with ten cells per shortest wavelength and the configured minimum, for all inputs; lifted to all wavelengths of the spectrum (C60_run: to every run of the FDTD driver)."
  },
  {
   "property": "C61",
   "status": "partial",
   "theorems": [
    "Nidn.C61_again",
    "Nidn.C61_config_partial",
    "Nidn.C61_thickness_false",
    "Nidn.C61_views"
   ],
   "note": "Effects on the config proved for all accepted configs, both solvers, and idempotence of the run whatever its outcome. C61_thickness_false: a one-element thickness list is replaced by one entry per layer, so changing N_layers afterwards is rejected."
  },
  {
   "property": "C62",
   "status": "partial",
   "theorems": [
    "Nidn.C62_false",
    "Nidn.C62_partial"
   ],
   "note": "Holds for sums below 1.05; from 1.05 on the pair is returned unchanged (C62_false)."
  },
  {
   "property": "C63",
   "status": "partial",
   "theorems": [
    "Nidn.C63_false",
    "Nidn.C63_short",
    "Nidn.C63_tail_partial",
    "Nidn.C63_zeros_false"
   ],
   "note": "Holds for more than two windows after the leading zeros and for fewer than two; exactly two windows raise RuntimeError (C63_false); a signal of zeros with a short tail keeps less than a window (C63_zeros_false)."
  },
  {
   "property": "C64",
   "status": "proved",
   "theorems": [
    "Nidn.C64_peaks"
   ],
   "note": ""
  },
  {
   "property": "C65",
   "status": "partial",
   "theorems": [
    "Nidn.C65_nonneg",
    "Nidn.C65_scale_partial",
    "Nidn.C65_sign_false",
    "Nidn.C65_square_partial",
    "Nidn.C65_steady",
    "Nidn.C65_weak_false"
   ],
   "note": "Positive constants leave T and R unchanged unless an absolute threshold is crossed; negative ones change them (C65_sign_false); weak signals raise ValueError (C65_weak_false); k^2 law and non-negativity proved."
  },
  {
   "property": "C66",
   "status": "partial",
   "theorems": [
    "Nidn.C66_accepted",
    "Nidn.C66_false",
    "Nidn.C66_partial",
    "Nidn.C66_same_tail",
    "Nidn.C66_signals",
    "Nidn.C66_solver_partial"
   ],
   "note": "Reflection zero always; transmission one if both thresholds keep the same tail (C66_same_tail); in general not (C66_false: 5/8). C66_signals: a stack of permittivity one gives exactly the free-space signals; C66_solver_partial carries this to the solver; C66_accepted: an accepted config for which the whole solver returns exactly R = 0, T = 1."
  },
  {
   "property": "C67",
   "status": "partial",
   "theorems": [
    "Nidn.C67_both_partial",
    "Nidn.C67_fdtd",
    "Nidn.C67_slice",
    "Nidn.C67_stale_false"
   ],
   "note": "Index, length and order of both solvers' lists proved for all configs and grids. C67_stale_false: the RCWA solver uses frequencies stored by an earlier configuration."
  },
  {
   "property": "C68",
   "status": "proved",
   "theorems": [
    "Nidn.C68_linear",
    "Nidn.C68_mean",
    "Nidn.C68_uniform"
   ],
   "note": ""
  },
  {
   "property": "C69",
   "status": "partial",
   "theorems": [
    "Nidn.C69_false",
    "Nidn.C69_partial"
   ],
   "note": "The y part of the upper loop is counted twice (C69_false); uniform fields give zero."
  },
  {
   "property": "C70",
   "status": "partial",
   "theorems": [
    "Nidn.C70_accepts_partial",
    "Nidn.C70_bins_partial",
    "Nidn.C70_default",
    "Nidn.C70_documented",
    "Nidn.C70_names_false",
    "Nidn.C70_negative_false",
    "Nidn.C70_rejected_false",
    "Nidn.C70_rejected_partial",
    "Nidn.C70_resolution_false"
   ],
   "note": "Exact set of accepted names and all outcomes of set_backend; padding for a requested number of bins and the default. C70_names_false: any torch attribute is accepted as number type; C70_rejected_false: an unknown type moves the backend to the CPU; C70_negative_false, C70_resolution_false: negative paddings."
  },
  {
   "property": "C71",
   "status": "partial",
   "theorems": [
    "Nidn.C71_aluminium_oxide_false",
    "Nidn.C71_aluminium_oxide_partial",
    "Nidn.C71_collection",
    "Nidn.C71_passive_partial",
    "Nidn.C71_tables_sorted"
   ],
   "note": "All ten tables transcribed. Nine are passive at every frequency; aluminium oxide has negative k in eleven rows, so it amplifies at every wavelength of 0.28 um and below (C71_aluminium_oxide_false); passive windows proved."
  },
  {
   "property": "C72",
   "status": "partial",
   "theorems": [
    "Nidn.C72_false",
    "Nidn.C72_partial"
   ],
   "note": "False: zip truncates, so frequencies without a target are ignored. Partial: equal lengths."
  },
  {
   "property": "C73",
   "status": "partial",
   "theorems": [
    "Nidn.C73_false",
    "Nidn.C73_partial"
   ],
   "note": "False: before the first stored model the reloaded state is the live one, a deterministic failure repeats for ever. Partial: once a model is stored."
  },
  {
   "property": "C74",
   "status": "partial",
   "theorems": [
    "Nidn.C74_false",
    "Nidn.C74_partial"
   ],
   "note": "False: only encoding_dim = 4 matches the four-column input. Partial: encoding_dim = 4."
  },
  {
   "property": "C75",
   "status": "proved",
   "theorems": [
    "Nidn.C75_grid",
    "Nidn.C75_onto",
    "Nidn.C75_range"
   ],
   "note": "Affine image of [0,1) inside the range; onto; classification rejected."
  },
  {
   "property": "C76",
   "status": "partial",
   "theorems": [
    "Nidn.C76_boundary_false",
    "Nidn.C76_boundary_partial"
   ],
   "note": "False: boundaries are appended to the grid before any check, so a rejected one stays active (C76_boundary_false). What is preserved is proved."
  },
  {
   "property": "C77",
   "status": "partial",
   "theorems": [
    "Nidn.C77_named_partial",
    "Nidn.C77_reuse_false"
   ],
   "note": "False: the object is accepted twice but only acts on the second side (C77_reuse_false). Named objects are protected (C77_named_partial)."
  },
  {
   "property": "C78",
   "status": "partial",
   "theorems": [
    "Nidn.C78_false",
    "Nidn.C78_uniform_partial"
   ],
   "note": "Proved for laterally uniform grids; C78_false: only the first lateral cell of a grid is simulated, a checkerboard gets the vacuum answer."
  },
  {
   "property": "C79",
   "status": "partial",
   "theorems": [
    "Nidn.C79_metal_false",
    "Nidn.C79_warns_partial"
   ],
   "note": "Proved whenever some real part is non-negative; C79_metal_false: if all real parts are negative the check raises a ValueError (sqrt of a negative number, then int of NaN)."
  },
  {
   "property": "C80",
   "status": "partial",
   "theorems": [
    "Nidn.C80_fft_false",
    "Nidn.C80_frequencies",
    "Nidn.C80_start_partial"
   ],
   "note": "C80_fft_false: the routine always raises after the first step (padding mode unknown to torch); only the empty result before the first step is returned. C80_frequencies is the part that does work, the frequency axis."
  },
  {
   "property": "C81",
   "status": "proved",
   "theorems": [
    "Nidn.C81_impedance",
    "Nidn.C81_inverse"
   ],
   "note": "Proved over the reals."
  },
  {
   "property": "C82",
   "status": "proved",
   "theorems": [
    "Nidn.C82_derivative",
    "Nidn.C82_gaussian"
   ],
   "note": "Proved over the reals."
  },
  {
   "property": "C83",
   "status": "partial",
   "theorems": [
    "Nidn.C83_continuous_partial",
    "Nidn.C83_hanning_false",
    "Nidn.C83_ricker_partial"
   ],
   "note": "Continuous signals (5 %) and Ricker pulses of line sources proved for all grids; C83_hanning_false: the Hanning pulse ignores the grid's time step and misses a factor 2π."
  },
  {
   "property": "C84",
   "status": "partial",
   "theorems": [
    "Nidn.C84_last_false",
    "Nidn.C84_order",
    "Nidn.C84_placed_partial",
    "Nidn.C84_polarization_false",
    "Nidn.C84_refused",
    "Nidn.C84_sets"
   ],
   "note": "Placement, refusal and effect proved for locations given by single indices and slices with non-negative bounds. False for the last plane addressed by -1 (accepted, acts on no cell), and of the polarisation check, which is a substring test ('xy', '' are accepted and drive the normal component)."
  },
  {
   "property": "C85",
   "status": "partial",
   "theorems": [
    "Nidn.C85_direction_false",
    "Nidn.C85_normal_partial"
   ],
   "note": "False: the H component is imposed with the same sign for both polarisations, so the two emit in opposite directions. What holds: fields perpendicular to each other and the normal."
  },
  {
   "property": "C86",
   "status": "partial",
   "theorems": [
    "Nidn.C86_named_false",
    "Nidn.C86_placed",
    "Nidn.C86_step"
   ],
   "note": "Placement and per-step effect of unnamed sources proved. False for named sources: registering one always raises UnboundLocalError."
  },
  {
   "property": "C87",
   "status": "proved",
   "theorems": [
    "Nidn.C87_layer",
    "Nidn.C87_passive"
   ],
   "note": "Real part exact; the imaginary part within 3 % (semi-implicit conductivity at finite time step)."
  },
  {
   "property": "C88",
   "status": "proved",
   "theorems": [
    "Nidn.C88_accepts"
   ],
   "note": "Acceptance against an independent structure ConfigInOrder describing the documented keys, types and ranges."
  },
  {
   "property": "C89",
   "status": "proved",
   "theorems": [
    "Nidn.C89_network",
    "Nidn.C89_rejected"
   ],
   "note": "Both parts proved for every solver and every config."
  },
  {
   "property": "C90",
   "status": "partial",
   "theorems": [
    "Nidn.C90_cell_partial",
    "Nidn.C90_row_fails",
    "Nidn.C90_row_false"
   ],
   "note": "Proved when the y coordinate lies in the three rows of the simulated grid; false in general: the default config with a point source is accepted and every simulation raises IndexError."
  },
  {
   "property": "C91",
   "status": "proved",
   "theorems": [
    "Nidn.C91_mean"
   ],
   "note": "Proved for line sources and the mean of the two rows that are coupled by the periodic update (rows 1 and 2), between the absorbing layers."
  },
  {
   "property": "C92",
   "status": "proved",
   "theorems": [
    "Nidn.C92_arrival"
   ],
   "note": "Proved with an explicit margin from the absorbing layers: the detector must not be reachable from a PML cell within the D + 2 steps (a PML emits its additive 1e-16). The default config does not meet the margin because its source touches the PML."
  },
  {
   "property": "C93",
   "status": "proved",
   "theorems": [
    "Nidn.C93_again",
    "Nidn.C93_runs"
   ],
   "note": "Config effects of run_training (with at least one call of the solver) on all entries; C93_runs: a second run with the result of a first one is prepared without error, for every network and every config."
  },
  {
   "property": "C94",
   "status": "partial",
   "theorems": [
    "Nidn.C94_printed_partial",
    "Nidn.C94_trained_false"
   ],
   "note": "False after training: the entries model, results and best_model_state_dict have no width format and raise TypeError (C94_trained_false). C94_printed_partial: configs without runtime objects."
  },
  {
   "property": "C95",
   "status": "proved",
   "theorems": [
    "Nidn.C95_lengths",
    "Nidn.C95_logged",
    "Nidn.C95_spectra"
   ],
   "note": "Proved on the data handed to matplotlib; the drawing itself is not modelled."
  },
  {
   "property": "C96",
   "status": "partial",
   "theorems": [
    "Nidn.C96_epsilon_false",
    "Nidn.C96_epsilon_partial",
    "Nidn.C96_model_false",
    "Nidn.C96_model_partial"
   ],
   "note": "False: plot_model_grid averages before taking the modulus (1 and -1 are shown as 0), plot_epsilon_grid takes the Euclidean norm over frequencies (four frequencies of permittivity 1 are shown as 2). The partial theorems say what is shown."
  },
  {
   "property": "C97",
   "status": "proved",
   "theorems": [
    "Nidn.C97_cells",
    "Nidn.C97_curves",
    "Nidn.C97_per_frequency",
    "Nidn.C97_sizes"
   ],
   "note": "Proved on the data handed to matplotlib, for tensors of the configured size. C97_sizes: tensors with another number of cells are refused. A tensor of another shape with the same number of cells is accepted and drawn in the shape of the config."
  },
  {
   "property": "C98",
   "status": "proved",
   "theorems": [
    "Nidn.C98_names"
   ],
   "note": "Proved with matplotlib's rule for discrete colour maps (int((c - vmin)/(vmax - vmin)*n)) as part of the model."
  },
  {
   "property": "C99",
   "status": "partial",
   "theorems": [
    "Nidn.C99_few_false",
    "Nidn.C99_saved_partial"
   ],
   "note": "False for one to three frequencies: plot_model_grid_per_freq always asks for the first four (C99_few_false). C99_saved_partial: four or more frequencies and per-frequency material data."
  },
  {
   "property": "C100",
   "status": "partial",
   "theorems": [
    "Nidn.C100_fresh_partial",
    "Nidn.C100_stale_false"
   ],
   "note": "False if the config still holds the network of an earlier run (C100_stale_false): regression, then classification with the same config. C100_fresh_partial: networks built by the run itself."
  },
  {
   "property": "C101",
   "status": "partial",
   "theorems": [
    "Nidn.C101_back_partial",
    "Nidn.C101_front_partial",
    "Nidn.C101_inner_false",
    "Nidn.C101_interface_partial",
    "Nidn.C101_power_partial"
   ],
   "note": "False for every layer in the middle (AttributeError: torch has no inv, C101_inner_false). The partial theorems cover the first and last layer, the interface of two layers and the transmitted power."
  },
  {
   "property": "C102",
   "status": "proved",
   "theorems": [
    "Nidn.C102_grid",
    "Nidn.C102_grid_realises",
    "Nidn.C102_solver",
    "Nidn.C102_stack",
    "Nidn.C102_uniform",
    "Nidn.C102_uniform_realises"
   ],
   "note": "Maxwell's equations in Fourier space are a separate specification (Spec/Maxwell.lean); both directions, completeness by uniqueness of solutions of the linear differential equation. Retained orders only: truncation error is not bounded. For patterned layers the matrices are those after Epsilon_fft's filter (C15); the hypotheses are that eigen-solver returned a basis of eigenvectors with non-zero eigenvalues."
  },
  {
   "property": "C103",
   "status": "partial",
   "theorems": [
    "Nidn.C103_error_false",
    "Nidn.C103_front_partial",
    "Nidn.C103_queries_false"
   ],
   "note": "False: every query raises AttributeError (torch has no isinstance). C103_front_partial: with the missing function replaced the first layer's fields solve Maxwell's equations."
  },
  {
   "property": "C104",
   "status": "partial",
   "theorems": [
    "Nidn.C104_diagonal_false",
    "Nidn.C104_mesh_false",
    "Nidn.C104_volume_false",
    "Nidn.C104_weights_partial"
   ],
   "note": "False: every call raises AttributeError in SolveInterior, and Gmeshgrid raises ValueError on its own. C104_weights_partial: the formulas of the weights are the right integrals off the diagonal. Not modelled behind the failing call: the weights are used conjugated and Mx, My are applied to (-Ey, Ex)."
  },
  {
   "property": "C105",
   "status": "partial",
   "theorems": [
    "Nidn.C105_fourier_false",
    "Nidn.C105_patterned_false",
    "Nidn.C105_uniform_partial"
   ],
   "note": "False for patterned layers (always an error) and Fourier layers (returns None)."
  },
  {
   "property": "C106",
   "status": "partial",
   "theorems": [
    "Nidn.C106_circular_partial",
    "Nidn.C106_parallelogram_false",
    "Nidn.C106_refused"
   ],
   "note": "False for the parallelogram scheme, which always raises TypeError (torch.sqrt of an int)."
  },
  {
   "property": "C107",
   "status": "partial",
   "theorems": [
    "Nidn.C107_energy_false",
    "Nidn.C107_energy_partial",
    "Nidn.C107_mirror_partial",
    "Nidn.C107_scaled_partial",
    "Nidn.C107_unknown"
   ],
   "note": "C107_mirror_partial: exact mirror symmetry for the same normalisation, for any structure. False: with different media on the two sides the powers are normalised with the wrong one (C107_energy_false, R + T = 1/2 for vacuum and index two; C107_scaled_partial: sqrt(eps0/epsN) in general)."
  },
  {
   "property": "C108",
   "status": "proved",
   "theorems": [
    "Nidn.C108_orders",
    "Nidn.C108_specular",
    "Nidn.C108_sum",
    "Nidn.C108_unnormalised"
   ],
   "note": "Totals for every structure; sign and evanescence between transparent half-spaces at real frequencies; specular for stacks of uniform layers at any complex frequency. C108_unnormalised says what normalize = 0 means."
  },
  {
   "property": "C109",
   "status": "partial",
   "theorems": [
    "Nidn.C109_amplitude_false",
    "Nidn.C109_vacuum",
    "Nidn.C109_wave_partial"
   ],
   "note": "C109_wave_partial gives all six components. False for the documented meaning of the amplitudes when the front medium is not vacuum (they are magnetic amplitudes)."
  },
  {
   "property": "C110",
   "status": "partial",
   "theorems": [
    "Nidn.C110_axes_false",
    "Nidn.C110_swapped_partial"
   ],
   "note": "False: x and y are exchanged (C110_axes_false); C110_swapped_partial proves which pattern acts on which component."
  },
  {
   "property": "C111",
   "status": "partial",
   "theorems": [
    "Nidn.C111_empty_false",
    "Nidn.C111_short_false",
    "Nidn.C111_window_partial"
   ],
   "note": "Holds (with two periods) whenever the configured minimum density already resolves the shortest wavelength with ten points (C111_window_partial). False otherwise: the grid is refined, the window is not. With the default density it is shorter than a period below 0.476 micrometres (C111_short_false) and empty below 33 nm, where no run succeeds (C111_empty_false)."
  },
  {
   "property": "C112",
   "status": "proved",
   "theorems": [
    "Nidn.C112_brewster",
    "Nidn.C112_driver",
    "Nidn.C112_films",
    "Nidn.C112_fresnel",
    "Nidn.C112_halfwave",
    "Nidn.C112_quarter",
    "Nidn.C112_total"
   ],
   "note": "C112_films: equality with the independent specification Spec/Films.lean at real frequencies, for every input for which the solver answers and no order grazes (division by zero in the code). C112_driver: at the driver's complex frequency and normal incidence, including that it answers, with the loss in the front layer. Consequences with existence: C112_fresnel (Snell), C112_brewster, C112_total, C112_quarter; C112_halfwave."
  },
  {
   "property": "C113",
   "status": "partial",
   "theorems": [
    "Nidn.C113_damped_partial",
    "Nidn.C113_driver",
    "Nidn.C113_modes",
    "Nidn.C113_patterned_partial",
    "Nidn.C113_plasmon_false",
    "Nidn.C113_real"
   ],
   "note": "C113_modes: for regular layers the solver answers exactly when no front part of the stack (the first layers, the last one continued for ever) carries a field without being lit. C113_damped_partial, C113_patterned_partial: never fails for passive uniform or patterned layers at frequencies with positive imaginary part; the matrices of Epsilon_fft exist for every such pattern (C15_invertible). Missing: patterned layers with coefficients that the filter of C15 drops; independence of the eigenvectors is assumed. C113_driver: homogeneous stacks at the driver's frequencies, no assumption. C113_real: real frequencies if all retained orders propagate in front. C113_plasmon_false: without that it fails, at the surface plasmon of a lossless metal."
  },
  {
   "property": "C114",
   "status": "proved",
   "theorems": [
    "Nidn.C114_eigenvectors"
   ],
   "note": "C114_eigenvectors: both directions (answers, and the same answer), for every two lists of layers that the solver may hold for the same structure (Spec/Structure.lean `Built`). Hypothesis: the matrices of the layers of one of them are invertible and no mode has wave number zero."
  },
  {
   "property": "C115",
   "status": "proved",
   "theorems": [
    "Nidn.C115_orders",
    "Nidn.C115_scale"
   ],
   "note": "C115_scale (complex frequencies included), C115_orders (candidates, sort and truncation). Patterned layers hold arbitrary eigenvectors on either side."
  },
  {
   "property": "C116",
   "status": "partial",
   "theorems": [
    "Nidn.C116_shift_false",
    "Nidn.C116_shift_partial"
   ],
   "note": "C116_shift_partial: holds when the filter of Epsilon_fft leaves the coefficients of the pattern and of the shifted pattern alone (all of them zero, or with real or imaginary part at least 1e-14). Missing: the other patterns. C116_shift_false: a lossless grating of two pixels reflects nothing, shifted by one pixel 47.9 %, computed in closed form from the program's own equations."
  },
  {
   "property": "C117",
   "status": "proved",
   "theorems": [
    "Nidn.C117_mirror",
    "Nidn.C117_orders",
    "Nidn.C117_rotation"
   ],
   "note": "C117_rotation, C117_mirror for all lattices and patterns; C117_orders for the selection."
  },
  {
   "property": "C118",
   "status": "proved",
   "theorems": [
    "Nidn.C118_numbering",
    "Nidn.C118_selection"
   ],
   "note": "C118_selection: any two sorts retain the same orders up to numbering. C118_numbering: the answer is independent of the numbering."
  },
  {
   "property": "C119",
   "status": "proved",
   "theorems": [
    "Nidn.C119_flip",
    "Nidn.C119_polarisation",
    "Nidn.C119_selection",
    "Nidn.C119_turn"
   ],
   "note": "C119_flip, C119_turn, C119_polarisation for every renumbering of the orders that realises the symmetry; C119_selection: it exists for every request."
  },
  {
   "property": "C120",
   "status": "partial",
   "theorems": [
    "Nidn.C120_electric_partial",
    "Nidn.C120_entry",
    "Nidn.C120_first_false",
    "Nidn.C120_magnetic"
   ],
   "note": "C120_electric_partial, C120_magnetic: for runs of any length from any fields, the layer fresh, among any other boundaries; the memory recursion is solved in closed form; the 1e-16 the code adds is part of the statement. The cell must lie in one layer only, outside planes overwritten by periodic boundaries, sources and conductors. Missing: the electric field in the first plane of an upper layer, which is not damped although it conducts (C120_entry for all grids, C120_first_false)."
  },
  {
   "property": "C121",
   "status": "proved",
   "theorems": [
    "Nidn.C121_pairs",
    "Nidn.C121_specular",
    "Nidn.C121_subwavelength",
    "Nidn.C121_through"
   ],
   "note": "C121_specular (reflection, complex frequencies and lossy layers included), C121_through (transmission through the turned stack along the reversed path; the exact factor of the damping in the two outer layers is part of the statement and is 1 at real frequencies), C121_pairs (the retained orders always come in opposite pairs, so the hypothesis on the numbering holds on every lattice), C121_subwavelength (whole reflectance when only the central order propagates). Proved from a bilinear invariant of the stack, the filter on the permittivity included. Not claimed for diffracted orders: their reversed illumination uses a shifted set of orders, which the truncation does not keep."
  },
  {
   "property": "C122",
   "status": "partial",
   "theorems": [
    "Nidn.C122_damped",
    "Nidn.C122_driver",
    "Nidn.C122_films",
    "Nidn.C122_filter_false",
    "Nidn.C122_jump",
    "Nidn.C122_patterned"
   ],
   "note": "C122_films (any angle and complex frequency, wherever the solver answers and no squared wave number lies on the positive half line), C122_driver (unconditional for films at the driver's frequencies and normal incidence, transparent films and the edges of diffraction orders included), C122_patterned (patterned layers wherever every wave decays, also where eigenvalues coincide), C122_damped (passive patterns at damped frequencies, with no Fourier coefficient at or below the filter's threshold). False at the filter's threshold: C122_jump, C122_filter_false. Exact arithmetic; torch's own derivative rules (which divide by differences of eigenvalues) are not modelled."
  },
  {
   "property": "C123",
   "status": "proved",
   "theorems": [
    "Nidn.C123_exists",
    "Nidn.C123_speed",
    "Nidn.C123_velocity",
    "Nidn.C123_wave"
   ],
   "note": "C123_wave: exact solution for every number of steps; C123_exists: the wave exists below the limit; C123_speed, C123_velocity: the phase velocity between (1 - |kappa|^2/24) and 1 times that of light, in cells per step and in SI units. Uniform lossless media and periodic boundaries only; absorbing layers and interfaces are not covered."
  },
  {
   "property": "C124",
   "status": "proved",
   "theorems": [
    "Nidn.C124_agrees",
    "Nidn.C124_converges",
    "Nidn.C124_driver",
    "Nidn.C124_exists",
    "Nidn.C124_films",
    "Nidn.C124_films_settling",
    "Nidn.C124_persists",
    "Nidn.C124_power",
    "Nidn.C124_settles",
    "Nidn.C124_settling",
    "Nidn.C124_stationary"
   ],
   "note": "C124_films: exact film formulas for every settled state (impedances cos(kappa/2)/n, phase kappa per cell); C124_settling, C124_films_settling: the same for grids whose row sums only tend to an oscillation about a static field; C124_driver: the grid the solver builds for a configured stack settles into the films of that stack, each within one cell of its thickness, with the loss scaled by lossFactor; C124_power: power balance; C124_persists, C124_exists, C124_settles: such states exist and persist on the grid for every passive stack; C124_converges: limit of vanishing spacing; C124_agrees: the limit is what the RCWA solver returns. Not covered: that a simulation with NIDN's source settles within its steps, and the detectors' normalisation (C62, C65). In runs of the solver the PML's memory grows by 10^-16 per step, so the row sums of one run drift and approach the assumed oscillation about a static field only up to that drift; C180_films gives the same result without the assumption, for the difference to the run without source."
  },
  {
   "property": "C125",
   "status": "partial",
   "theorems": [
    "Nidn.C125_batch_false",
    "Nidn.C125_batch_partial",
    "Nidn.C125_both_partial",
    "Nidn.C125_distinct",
    "Nidn.C125_missing",
    "Nidn.C125_replaced_false",
    "Nidn.C125_roundtrip",
    "Nidn.C125_saves",
    "Nidn.C125_slash_false"
   ],
   "note": "C125_roundtrip, C125_saves: storing and loading. C125_distinct, C125_both_partial: names without slash lead to different files unless folder, name and second agree. C125_batch_partial: after a batch of configs with different names all runs and plots are there. False in general: same name within one second (C125_replaced_false), a name with a slash raises after the training and the run is lost (C125_slash_false), two configs of one batch with the same name: the plots of the first are overwritten (C125_batch_false). Pickling is taken to be faithful; links, permissions and a full disk are not modelled."
  },
  {
   "property": "C126",
   "status": "partial",
   "theorems": [
    "Nidn.C126_accepted",
    "Nidn.C126_add_false",
    "Nidn.C126_add_leaves_false",
    "Nidn.C126_current_false",
    "Nidn.C126_order",
    "Nidn.C126_rejected_false",
    "Nidn.C126_saved_partial",
    "Nidn.C126_simname_false",
    "Nidn.C126_stays_partial",
    "Nidn.C126_unnamed_false",
    "Nidn.C126_when"
   ],
   "note": "C126_accepted, C126_when: when a placement succeeds and that the name then stands for the component; C126_stays_partial: names keep their meaning under every program; C126_saved_partial: exactly two arrays per detector. False in general: save_data raises as soon as one detector is unnamed (C126_unnamed_false) or measures currents (C126_current_false); a rejected detector of the same name replaces the stored readings (C126_rejected_false); a component called full_sim_name is lost (C126_simname_false); the add_ methods raise for every component (C126_add_false) and leave an absorbing object behind (C126_add_leaves_false)."
  },
  {
   "property": "C127",
   "status": "partial",
   "theorems": [
    "Nidn.C127_films",
    "Nidn.C127_point",
    "Nidn.C127_resolution_false",
    "Nidn.C127_separate_partial",
    "Nidn.C127_simulate"
   ],
   "note": "C127_simulate, C127_point: with a continuous source the wavelength enters a simulation of a lossless stack only through the number of time steps per period (and the integer window of the steady-state test), for every stack and config; C127_separate_partial: wavelengths that differ by at least the way of light in one time step get different periods, and the simulated wavelength is within half of that way. False in general: with the default settings the target points 1.00 and 1.01 micrometres of an accepted config give identical results for every lossless stack with the same permittivities at both (C127_resolution_false), although eight default layers of index 2 reflect 0 and more than 1/5 at the two (C127_films)."
  },
  {
   "property": "C128",
   "status": "partial",
   "theorems": [
    "Nidn.C128_power",
    "Nidn.C128_ratio",
    "Nidn.C128_tied",
    "Nidn.C128_tied_false"
   ],
   "note": "C128_power: the power found in any stretch of at least 2P + 2 samples of an oscillation with P samples per period is exactly half the squared amplitude, for every phase off the ties; C128_ratio: the coefficients of four settled signals are the squared ratios of the amplitudes. False of ties, when a crest lies exactly half way between two samples: no sample is a strict maximum and the power is taken from the highest sample, too small by the factor cos^2(pi/P) (C128_tied, C128_tied_false)."
  },
  {
   "property": "C129",
   "status": "partial",
   "theorems": [
    "Nidn.C129_decibel_false",
    "Nidn.C129_map",
    "Nidn.C129_rejected",
    "Nidn.C129_total_partial",
    "Nidn.C129_units",
    "Nidn.C129_zero"
   ],
   "note": "C129_map, C129_zero, C129_units, C129_rejected for all readings; C129_total_partial: a map is drawn exactly when every cell moves - one cell standing still makes the smallest swing zero and all values infinite or nan. C129_decibel_false: the numbers are not decibels of intensity (ten times the logarithm of an amplitude ratio is half of them)."
  },
  {
   "property": "C130",
   "status": "partial",
   "theorems": [
    "Nidn.C130_detector",
    "Nidn.C130_energy_partial",
    "Nidn.C130_line",
    "Nidn.C130_object_false",
    "Nidn.C130_object_partial",
    "Nidn.C130_periodic",
    "Nidn.C130_plane_false",
    "Nidn.C130_plane_partial",
    "Nidn.C130_pml",
    "Nidn.C130_point_false",
    "Nidn.C130_point_partial",
    "Nidn.C130_rejected",
    "Nidn.C130_total_partial"
   ],
   "note": "C130_rejected (ValueError iff), C130_energy_partial and C130_total_partial (pixels; when a picture is drawn), C130_object_partial, C130_pml, C130_periodic, C130_line, C130_detector (exactly which points are covered or lie on lines), C130_plane_partial, C130_point_partial. False of point sources: the marker sits on a corner of the pixel, and in cuts across y marker and blanked pixel use the y coordinate as x (C130_point_false, may raise IndexError); of plane sources seen from the side, drawn with zero area (C130_plane_false); of objects placed with a negative index, drawn outside the picture (C130_object_false)."
  },
  {
   "property": "C131",
   "status": "partial",
   "theorems": [
    "Nidn.C131_failure_false",
    "Nidn.C131_frames",
    "Nidn.C131_unsaved",
    "Nidn.C131_video"
   ],
   "note": "C131_frames, C131_video (any success), C131_unsaved. False when ffmpeg is missing or fails: CalledProcessError is constructed with one argument, so a TypeError is raised, and the working directory stays changed (C131_failure_false)."
  },
  {
   "property": "C132",
   "status": "partial",
   "theorems": [
    "Nidn.C132_computed",
    "Nidn.C132_long_partial",
    "Nidn.C132_short_false",
    "Nidn.C132_warning"
   ],
   "note": "C132_long_partial: without warning the steps suffice for 99 percent of the way, for all stacks whose real permittivities occur in the grid. The missing percent is real: C132_short_false - with exactly the recommended number there is no warning, and the light goes at most 99 percent of the way, since the grid's Courant number is 0.99/sqrt(2) and the recommendation assumes 1/sqrt(2). C132_warning (the converse direction) and C132_computed (when the check raises) are complete."
  },
  {
   "property": "C133",
   "status": "partial",
   "theorems": [
    "Nidn.C133_at_cell",
    "Nidn.C133_at_object",
    "Nidn.C133_at_plane",
    "Nidn.C133_at_pml",
    "Nidn.C133_at_slices",
    "Nidn.C133_brackets_false",
    "Nidn.C133_cells_false",
    "Nidn.C133_empty_false",
    "Nidn.C133_entry",
    "Nidn.C133_first_line",
    "Nidn.C133_half_moved_false",
    "Nidn.C133_header",
    "Nidn.C133_kind_false",
    "Nidn.C133_location",
    "Nidn.C133_missing",
    "Nidn.C133_prints_partial",
    "Nidn.C133_raises",
    "Nidn.C133_rejected_false",
    "Nidn.C133_rejected_keeps",
    "Nidn.C133_text",
    "Nidn.C133_told_apart"
   ],
   "note": "C133_prints_partial: for every program of accepted placements of different components, none on an empty list of cells, the text is given explicitly (one entry per component, in order, with its position); C133_entry and C133_location: the entries are in index notation for all slices with and without bounds and steps, and positions that are not lists of cells can be read off. False of the code: after a refused placement printing raises for good (C133_rejected_false); detectors on empty ranges are accepted and make printing raise (C133_empty_false); every boundary is called PML (C133_kind_false); of lists only the first and last cell are shown (C133_cells_false); the bracket notation means different things for plane sources and detectors (C133_brackets_false). Texts of numbers that are not integers are parameters; SoftArbitraryPointSource is left out. C133_first_line, C133_told_apart: every entry opens with the class and the name of the component, and components of different class or name have different entries; C133_at_cell, C133_at_slices, C133_at_plane: the line below gives the cell, the ranges or the box the component was registered with; C133_header: the size of the grid stands first. C133_rejected_keeps: refused second placements of sources and detectors leave the shown place as it was; C133_half_moved_false: a boundary that is refused at its second or third axis is left with the first coordinates changed. C133_at_object, C133_at_pml: the same for objects and absorbing boundaries."
  },
  {
   "property": "C134",
   "status": "partial",
   "theorems": [
    "Nidn.C134_classification_partial",
    "Nidn.C134_depth_false",
    "Nidn.C134_networks",
    "Nidn.C134_regression",
    "Nidn.C134_single_false"
   ],
   "note": "C134_regression: holds for every accepted regression config with a network of two outputs on four inputs, or a voxel model; C134_networks: nerf (depth other than 3 and 4) and siren are such networks. C134_classification_partial: holds for classifications with at least two frequencies, or one material. False of the code: with one frequency and several materials every accepted config gives one slice per material and the RCWA solver stops with an AssertionError (C134_single_false); a nerf with three hidden layers cannot be reshaped (C134_depth_false)."
  },
  {
   "property": "C135",
   "status": "partial",
   "theorems": [
    "Nidn.C135_block_false",
    "Nidn.C135_delay",
    "Nidn.C135_empty_false",
    "Nidn.C135_envelope",
    "Nidn.C135_first_cell",
    "Nidn.C135_flat_false",
    "Nidn.C135_names",
    "Nidn.C135_plots_partial"
   ],
   "note": "C135_plots_partial: envelopes and arrivals, for all dictionaries of line and other detectors whose last entry has readings and (without specific_plot) at most four columns. C135_envelope, C135_delay: exact analytic signal in place of scipy's float one. C135_first_cell: only the first cell of a detector counts. C135_names: the names written by save_data are taken. False of the code: UnboundLocalError without detectors (C135_empty_false); ValueError, and nothing shown, if the last detector is a block detector with more than four columns (C135_block_false); TypeError if the readings of the last entry have two axes only (C135_flat_false)."
  },
  {
   "property": "C136",
   "status": "partial",
   "theorems": [
    "Nidn.C136_exact",
    "Nidn.C136_false",
    "Nidn.C136_partial"
   ],
   "note": "C136_exact: for accepted configs with positive wavelengths, the preparation succeeds if and only if seed, iterations and network settings are as listed in Trainable (constructors modelled layer by layer; limits of torch and numpy as contracts). C136_partial: sufficient settings for nerf and siren. C136_false: eight kinds of accepted configs that cannot be trained. The GPU switch is left out."
  },
  {
   "property": "C137",
   "status": "partial",
   "theorems": [
    "Nidn.C137_false",
    "Nidn.C137_uniform_partial",
    "Nidn.C137_without_frequencies"
   ],
   "note": "C137_uniform_partial: the whole chain (config entries, frequencies, validation, dispatch, lattice, order selection with any tie-breaking, layer stack, RCWA) for accepted configs with a proper cell, at least two orders, positive surrounding permittivities, non-negative thicknesses and permittivities that do not amplify at the damped frequency; the values are those of the characteristic-matrix method at that frequency. C137_false: accepted configs for which a vacuum stack is not answered. C137_without_frequencies: the AssertionError if no frequencies are stored. Several cells per layer: C156."
  },
  {
   "property": "C138",
   "status": "partial",
   "theorems": [
    "Nidn.C138_ampere",
    "Nidn.C138_cell",
    "Nidn.C138_edge_false",
    "Nidn.C138_lists",
    "Nidn.C138_lists_false",
    "Nidn.C138_no_current_false",
    "Nidn.C138_partial",
    "Nidn.C138_whole_false"
   ],
   "note": "C138_partial (slices), C138_cell (integers), C138_lists: number, place and time of the readings for cells that have neighbours below on each axis (or lie on an axis of one cell); the value is the one of C69. C138_ampere: the loop current is the displacement current of the next step. False: C138_no_current_false (1/2 where nothing flows), C138_lists_false (two points, eight readings), C138_edge_false (index 0 reads the last plane), C138_whole_false (a whole axis raises in the first step). Detectors with a name already taken are in C126."
  },
  {
   "property": "C139",
   "status": "partial",
   "theorems": [
    "Nidn.C139_apart_partial",
    "Nidn.C139_bounded_partial",
    "Nidn.C139_false"
   ],
   "note": "C139_apart_partial: two runs of the same row of cells stay within √((c + κ(1+40/a))/(1−c)) times initial distance plus the difference of what the sources added (κ the greatest relative permittivity or permeability, c the Courant number, a the loss parameter of the layers), by an energy that counts fields and memories of the layers and never grows. C139_bounded_partial: a single run between layers of vacuum, same factor, plus a term of at most (k + A·k²)·10⁻¹⁶ order after k steps. C139_false: the last sentence is false, because PML.update_E adds 10⁻¹⁶ to every component in the layers in every step: a dark grid ends up beyond every bound. Missing: grids with more than one cell across; sources that set rather than add; conductors inside the layers; the tangential fields of the outermost planes are required to agree (fresh grids do)."
  },
  {
   "property": "C140",
   "status": "proved",
   "theorems": [
    "Nidn.C140_accepts",
    "Nidn.C140_films"
   ],
   "note": "C140_films: R and T of coh_tmm equal the reflectance and transmittance of the characteristic-matrix method (Spec/Films.lean, also used for the RCWA solver). C140_accepts: stacks of passive materials in which the normal component of the index has positive real and non-negative imaginary part raise nothing. The arcsine is a parameter; only sin(arcsin z) = z is used."
  },
  {
   "property": "C141",
   "status": "partial",
   "theorems": [
    "Nidn.C141_agree_partial",
    "Nidn.C141_painted"
   ],
   "note": "C141_agree_partial: both calls succeed and agree, for grids with one cell per layer and the configs C137_uniform_partial covers. C141_painted: the same for several equal cells per layer, for configs C156_painted covers. Missing: unequal cells (for which coh_tmm has no counterpart) and the configs that C137_false and C156_false list."
  },
  {
   "property": "C142",
   "status": "proved",
   "theorems": [
    "Nidn.C142_RT",
    "Nidn.C142_shares",
    "Nidn.C142_sum"
   ],
   "note": "C142_sum, C142_shares, C142_RT: the power that enters layer i is the flux of the field at its front; its derivative along the layer is minus a loss that is not negative for passive materials (Lemmas/TmmFlux.lean), and the flux is continuous at interfaces."
  },
  {
   "property": "C143",
   "status": "proved",
   "theorems": [
    "Nidn.C143_interfaces",
    "Nidn.C143_losses",
    "Nidn.C143_maxwell"
   ],
   "note": "C143_interfaces, C143_maxwell, C143_losses: the fields are the forward and backward waves of the layer; continuity comes from the interface matrices of coh_tmm, the wave equation from Snell's law."
  },
  {
   "property": "C144",
   "status": "proved",
   "theorems": [
    "Nidn.C144_integral",
    "Nidn.C144_operations",
    "Nidn.C144_run"
   ],
   "note": "C144_run, C144_integral, C144_operations: run(z) is complex in the source (its imaginary part vanishes where the parts are filled in by fill_in); the share is the integral of its real part."
  },
  {
   "property": "C145",
   "status": "proved",
   "theorems": [
    "Nidn.C145_find",
    "Nidn.C145_flow",
    "Nidn.C145_places"
   ],
   "note": "C145_find, C145_places, C145_flow. For the flow the stack must be passive and have no layer with attenuation above exp(-35)."
  },
  {
   "property": "C146",
   "status": "proved",
   "theorems": [
    "Nidn.C146_accepts",
    "Nidn.C146_amplitudes",
    "Nidn.C146_reflectance",
    "Nidn.C146_transmittance"
   ],
   "note": "C146_amplitudes, C146_transmittance, C146_reflectance, C146_accepts. For the reflectances layers that attenuate by more than exp(-35) are excluded, since the code clamps them."
  },
  {
   "property": "C147",
   "status": "proved",
   "theorems": [
    "Nidn.C147_accepts",
    "Nidn.C147_groups"
   ],
   "note": "C147_accepts, C147_groups: invariant of the loop, then read off at its end."
  },
  {
   "property": "C148",
   "status": "proved",
   "theorems": [
    "Nidn.C148_accepts",
    "Nidn.C148_balance",
    "Nidn.C148_coherent",
    "Nidn.C148_slab",
    "Nidn.C148_thickness"
   ],
   "note": "C148_balance (with uniqueness), C148_thickness, C148_coherent, C148_slab, C148_accepts. The specification Balanced is a set of linear equations between intensities; the code's matrices do not occur in it."
  },
  {
   "property": "C149",
   "status": "partial",
   "theorems": [
    "Nidn.C149_RT_partial",
    "Nidn.C149_energy_false",
    "Nidn.C149_shares_partial",
    "Nidn.C149_sum"
   ],
   "note": "C149_sum holds for every accepted stack. C149_RT_partial and C149_shares_partial need incoherent layers of real index, where the waves travel (WellGrouped). For absorbing incoherent layers the claim is false (C149_energy_false: a layer of index 1+i in air gives R + T = 9/5 and a negative share), because the code adds the powers of the two directions although in absorbing media they interfere. Missing: stacks with an incoherent layer behind total reflection."
  },
  {
   "property": "C150",
   "status": "partial",
   "theorems": [
    "Nidn.C150_find_false",
    "Nidn.C150_rest_partial"
   ],
   "note": "False of the code: the test for coherent layers raises ValueError for all of them (C150_find_false, for every stack and layer). C150_rest_partial proves the claim for the lines behind the test, given the entry they would get."
  },
  {
   "property": "C151",
   "status": "proved",
   "theorems": [
    "Nidn.C151_answers",
    "Nidn.C151_opposite",
    "Nidn.C151_real",
    "Nidn.C151_snell"
   ],
   "note": "C151_opposite, C151_answers, C151_snell, C151_real."
  },
  {
   "property": "C152",
   "status": "proved",
   "theorems": [
    "Nidn.C152_normal"
   ],
   "note": "C152_normal."
  },
  {
   "property": "C153",
   "status": "proved",
   "theorems": [
    "Nidn.C153_coherent",
    "Nidn.C153_find",
    "Nidn.C153_incoherent",
    "Nidn.C153_incoherent_shares",
    "Nidn.C153_places",
    "Nidn.C153_reverse",
    "Nidn.C153_shares"
   ],
   "note": "C153_coherent, C153_reverse, C153_incoherent relate whole results, errors included; C153_places, C153_shares, C153_incoherent_shares, C153_find the functions computed from them. In real arithmetic: the code's tests against EPSILON do not involve lengths."
  },
  {
   "property": "C154",
   "status": "partial",
   "theorems": [
    "Nidn.C154_absent",
    "Nidn.C154_front",
    "Nidn.C154_split_false",
    "Nidn.C154_split_partial",
    "Nidn.C154_substrate"
   ],
   "note": "C154_split_partial, C154_absent, C154_substrate, C154_front, where no layer attenuates the field by more than exp(-35). Beyond that the code cuts the attenuation off, and splitting an opaque film changes T (C154_split_false: the film of double thickness lets through as much as the single one)."
  },
  {
   "property": "C155",
   "status": "proved",
   "theorems": [
    "Nidn.C155_answers",
    "Nidn.C155_average",
    "Nidn.C155_brewster",
    "Nidn.C155_energy",
    "Nidn.C155_ratio",
    "Nidn.C155_surface",
    "Nidn.C155_total"
   ],
   "note": "C155_average (an integral over the directions of polarisation), C155_energy (for a light from a transparent medium and a stack of which no layer emits), C155_ratio, C155_answers, C155_brewster, C155_total, C155_surface (acceptance). In real arithmetic; NaN and infinity are the error .nan of the model."
  },
  {
   "property": "C156",
   "status": "partial",
   "theorems": [
    "Nidn.C156_columns_false",
    "Nidn.C156_false",
    "Nidn.C156_painted",
    "Nidn.C156_patterned_partial",
    "Nidn.C156_resolved",
    "Nidn.C156_unresolved"
   ],
   "note": "C156_painted (equal cells in each layer: film formulas, for any eigenvectors), C156_patterned_partial (unequal cells: needs that the layer matrices can be diagonalised, that the 1e-14 filter on Fourier coefficients does nothing and that the permittivities are strictly passive at the damped frequency), C156_resolved (a rectangular lattice and at least TRCWA_NG-1 cells per direction resolve all orders). Where the claim is false of the code: C156_unresolved (orders the cells do not resolve: IndexError), C156_columns_false (Nx = 3, or Nx = 1 with Ny at least 2 but not 3 and several layers: RuntimeError), C156_false (the default config with 2x2 cells, for every grid). The eigensolver is a parameter with a contract: it returns eigenpairs, and a basis if there is one."
  },
  {
   "property": "C157",
   "status": "partial",
   "theorems": [
    "Nidn.C157_answered",
    "Nidn.C157_runs_partial",
    "Nidn.C157_short",
    "Nidn.C157_short_false",
    "Nidn.C157_window_false"
   ],
   "note": "C157_answered (which outcome for which recordings, windows of at least one sample), C157_runs_partial (from the accepted config to the recordings and the outcome; missing: point sources, sources outside the grid, PML below one cell, wavelengths or thicknesses that are not positive, overflow of the fields). Where an answer cannot be had: C157_window_false (a window of no sample: never an answer), C157_short (wavelengths below a third of the configured cell), C157_short_false (an accepted config for 20 to 30 nm that no tensor answers)."
  },
  {
   "property": "C158",
   "status": "partial",
   "theorems": [
    "Nidn.C158_alignment_false",
    "Nidn.C158_cells",
    "Nidn.C158_rejected",
    "Nidn.C158_reuse_false"
   ],
   "note": "C158_cells, C158_rejected for all keys C54 covers; placeTensors_scalar: with numbers this is the model of C54. False: C158_alignment_false (tensors with one axis: permittivities belong to field components, conductivities to cells along x), C158_reuse_false (an absorbing object cannot be placed a second time on a block of another size, because its conductivity was replaced by a tensor of the first size)."
  },
  {
   "property": "C159",
   "status": "partial",
   "theorems": [
    "Nidn.C159_again_false",
    "Nidn.C159_generators",
    "Nidn.C159_longer",
    "Nidn.C159_reproducible",
    "Nidn.C159_resume_false",
    "Nidn.C159_seed_unused"
   ],
   "note": "Model of run_training with the two global generators as state (Model/TrainSeed.lean); what torch, solver and losses compute is an arbitrary function. C159_reproducible (any history; also: repeating after clearing the network), C159_seed_unused (given network and no noise: the seed has no effect), C159_generators (state left behind), C159_longer (more iterations extend the logs). False: C159_again_false (the config holds the trained network afterwards, so calling run_training again goes on from it) and C159_resume_false (nor do two short runs equal a long one: the last step is thrown away when the best state is reloaded)."
  },
  {
   "property": "C160",
   "status": "partial",
   "theorems": [
    "Nidn.C160_bias",
    "Nidn.C160_centred_false",
    "Nidn.C160_classification",
    "Nidn.C160_size"
   ],
   "note": "C160_size (bound and range), C160_classification (exact effect on the ratio of material weights; centred). False for regression models: C160_bias (for every permittivity with room in the range the mean over opposite random numbers is lower by noise_scale times the width of the range), C160_centred_false (witness with the default scale)."
  },
  {
   "property": "C161",
   "status": "partial",
   "theorems": [
    "Nidn.C161_longer",
    "Nidn.C161_niter",
    "Nidn.C161_pieces",
    "Nidn.C161_seconds_false",
    "Nidn.C161_seconds_partial"
   ],
   "note": "C161_pieces, C161_longer for numbers of steps, C161_niter for the solver (init_fdtd, run, detector signals). Durations in seconds are cut to whole steps call by call: C161_seconds_false (two runs of half a time step do nothing), C161_seconds_partial (at most one step is lost; none if one duration is a whole number of steps)."
  },
  {
   "property": "C162",
   "status": "proved",
   "theorems": [
    "Nidn.C162_groups",
    "Nidn.C162_lines",
    "Nidn.C162_lines_same",
    "Nidn.C162_supercell",
    "Nidn.C162_truncation"
   ],
   "note": "C162_groups is the general statement (two groups of orders between which all Fourier coefficients of all patterns vanish: the run with both has an answer exactly if the runs with each do, and it is that of the group of the incident wave); C162_supercell (repeated cells), C162_lines and C162_lines_same (gratings of lines on a rectangular lattice) follow from the same lemmas without assuming that the other group can be solved. The layers are assumed Regular (invertible matrices, no grazing order), as for the other theorems about patterned layers. C162_truncation: with the number of orders kept (as TRCWA_NG does) a doubled cell gives R = 0 instead of 110736/231361."
  },
  {
   "property": "C163",
   "status": "proved",
   "theorems": [
    "Nidn.C163_axes",
    "Nidn.C163_fresh",
    "Nidn.C163_layer",
    "Nidn.C163_line_detector",
    "Nidn.C163_line_source",
    "Nidn.C163_plane_breaks",
    "Nidn.C163_point_source"
   ],
   "note": "C163_axes: the run of the turned grid is the turned run (fields, memory of the absorbing layers, detector readings), for rotations and all sources or any permutation and sources that only add to E. C163_layer and C163_fresh: the absorbing layers and the empty grid that the code builds on the exchanged axes are the turned ones. C163_line_source, C163_point_source, C163_line_detector: placement with exchanged keys. C163_plane_breaks: one cell with a plane source for which the exchange of x and y gives another magnetic field, so the restriction on plane sources is needed."
  },
  {
   "property": "C164",
   "status": "proved",
   "theorems": [
    "Nidn.C164_hanning",
    "Nidn.C164_spectra"
   ],
   "note": "C164_spectra: equality of the whole result of compute_spectrum_fdtd, errors included, floats as reals. C164_hanning: for every grid, every wavelength of at least 0.2 micrometres and every factor above one the Hanning pulse of the scaled problem differs from the original in step 1, so the exception in the statement is needed."
  },
  {
   "property": "C165",
   "status": "proved",
   "theorems": [
    "Nidn.C165_dipoles",
    "Nidn.C165_point",
    "Nidn.C165_reciprocity",
    "Nidn.C165_simulation",
    "Nidn.C165_swap"
   ],
   "note": "C165_reciprocity is the general form for source profiles, C165_dipoles the one for single components, C165_point the one for the point sources of the package (they feed E_z), C165_swap the case of equal materials, C165_simulation the one for the grids of init_fdtd, free space or layers. The proof treats the absorbing layers as convolutions with their memory kernels and works in the field of fractions of formal power series in the delay (Lemmas/FdtdSeries.lean). The constant 1e-16 the layers add to their correction term cancels because the effect of a source is a difference of two runs."
  },
  {
   "property": "C166",
   "status": "proved",
   "theorems": [
    "Nidn.C166_convolution",
    "Nidn.C166_delay",
    "Nidn.C166_kicks",
    "Nidn.C166_point",
    "Nidn.C166_state"
   ],
   "note": "C166_state compares two grids of the same construction in any states, C166_delay moves the start of a source, C166_kicks splits any drive into its steps, C166_convolution is the form for a source of fixed profile and C166_point the one for point sources. The proofs combine four runs with weights 1, -1, -1, 1 (Props/FdtdRun.lean) after moving the clock of one pair."
  },
  {
   "property": "C167",
   "status": "partial",
   "theorems": [
    "Nidn.C167_constants",
    "Nidn.C167_dot_false",
    "Nidn.C167_dot_partial",
    "Nidn.C167_double",
    "Nidn.C167_sound",
    "Nidn.C167_transpose",
    "Nidn.C167_transpose_matrix",
    "Nidn.C167_unit"
   ],
   "note": "The values are exact complex numbers, so precision shows in the data type only. C167_dot_partial is the agreement with numpy.dot, stated with Mathlib's matrix products, for the shapes and types that work; C167_dot_false has the exceptions: vector times matrix and single times double real operands raise, and a single complex operand brings a double one down to single. C167_sound is the other direction: whatever is returned has the numbers of the numpy product. C167_unit shows the effect of the default type, which import nidn sets to double and run_training to single on a GPU."
  },
  {
   "property": "C168",
   "status": "proved",
   "theorems": [
    "Nidn.C168_count",
    "Nidn.C168_errors",
    "Nidn.C168_record",
    "Nidn.C168_same_network"
   ],
   "note": "C168_record describes every entry through the forward pass of the first modules; C168_errors, C168_count the rest; C168_same_network ties the module list to the network of Model/Nets.lean. Rows are evaluated one at a time; gradients are left out."
  },
  {
   "property": "C169",
   "status": "proved",
   "theorems": [
    "Nidn.C169_better",
    "Nidn.C169_bragg",
    "Nidn.C169_coating",
    "Nidn.C169_mirror",
    "Nidn.C169_rcwa",
    "Nidn.C169_tmm"
   ],
   "note": "C169_tmm and C169_rcwa are unconditional: that the solvers succeed is part of the conclusion (they use C140_accepts and C113_real). C169_bragg, C169_better, C169_mirror and C169_coating follow from C169_tmm. The specification (quarterIndex, Fresnel's formula) does not mention the solvers. The arcsine need only invert the sine and send 0 to 0. For the Fourier-modal solver the extra orders have to propagate in front and must not graze in any layer; the frequency is real, whereas the driver adds a small imaginary part."
  },
  {
   "property": "C170",
   "status": "partial",
   "theorems": [
    "Nidn.C170_moved",
    "Nidn.C170_place_partial",
    "Nidn.C170_seam_false",
    "Nidn.C170_uniform"
   ],
   "note": "C170_moved is the general statement for two grids in the relation MovedAlong (first and last plane of the ring hold the same), C170_uniform its special case. C170_place_partial is about grids as the code makes them with one point source; the source has to keep off the first and the last plane. C170_seam_false: on the first plane the contribution of a source is overwritten by the copy of the last plane in the next step, on the last plane it reaches only one neighbour; the echo at the source is -1/4 and 3/4 instead of 1/2."
  },
  {
   "property": "C171",
   "status": "proved",
   "theorems": [
    "Nidn.C171_foreign",
    "Nidn.C171_polarisation",
    "Nidn.C171_stays"
   ],
   "note": "C171_polarisation: two simulations in the relation SamePolarisation (same size, Courant number, time, and everything of one polarisation) stay in it; nothing is asked of the other polarisation. SameSources is the general condition on sources, same_soft gives it for additive sources. C171_stays compares with the source-free run. The example is the solver's own geometry."
  },
  {
   "property": "C172",
   "status": "partial",
   "theorems": [
    "Nidn.C172_ends_false",
    "Nidn.C172_mirrored_partial",
    "Nidn.C172_sides_partial"
   ],
   "note": "C172_mirrored_partial holds along an axis with a periodic boundary when all boundaries are periodic; C172_sides_partial is its consequence for one source in a uniform medium. C172_ends_false: along an axis without a periodic boundary the two ends differ; the differences of H are missing in the first plane and those of E in the last one, so that the lower end is an electric wall (E across stays zero) and the upper end a magnetic wall. Absorbing layers are left out: they add 1e-16 to every component, also to those that change their sign."
  },
  {
   "property": "C173",
   "status": "partial",
   "theorems": [
    "Nidn.C173_absorbing_false",
    "Nidn.C173_object_partial",
    "Nidn.C173_thin_false"
   ],
   "note": "C173_object_partial: objects without conductivity, at least two planes thick, off the first and last plane of the axis, in a grid with one background; the result is in the form that C172 asks for, so the fields are mirrored too. C173_thin_false: objects of one plane are not symmetric (the border is only treated if the axis has more than one plane). C173_absorbing_false: the permittivity of an absorbing object is symmetric, its absorption is not."
  },
  {
   "property": "C174",
   "status": "proved",
   "theorems": [
    "Nidn.C174_backwards",
    "Nidn.C174_distinct",
    "Nidn.C174_losses"
   ],
   "note": "C174_backwards: k + j steps, turn round, j steps, turn round = k steps, all cells and components; soft sources may be present if they have fallen silent. C174_distinct: states with equal fields after k steps had equal fields before. C174_losses: with a conductivity the field does not come back (so the hypothesis is needed). Exact arithmetic; PMLs and plane sources (which overwrite fields) are excluded by the hypotheses."
  },
  {
   "property": "C175",
   "status": "proved",
   "theorems": [
    "Nidn.C175_opaque"
   ],
   "note": "C175_opaque: rtForward answers for every thickness d >= 0, R(d) -> R of the stack that ends in the absorbing half-space (also computed by rtForward), T(d) -> 0 and T(d) exp(2 w Im(c) d) converges. From C113 (the solver answers), C112 (film formulas) and the limit of a characteristic matrix, where passivity of the films behind bounds the fields away from zero. Exact real arithmetic, real frequency, no order grazing in any layer."
  },
  {
   "property": "C176",
   "status": "proved",
   "theorems": [
    "Nidn.C176_adjoining",
    "Nidn.C176_balance",
    "Nidn.C176_passive",
    "Nidn.C176_run",
    "Nidn.C176_steady"
   ],
   "note": "C176_balance: one step; C176_run: the whole run; C176_steady: periodic fields; C176_passive: energy plus outflow never grows; C176_adjoining: outflows of adjoining boxes add up. Energy is the leap-frog energy E(n)^2 eps + H(n-1/2) H(n+1/2) mu; the power through a face pairs E of one cell with H of the cell before it, as the staggered grid does. Exact arithmetic. Cells inside PMLs, on the first and last plane of a periodic axis and in plane sources are excluded by the hypothesis Unwritten."
  },
  {
   "property": "C177",
   "status": "partial",
   "theorems": [
    "Nidn.C177_built",
    "Nidn.C177_far_false",
    "Nidn.C177_objects_partial",
    "Nidn.C177_order",
    "Nidn.C177_overlap"
   ],
   "note": "C177_order: any permutation, from any state that is the same on both ends of the periodic axes; C177_built: new grids with layers as the library builds them; C177_overlap: why plane sources must be apart; C177_objects_partial: two objects; missing there are objects at the far end of the grid, for which the order does matter (C177_far_false, the border rule of C54)."
  },
  {
   "property": "C178",
   "status": "proved",
   "theorems": [
    "Nidn.C178_coefficients",
    "Nidn.C178_fields",
    "Nidn.C178_jump_false",
    "Nidn.C178_point",
    "Nidn.C178_signals"
   ],
   "note": "C178_fields: any grid with any boundaries and sources; C178_signals: the samples of both detectors of a NIDN simulation; C178_coefficients: the coefficients from smooth signals off ties (structure Untied lists the comparisons); C178_point: one wavelength of the driver end to end on a permittivity tensor with smooth entries; C178_jump_false: at a tie the transmittance jumps although all samples are analytic, so the exclusion of ties is needed. Existence of the derivative is proved; that torch computes it is the correctness of its autograd and not modelled."
  },
  {
   "property": "C179",
   "status": "proved",
   "theorems": [
    "Nidn.C179_everywhere",
    "Nidn.C179_order"
   ],
   "note": "For grids whose axes are periodic or one cell thick (structure SampledGrid says how a grid samples a problem; Spec/MaxwellTime.lean states Maxwell's equations and the Yee places independently). Media that jump, as at the faces of layers, are the subject of C182, sources that of C183 (there the solution is not smooth and the order is lower). Absorbing layers are outside the statement; that a simulation between them settles is C180."
  },
  {
   "property": "C180",
   "status": "proved",
   "theorems": [
    "Nidn.C180_driver",
    "Nidn.C180_films",
    "Nidn.C180_forgets",
    "Nidn.C180_rows",
    "Nidn.C180_settles"
   ],
   "note": "Differences of two runs, because the PML adds 10^-16 to its memory in every step (C139_false): the fields of a single run drift, so the hypothesis of C124_driver that they oscillate about a static field is not met by long runs, whereas the difference to the run without source always settles. The component along the row keeps static offsets and is excluded. In a grid that is periodic across, only the sums across are covered: modes that vary across may be trapped. The rate is not given explicitly. Whether a wave comes from behind the stack depends on the reflection of the absorbing layer and is left as a hypothesis."
  },
  {
   "property": "C181",
   "status": "partial",
   "theorems": [
    "Nidn.C181_cells_false",
    "Nidn.C181_copies",
    "Nidn.C181_history",
    "Nidn.C181_places_false",
    "Nidn.C181_places_partial",
    "Nidn.C181_size",
    "Nidn.C181_time"
   ],
   "note": "Everything holds except the places: a place in the last half cell of any grid is given the index one past the end (C181_places_false). The docstrings of x, y and z promise numbers of cells and are wrong (C181_cells_false). Real arithmetic: with floats, a run for exactly time_passed seconds may be one step short."
  },
  {
   "property": "C182",
   "status": "proved",
   "theorems": [
    "Nidn.C182_layers"
   ],
   "note": "Extends C179 to media that jump (structure LayeredFields in Spec/MaxwellLayers.lean states the equations between the faces and the conditions on them); the case of C183 without currents. The materials of a cell are those at its Yee places, so faces may lie anywhere. The example is a standing wave in layers of refractive indices 1 and 2. Sources are the subject of C183; absorbing layers are outside the statement."
  },
  {
   "property": "C183",
   "status": "proved",
   "theorems": [
    "Nidn.C183_driven"
   ],
   "note": "Structure DrivenFields in Spec/MaxwellSheets.lean states the equations between the faces and the jump conditions on them; DrivenGrid says how a grid samples such a problem. A soft source that adds v to a cell in a step stands for the surface current -v / (courant number x inverse permittivity), independently of the cell size. C182 is the case without currents. The example is a sine source in one plane of a periodic box. Absorbing layers are outside the statement."
  },
  {
   "property": "C184",
   "status": "partial",
   "theorems": [
    "Nidn.C184_model",
    "Nidn.C184_repeated_false",
    "Nidn.C184_silent",
    "Nidn.C184_value_false",
    "Nidn.C184_value_partial",
    "Nidn.C184_warned"
   ],
   "note": "Proved for which layers are warned about (if each layer has its own thickness) and for silence; the named thickness is right for the first layer and within one cell for the others. False of the code for the named thickness of later layers (_check_grid_scale does not move the start of a layer behind the layers before it) and for layers that share one thickness (only the first is warned about). Arithmetic is exact, as elsewhere in the config model."
  },
  {
   "property": "C185",
   "status": "proved",
   "theorems": [
    "Nidn.C185_best",
    "Nidn.C185_coefficients",
    "Nidn.C185_complete",
    "Nidn.C185_multiplies",
    "Nidn.C185_recovers"
   ],
   "note": "The meaning of the matrix C15 describes entry by entry. The multiplication needs no condition on the orders beyond the success of both functions. torch.fft.fft2 is part of the trusted base."
  },
  {
   "property": "C186",
   "status": "proved",
   "theorems": [
    "Nidn.C186_close",
    "Nidn.C186_limit",
    "Nidn.C186_matrix"
   ],
   "note": "Spec: pixelImage and imageCoeff, an integral over the unit square. Pixel m covers the interval from m/Nx to (m+1)/Nx. repeatXY is the model of the two repeat_interleave calls (C33). Without oversampling the solver works with the coefficients of point samples, which are off by up to the stated error for r = 1."
  },
  {
   "property": "C188",
   "status": "partial",
   "theorems": [
    "Nidn.C188_impedance_false",
    "Nidn.C188_reason",
    "Nidn.C188_start_partial"
   ],
   "note": "False of the code (C188_impedance_false): the padding mode \"edge\" is not one of torch's, so the routine never reaches the spectra. C188_start_partial: it returns exactly before the first step. C188_reason: well-formed records meet the NotImplementedError of the padding (if reshape accepts the step count)."
  },
  {
   "property": "C190",
   "status": "proved",
   "theorems": [
    "Nidn.C190_monotone",
    "Nidn.C190_more_orders"
   ],
   "note": "About the convolution matrix and the inverse that Epsilon_fft returns for isotropic patterns; nothing is claimed about the filtered second matrix (C15_filter_false) nor about the convergence of reflectances. The example has the inverse permittivity of the zeroth order climb from 1/2 to 2/3."
  },
  {
   "property": "C189",
   "status": "proved",
   "theorems": [
    "Nidn.C189_anisotropic",
    "Nidn.C189_between",
    "Nidn.C189_bounds",
    "Nidn.C189_complete",
    "Nidn.C189_passive"
   ],
   "note": "About the first matrix Epsilon_fft returns (the inverse permittivity for the field across the layers) of an isotropic pattern; the second one is filtered (C15_filter_false). C189_between and C189_bounds are for lossless positive patterns. The example shows that both inequalities matter: 2, 1/2 and 2/3 for a grating of 1 and 3 with one order."
  },
  {
   "property": "C191",
   "status": "proved",
   "theorems": [
    "Nidn.C191_constant",
    "Nidn.C191_one_order",
    "Nidn.C191_unseen"
   ],
   "note": "Hypotheses: the grid resolves the orders; the mean permittivity is above the threshold of the filter of Epsilon_fft (real or imaginary part at least 1e-14; otherwise the filter replaces it by zero, C15_filter_false); the layers of the averaged structure are regular (no grazing order). The example has stripes of 1 and 3 that the orders 0 and 1 see as a layer of 2."
  },
  {
   "property": "C192",
   "status": "partial",
   "theorems": [
    "Nidn.C192_close",
    "Nidn.C192_filter_false",
    "Nidn.C192_inverse_bounded",
    "Nidn.C192_inverse_close"
   ],
   "note": "False of the second matrix (C192_filter_false): passive patterns arbitrarily close to each other, both answered, have entries that differ by more than 1/2, because the filter drops coefficients with small real and imaginary parts also when the real part is large and negative. The other three theorems hold in full."
  },
  {
   "property": "C187",
   "status": "proved",
   "theorems": [
    "Nidn.C187_complete",
    "Nidn.C187_eigenvalues",
    "Nidn.C187_lossless",
    "Nidn.C187_passive",
    "Nidn.C187_range"
   ],
   "note": "About the convolution matrix itself, which Epsilon_fft inverts; the second matrix it returns is filtered (C15_filter_false), and nothing is claimed for that one. The example attains both ends of the range."
  },
  {
   "property": "C194",
   "status": "partial",
   "theorems": [
    "Nidn.C194_foreign_false",
    "Nidn.C194_import",
    "Nidn.C194_last",
    "Nidn.C194_refused_false",
    "Nidn.C194_set_partial"
   ],
   "note": "False of refused names (C194_refused_false): all handlers are removed before loguru refuses the name, so nothing is shown from then on. False of the surrounding program (C194_foreign_false): importing nidn removes its handlers and adds one that only takes messages of the package. Levels, the name filter and the refusal of unknown names are loguru's documented behaviour, taken as contract; str.upper is a parameter."
  },
  {
   "property": "C195",
   "status": "partial",
   "theorems": [
    "Nidn.C195_coarse_false",
    "Nidn.C195_coefficients",
    "Nidn.C195_matrices",
    "Nidn.C195_solver"
   ],
   "note": "False of grids that only pass the index check of get_conv (C195_coarse_false): on three samples it accepts the orders -1, 0, 1, but negative and positive orders share entries of the transform, so 2 + cos(2 pi x) gets a link between the orders -1 and 1 that it does not have. The other three theorems hold in full, under the stated condition on the grid (FineFor)."
  },
  {
   "property": "C193",
   "status": "proved",
   "theorems": [
    "Nidn.C193_alias",
    "Nidn.C193_extinct",
    "Nidn.C193_factor",
    "Nidn.C193_kept",
    "Nidn.C193_mean",
    "Nidn.C193_smaller"
   ],
   "note": "Exact companion of the limit in C186: the factor is the mean of the wave over the samples of one cell (cellFactor). C193_extinct is about the matrix get_conv returns; the other theorems about the coefficients of the pattern."
  },
  {
   "property": "C196",
   "status": "proved",
   "theorems": [
    "Nidn.C196_exists",
    "Nidn.C196_hidden",
    "Nidn.C196_oversampled",
    "Nidn.C196_solver",
    "Nidn.C196_twins",
    "Nidn.C196_unique"
   ],
   "note": "C196_unique is the converse, so hidden waves are the exact condition. Says that the inverse problem the training solves has no unique solution for fine designs; the code does not claim uniqueness, so this is no disagreement."
  },
  {
   "property": "C197",
   "status": "partial",
   "theorems": [
    "Nidn.C197_dispatch",
    "Nidn.C197_unknown_false",
    "Nidn.C197_weights"
   ],
   "note": "Full for accepted configs (C197_dispatch) and, as to the weights, for all configs (C197_weights). False of configs with another type or none (C197_unknown_false). The two conversions are parameters here; their values and shapes are the subject of other properties."
  }
 ]
}
