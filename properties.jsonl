{"id": "C01", "title": "Unit conversions are mutually inverse", "statement": "Converting frequency to wavelength and back, physical wavelength to unit wavelength and back, and physical frequency to physical wavelength and back each returns the value the user started with; a zero argument to a reciprocal conversion is an error and never a number.", "quantifier": "for every non-zero value (round trips) and for zero (error)", "why_tests_cant": "A test can only sample finitely many values; the inverse law is about every non-zero number.", "anchors": ["nidn/utils/convert_units.py:freq_to_wl", "nidn/utils/convert_units.py:phys_wl_to_wl", "nidn/utils/convert_units.py:wl_to_phys_wl", "nidn/utils/convert_units.py:phys_freq_to_phys_wl"]}
{"id": "C02", "title": "Target frequencies sample exactly the requested wavelength band", "statement": "compute_target_frequencies returns exactly N_freq values in ascending order, every one inside [1/max_wavelength, 1/min_wavelength] (in 1/um), with both ends of the band attained when N_freq >= 2, equally spaced for 'linear' and with a constant ratio for 'log'; any other distribution name is a ValueError.", "quantifier": "for every 0 < min_wl <= max_wl, every N_freq and every distribution string", "why_tests_cant": "The band, the number of points and the distribution are unbounded inputs; endpoint and spacing behaviour at every N cannot be sampled exhaustively.", "anchors": ["nidn/trcwa/compute_target_frequencies.py:compute_target_frequencies"]}
{"id": "C03", "title": "Frequency points and physical wavelengths correspond entry by entry", "statement": "get_frequency_points returns a wavelength list and a frequency list of equal length N_freq in which entry i of one is the conversion of entry i of the other, wavelengths are descending and inside the user's physical range, and the same frequencies are left in the config so calling it twice changes nothing.", "quantifier": "for every config with 0 < min_wl <= max_wl", "why_tests_cant": "Entry-wise alignment must hold for each N_freq and every band; a test compares a few arrays.", "anchors": ["nidn/trcwa/get_frequency_points.py:get_frequency_points", "nidn/fdtd_integration/compute_spectrum_fdtd.py:compute_spectrum_fdtd"]}
{"id": "C04", "title": "Target spectra are compared from low to high wavelength", "statement": "As the default config states, entry 0 of target_reflectance_spectrum / target_transmittance_spectrum is the value wanted at the smallest wavelength and later entries belong to larger wavelengths.", "quantifier": "for every accepted config with at least two frequency points", "why_tests_cant": "The shipped tests use tolerant loss bounds on one tiny config, so a reversed pairing is invisible to them; the claim is about every band and N_freq.", "anchors": ["nidn/utils/resources/default_config.toml:target_reflectance_spectrum", "nidn/trcwa/compute_target_frequencies.py:compute_target_frequencies", "nidn/training/losses/spectrum_loss.py:_spectrum_loss_fn"]}
{"id": "C05", "title": "An accepted config has every required key and no unknown key", "statement": "If validation of a config succeeds then every required key is present and every present key is a required or documented runtime key; otherwise a KeyError is raised before anything else is inspected.", "quantifier": "for every finite key/value map", "why_tests_cant": "The space of key sets is infinite; a test tries a handful of missing or misspelt keys.", "anchors": ["nidn/utils/validate_config.py:_check_for_keys"]}
{"id": "C06", "title": "An accepted config is well-typed", "statement": "If validation succeeds then every integer, float, boolean, string and list setting really has that type; in particular a boolean is not taken for an integer and every numeric setting used later is numeric.", "quantifier": "for every key/value map that passes validation", "why_tests_cant": "Needs every combination of value types over some forty keys.", "anchors": ["nidn/utils/validate_config.py:_check_entry_types"]}
{"id": "C07", "title": "An accepted config has its scalar ranges in order", "statement": "If validation succeeds then epsilon ranges and the wavelength range are ordered, all listed sizes and weights are strictly positive, Nx and Ny are multiples of the oversampling factor, PER_LAYER_THICKNESS has length 1 or N_layers, and type / frequency distribution / FDTD source type / FDTD pulse type have one of their documented values; the default config is accepted.", "quantifier": "for every config that passes validation", "why_tests_cant": "Universal over all accepted configs; tests only validate the default one.", "anchors": ["nidn/utils/validate_config.py:_check_value_ranges", "nidn/utils/resources/default_config.toml"]}
{"id": "C08", "title": "An accepted config has no negative thickness, lattice or target entry", "statement": "If validation succeeds then every entry of PER_LAYER_THICKNESS, TRCWA_L_grid and FDTD_source_position is positive and every entry of the two target spectra is non-negative.", "quantifier": "for every config that passes validation and every list entry", "why_tests_cant": "A test would have to guess the one entry value that slips through; the claim ranges over all lists of all lengths.", "anchors": ["nidn/utils/validate_config.py:_check_value_ranges"]}
{"id": "C09", "title": "An accepted config names a solver and a model the package implements", "statement": "If validation succeeds then compute_spectrum actually runs one of the two solvers and init_network can build the requested model.", "quantifier": "for every config that passes validation", "why_tests_cant": "Strings are an infinite domain and the existing tests only use valid names.", "anchors": ["nidn/utils/validate_config.py:_validate_config", "nidn/utils/compute_spectrum.py:compute_spectrum", "nidn/training/model/init_network.py:init_network"]}
{"id": "C10", "title": "Validation fails only with its documented exception classes", "statement": "For every config that has all keys with the right container types, validation either succeeds or raises KeyError, TypeError or RuntimeError - never ValueError (which training swallows), and never an arithmetic or index error.", "quantifier": "for every well-typed config", "why_tests_cant": "Requires exploring degenerate values such as a zero wavelength or a short list among infinitely many configs.", "anchors": ["nidn/utils/validate_config.py:_check_value_ranges", "nidn/training/run_training.py:run_training"]}
{"id": "C11", "title": "Layer bookkeeping is consistent for every order of layer additions", "statement": "After any sequence of Add_LayerUniform / Add_LayerGrid / Add_LayerFourier calls the layer count, the per-kind counts and the id table agree, and looking a layer up through its ids yields exactly the thickness and material parameters passed when it was added.", "quantifier": "for every finite sequence of layer additions", "why_tests_cant": "Sequences are unbounded and mix three kinds of layers; NIDN's tests only ever build one stack shape.", "anchors": ["nidn/trcwa/trcwa.py:TRCWA.Add_LayerUniform", "nidn/trcwa/trcwa.py:TRCWA.Add_LayerGrid", "nidn/trcwa/trcwa.py:TRCWA.Add_LayerFourier"]}
{"id": "C12", "title": "The RCWA stack is the user's stack between two half-spaces", "statement": "For a shape-consistent epsilon grid the RCWA object has N_layers+2 layers: a top layer with TRCWA_TOP_LAYER_EPS, then layer i with the configured thickness (the common one if a single thickness was given) and the epsilon of that layer, then the bottom layer; patterned layers receive exactly their own Nx x Ny epsilon pattern.", "quantifier": "for every Nx, Ny, N_layers >= 1, every epsilon grid and both forms of PER_LAYER_THICKNESS", "why_tests_cant": "Which slice of the grid reaches which layer depends on all sizes (including 1 and 3); tests use 1x1 grids.", "anchors": ["nidn/trcwa/init_trcwa.py:_init_trcwa", "nidn/trcwa/trcwa.py:TRCWA.GridLayer_geteps"]}
{"id": "C13", "title": "Reciprocal lattice vectors are dual to the lattice", "statement": "For a non-degenerate pair of lattice vectors the returned reciprocal vectors satisfy Lk_i . L_j = 1 if i = j else 0, so reciprocating twice returns the original lattice; a degenerate pair is an error.", "quantifier": "for every pair of real lattice vectors", "why_tests_cant": "A two-parameter-family identity over the reals.", "anchors": ["nidn/trcwa/utils/kbloch.py:Lattice_Reciprocate"]}
{"id": "C14", "title": "Circular truncation keeps whole shells around the origin", "statement": "The circular truncation returns distinct integer orders in non-decreasing order of |G|, at most the requested number, starting with (0,0), and never splits a group of orders of equal length; hence the set is symmetric under G -> -G.", "quantifier": "for every truncation order and every non-degenerate reciprocal lattice, and every tie-breaking of the sort", "why_tests_cant": "Ties depend on lattice symmetry and the sort is unstable; only a proof covers every lattice, order and tie-break.", "anchors": ["nidn/trcwa/utils/kbloch.py:Gsel_circular"]}
{"id": "C15", "title": "The permittivity convolution matrix is faithful to the pattern", "statement": "The matrix handed to the eigen-solver for a patterned layer has entries depending only on the difference of orders (the Fourier coefficient of the pattern at G_i - G_j), is Hermitian for a real pattern, is eps times the identity for a uniform pattern, and only negligibly small entries are replaced by zero.", "quantifier": "for every pattern, grid size and order set", "why_tests_cant": "Holds for all grids and all complex values; signs and aliasing cases cannot be sampled.", "anchors": ["nidn/trcwa/utils/fft_funs.py:get_conv", "nidn/trcwa/utils/fft_funs.py:Epsilon_fft"]}
{"id": "C16", "title": "The scattering matrix solves the layer-matching equations", "statement": "Whenever the required inverses exist, the amplitudes obtained from the scattering matrix of a stack satisfy continuity of the tangential fields at every interface together with propagation through every layer, for every pair of incoming amplitudes; and it is the identity for a single layer and an error when the start layer lies behind the end layer.", "quantifier": "for every number of layers, mode count, layer matrices and incoming amplitudes", "why_tests_cant": "Unbounded recursion over layers of arbitrary complex matrices.", "anchors": ["nidn/trcwa/trcwa.py:GetSMatrix", "nidn/trcwa/trcwa.py:SolveExterior"]}
{"id": "C17", "title": "Scattering matrices compose", "statement": "The scattering matrix of a stack cut at any interior layer is the (Redheffer) star product of the two parts, and the interior amplitudes reconstructed from the two parts are consistent with the exterior solution.", "quantifier": "for every stack and every interior layer", "why_tests_cant": "Associativity-type law over arbitrary stacks and matrices.", "anchors": ["nidn/trcwa/trcwa.py:GetSMatrix", "nidn/trcwa/trcwa.py:SolveInterior"]}
{"id": "C18", "title": "Splitting a layer does not change the optics", "statement": "Replacing a layer by two consecutive layers of the same material whose thicknesses add up to the original, or inserting a layer of zero thickness, leaves reflectance and transmittance unchanged.", "quantifier": "for every stack, layer and non-negative split", "why_tests_cant": "A metamorphic law over all stacks; tests compare isolated numbers.", "anchors": ["nidn/trcwa/trcwa.py:GetSMatrix", "nidn/trcwa/init_trcwa.py:_init_trcwa"]}
{"id": "C19", "title": "Lossless stacks conserve energy", "statement": "For any stack of lossless layers (uniform or patterned) at a real frequency, reflectance plus transmittance equals one for a normalised plane wave.", "quantifier": "for every number of layers, thickness and real permittivity for which the solver's matrices are invertible", "why_tests_cant": "Universal physical identity; numeric tests sample a few structures with tolerances.", "anchors": ["nidn/trcwa/trcwa.py:TRCWA.RT_Solve", "nidn/trcwa/trcwa.py:GetZPoyntingFlux"]}
{"id": "C20", "title": "Passive stacks never amplify", "statement": "For any stack whose layers have Im(eps) >= 0 between lossless half-spaces, reflectance and transmittance are non-negative and sum to at most one, so absorption lies in [0,1].", "quantifier": "for every passive stack", "why_tests_cant": "Inequality over all stacks.", "anchors": ["nidn/trcwa/trcwa.py:TRCWA.RT_Solve", "nidn/plots/plot_spectrum.py:plot_spectrum"]}
{"id": "C21", "title": "A single interface reproduces Fresnel's formulas", "statement": "For a stack consisting of the two half-spaces with indices n1 and n2 at normal incidence R = ((n1-n2)/(n1+n2))^2 and T = 4 n1 n2/(n1+n2)^2; an all-vacuum stack of any number of layers gives R = 0 and T = 1.", "quantifier": "for every pair of positive indices, and every number and thickness of vacuum layers", "why_tests_cant": "Closed forms for a continuum of inputs.", "anchors": ["nidn/trcwa/trcwa.py:GetSMatrix", "nidn/trcwa/trcwa.py:TRCWA.RT_Solve", "nidn/trcwa/init_trcwa.py:_init_trcwa"]}
{"id": "C22", "title": "Evanescent and absorbing modes decay, never grow", "statement": "In every uniform and patterned layer the square-root branch has non-negative imaginary part, so all propagation factors used by the solver have modulus at most one for non-negative thickness, whatever the permittivity and transverse wave vector.", "quantifier": "for every complex permittivity, frequency, wave vector and thickness >= 0", "why_tests_cant": "Branch-cut behaviour over the whole complex plane.", "anchors": ["nidn/trcwa/trcwa.py:SolveLayerEigensystem_uniform", "nidn/trcwa/trcwa.py:SolveLayerEigensystem", "nidn/trcwa/trcwa.py:GetSMatrix"]}
{"id": "C23", "title": "Power flux splits consistently into forward, backward and orders", "statement": "The forward and backward fluxes add up to the total Poynting flux of the combined field, the by-order fluxes sum to the total, and with no backward wave the backward flux is zero.", "quantifier": "for all amplitude vectors and layer matrices", "why_tests_cant": "Bilinear identity over arbitrary complex vectors.", "anchors": ["nidn/trcwa/trcwa.py:GetZPoyntingFlux"]}
{"id": "C24", "title": "RCWA spectra are frequency-local", "statement": "compute_spectrum with the RCWA solver returns two lists of length N_freq whose i-th entries depend only on the i-th frequency and the i-th frequency slice of the epsilon grid; a NaN anywhere in the grid is a ValueError and a shape or frequency-count mismatch an AssertionError, so no partial spectrum is ever returned.", "quantifier": "for every epsilon grid, frequency list and config", "why_tests_cant": "Relational property between pairs of runs over all grids.", "anchors": ["nidn/trcwa/compute_spectrum_trcwa.py:compute_spectrum_trcwa", "nidn/utils/compute_spectrum.py:compute_spectrum"]}
{"id": "C25", "title": "Material permittivity is the square of the tabulated refractive index", "statement": "For each requested frequency the loaded permittivity equals (n+ik)^2 of a table row whose wavelength is at minimal distance from 1/f (the first such row), hence it has non-negative imaginary part whenever n,k >= 0.", "quantifier": "for every non-empty table and every list of non-zero frequencies", "why_tests_cant": "Tie-breaking and nearest-neighbour choice over arbitrary tables.", "anchors": ["nidn/materials/material_collection.py:MaterialCollection._load_material_data", "nidn/trcwa/load_material_data.py:_load_material_data"]}
{"id": "C26", "title": "Material lookup by name is exact", "statement": "A MaterialCollection returns for a loaded name exactly the permittivities computed from that name's file, raises KeyError for every other name, contains precisely the files not listed in to_skip, and is built only for a non-empty frequency list.", "quantifier": "for every folder content, skip list and lookup key", "why_tests_cant": "Alignment of names and matrix rows for every subset of skipped files, including size-one edge cases.", "anchors": ["nidn/materials/material_collection.py:MaterialCollection.__getitem__", "nidn/materials/material_collection.py:MaterialCollection._load_materials_folder"]}
{"id": "C27", "title": "The reported closest material is a true minimiser", "statement": "For every grid cell the reported index is a valid material index, its reported distance is the mean absolute permittivity difference over frequency and no material is closer; the distance is zero exactly when the cell equals that material at every frequency.", "quantifier": "for every epsilon grid and every non-empty material set", "why_tests_cant": "argmin correctness for arbitrary data.", "anchors": ["nidn/materials/find_closest_material.py:_find_closest_material"]}
{"id": "C28", "title": "Layer builders paint exactly the described region", "statement": "A uniform layer has the material's permittivity in every cell; the square (circle) layer has the hole material exactly in the cells whose grid coordinates lie strictly inside the square of margin a (the circle), the grid material elsewhere; centred shapes are mirror symmetric; no cell is left unset.", "quantifier": "for every Nx, Ny, margin, radius and centre", "why_tests_cant": "All grid sizes and real parameters, including degenerate ones.", "anchors": ["nidn/materials/layer_builder.py:LayerBuilder.build_uniform_layer", "nidn/materials/layer_builder.py:LayerBuilder.build_squared_layer", "nidn/materials/layer_builder.py:LayerBuilder.build_circle_layer"]}
{"id": "C29", "title": "Regression permittivities respect the configured range", "statement": "Every permittivity produced by a regression model has real part in [real_min_eps, real_max_eps] and imaginary part in [imag_min_eps, imag_max_eps], with or without noise and zero-avoidance.", "quantifier": "for every model output, noise sample and ordered range", "why_tests_cant": "Network outputs and noise are unbounded continuous inputs.", "anchors": ["nidn/training/model/model_to_eps_grid.py:_regression_model_to_eps_grid"]}
{"id": "C30", "title": "A regression model can reach every permittivity in the configured range", "statement": "As the network's normalised output sweeps [0,1], the resulting real and imaginary parts sweep their whole configured intervals.", "quantifier": "for every ordered range and every target value in it", "why_tests_cant": "A surjectivity claim: tests cannot exhaust the interval.", "anchors": ["nidn/training/model/model_to_eps_grid.py:_regression_model_to_eps_grid"]}
{"id": "C31", "title": "Each frequency slice comes from the model's answer for that frequency", "statement": "In the regression path the real and imaginary part of the permittivity of a cell at frequency j are computed from the first and second output channel of the model evaluated at that cell and frequency j.", "quantifier": "for every grid size, N_freq, cell and frequency index", "why_tests_cant": "Depends on memory layout for all sizes; tests only check shapes.", "anchors": ["nidn/training/model/model_to_eps_grid.py:_eval_model", "nidn/training/model/model_to_eps_grid.py:_regression_model_to_eps_grid"]}
{"id": "C32", "title": "Zero-avoidance keeps permittivity away from zero and changes nothing else", "statement": "With avoid_zero_eps every real part ends up at least the cutoff away from zero, keeps its sign, values already outside the band and all imaginary parts are unchanged, and applying it twice equals applying it once; the guarantee holds for the grid model_to_eps_grid returns.", "quantifier": "for every permittivity grid and positive cutoff", "why_tests_cant": "All reals near zero, including signed boundary values.", "anchors": ["nidn/training/model/model_to_eps_grid.py:_avoid_zero_eps", "nidn/training/model/model_to_eps_grid.py:_regression_model_to_eps_grid"]}
{"id": "C33", "title": "Oversampling replicates blocks", "statement": "With eps_oversampling = s the returned grid has exactly Nx x Ny cells and is constant on aligned s x s blocks, block (i,j) carrying the model's value for coarse cell (i,j).", "quantifier": "for every Nx, Ny divisible by s", "why_tests_cant": "All sizes and factors.", "anchors": ["nidn/training/model/model_to_eps_grid.py:_regression_model_to_eps_grid", "nidn/training/model/model_to_eps_grid.py:_classification_model_to_eps_grid", "nidn/utils/validate_config.py:_check_value_ranges"]}
{"id": "C34", "title": "Classification yields a probability mixture of real materials", "statement": "For classification the returned material weights of each cell are positive and sum to one, they are the same for all frequencies, rank materials exactly as the model's mean scores do, are unchanged by adding a constant to all scores, and (without zero-avoidance) the permittivity is the corresponding convex combination so it stays within the span of the materials' values.", "quantifier": "for every model output and material table", "why_tests_cant": "Continuous inputs and arbitrary numbers of materials.", "anchors": ["nidn/training/model/model_to_eps_grid.py:_classification_model_to_eps_grid"]}
{"id": "C35", "title": "Sampling coordinates cover the cube and respect layer thickness", "statement": "The x, y and z sample positions are increasing, start at -1 and end at 1 (for at least two points), and with per-layer thicknesses the gap between consecutive z positions is proportional to the thickness of the layer entered.", "quantifier": "for every grid size and every list of positive thicknesses", "why_tests_cant": "All sizes and thickness vectors.", "anchors": ["nidn/training/model/model_to_eps_grid.py:_get_transformed_grid"]}
{"id": "C36", "title": "The spectrum loss is a faithful distance", "statement": "The spectrum loss is non-negative, is zero exactly when the produced spectra equal the targets (for physical spectra), is symmetric in exchanging R and T roles, and the renormalisation flag is raised exactly when some frequency has R+T > 1.", "quantifier": "for all spectra of equal length, every exponent L > 0, with and without absorption", "why_tests_cant": "Lists of unbounded length of reals.", "anchors": ["nidn/training/losses/spectrum_loss.py:_spectrum_loss_fn"]}
{"id": "C37", "title": "Renormalised points are physical", "statement": "Whenever a frequency point is renormalised because R+T > 1, the values entering the loss keep the ratio R:T and sum to one.", "quantifier": "for all non-negative R, T with R+T > 1", "why_tests_cant": "Universal over reals; a loss value alone hides the intermediate quantities.", "anchors": ["nidn/training/losses/spectrum_loss.py:_spectrum_loss_fn"]}
{"id": "C38", "title": "The likelihood regulariser measures indecision", "statement": "For weights in [0,1] the regularisation loss lies in [0, (1/2)^L], is zero exactly when every weight is 0 or 1, and is invariant under replacing every p by 1-p (min form); the max form is zero exactly when every cell has a weight equal to one.", "quantifier": "for all weight tensors and every exponent L > 0", "why_tests_cant": "Continuous inputs.", "anchors": ["nidn/training/losses/likelihood_regularization_loss.py:_likelihood_regularization_loss_fn"]}
{"id": "C39", "title": "Training logs account for every successful iteration", "statement": "After training, loss, averaged-loss and L1 logs have the same length, namely the number of iterations in which the solver did not raise ValueError; each averaged entry is the mean of the last at most 20 logged losses; failed iterations leave no trace in the logs.", "quantifier": "for every number of iterations and every pattern of solver failures", "why_tests_cant": "All interleavings of successes and failures.", "anchors": ["nidn/training/run_training.py:run_training"]}
{"id": "C40", "title": "Training returns the best model seen", "statement": "The model returned at the end (and restored after a solver failure) is the one that produced the lowest loss among the iterations whose spectrum was physical (not renormalised).", "quantifier": "for every sequence of losses, renormalisation flags and failures", "why_tests_cant": "Temporal property over all execution traces.", "anchors": ["nidn/training/run_training.py:run_training"]}
{"id": "C41", "title": "Each solver failure halves the learning rate and nothing else", "statement": "In every run the learning rate after k solver failures (absent scheduler reductions) is the initial one times 2^-k, it always stays positive, the weights after a failure equal the stored best weights, and training still terminates after exactly the configured number of iterations.", "quantifier": "for every pattern of failures", "why_tests_cant": "All traces.", "anchors": ["nidn/training/run_training.py:run_training"]}
{"id": "C42", "title": "Networks built from a config are well-formed for every depth", "statement": "init_network followed by evaluation maps a batch of encoding_dim-vectors to a batch of out_features-vectors for every hidden_layers and n_neurons, with every output strictly between 0 and 1 for siren and nerf; an unknown model type is NotImplementedError.", "quantifier": "for every accepted depth, width and output size", "why_tests_cant": "Unbounded depth; shape errors occur only at particular depths.", "anchors": ["nidn/training/utils/nerf.py:NERF", "nidn/training/utils/siren.py:Siren", "nidn/training/model/init_network.py:init_network"]}
{"id": "C43", "title": "The FDTD time step satisfies the stability limit", "statement": "Every constructed Grid has a positive Courant number not above 1/sqrt(D) (strictly below by default), a larger requested value is a ValueError, and the time step equals courant * spacing / c.", "quantifier": "for every shape and requested Courant number", "why_tests_cant": "All shapes and reals.", "anchors": ["nidn/fdtd/grid.py:Grid.__init__"]}
{"id": "C44", "title": "Distances and times are rounded to the nearest grid unit", "statement": "An integer distance or time is used as is; any other non-negative distance/time becomes the nearest whole number of cells/steps (error at most one half), consistently for indices, slices, tuples and run lengths.", "quantifier": "for every non-negative value and positive spacing", "why_tests_cant": "Continuum of values.", "anchors": ["nidn/fdtd/grid.py:Grid._handle_distance", "nidn/fdtd/grid.py:Grid._handle_time", "nidn/fdtd/grid.py:Grid._handle_single_key", "nidn/fdtd/grid.py:Grid.run"]}
{"id": "C45", "title": "Discrete curls are divergence free, so Gauss's laws are preserved", "statement": "On every interior cell the discrete divergence of either discrete curl vanishes; hence in source-free regions without conductivity a run never changes the divergence of the magnetic field (and of eps*E) there.", "quantifier": "for all grid shapes, fields and numbers of steps", "why_tests_cant": "Identity over arbitrary fields and histories.", "anchors": ["nidn/fdtd/grid.py:curl_E", "nidn/fdtd/grid.py:curl_H", "nidn/fdtd/grid.py:Grid.step"]}
{"id": "C46", "title": "The two discrete curls are adjoint up to the grid boundary", "statement": "For all fields the sum over the grid of H . curl_E(E) equals the sum of E . curl_H(H) plus terms involving only boundary cells.", "quantifier": "for all grid shapes and fields", "why_tests_cant": "Identity over arbitrary fields.", "anchors": ["nidn/fdtd/grid.py:curl_E", "nidn/fdtd/grid.py:curl_H"]}
{"id": "C47", "title": "Source-free propagation conserves energy and stays bounded", "statement": "For a plane-wave (one-dimensional) configuration without sources, PML or conductivity the leap-frog energy is exactly the same after every number of steps, and with a Courant number accepted by the Grid all fields stay bounded by a constant multiple of the initial ones forever; with non-negative conductivity the energy never increases.", "quantifier": "for every initial field, permittivity profile >= 1, number of cells and number of steps", "why_tests_cant": "Stability over unbounded time.", "anchors": ["nidn/fdtd/grid.py:Grid.update_E", "nidn/fdtd/grid.py:Grid.update_H", "nidn/fdtd/objects.py:AbsorbingObject"]}
{"id": "C48", "title": "Periodic boundaries make the grid a torus", "statement": "With a periodic boundary on an axis, after every step the first and last electric (magnetic) planes coincide and all updates equal those of a grid that wraps around with period N-1 on that axis.", "quantifier": "for all fields, shapes and numbers of steps", "why_tests_cant": "Invariant over all runs.", "anchors": ["nidn/fdtd/boundaries.py:_PeriodicBoundaryX", "nidn/fdtd/boundaries.py:_PeriodicBoundaryY", "nidn/fdtd/boundaries.py:_PeriodicBoundaryZ"]}
{"id": "C49", "title": "Absorbing layers have a monotone, mirror-symmetric, dissipative profile", "statement": "For every thickness t the PML conductivity along its axis is positive and strictly increases towards the outer edge (on the t electric planes and the t-1 magnetic planes between them), the low and high side profiles mirror each other, the recursion coefficients satisfy 0 < b < 1 and -1 < c <= 0, and the layer's memory never exceeds the field differences driving it.", "quantifier": "for every thickness, Courant number and stability parameter > 0", "why_tests_cant": "All thicknesses and reals.", "anchors": ["nidn/fdtd/boundaries.py:PML._sigma", "nidn/fdtd/boundaries.py:PML._calculate_parameters", "nidn/fdtd/boundaries.py:_PMLXlow", "nidn/fdtd/boundaries.py:_PMLXhigh"]}
{"id": "C50", "title": "Each side of the grid gets at most one boundary of the right kind", "statement": "Placing boundaries in any order either raises an error or leaves each side claimed by at most one boundary, and the class chosen for a slice is the side the slice touches.", "quantifier": "for every sequence of placements", "why_tests_cant": "Sequences and slices are unbounded.", "anchors": ["nidn/fdtd/boundaries.py:PML._register_grid", "nidn/fdtd/boundaries.py:PeriodicBoundary._register_grid"]}
{"id": "C51", "title": "An empty grid stays dark", "statement": "With all fields zero and no source, any number of steps leaves every field and every detector reading zero, whatever boundaries and objects are present.", "quantifier": "for every grid, objects, boundaries and number of steps", "why_tests_cant": "All configurations and step counts; the violation is far below test tolerances.", "anchors": ["nidn/fdtd/grid.py:Grid.step", "nidn/fdtd/boundaries.py:PML.update_E"]}
{"id": "C52", "title": "FDTD is linear in its sources", "statement": "Fields and detector signals produced by the sum of two source drives are the sums of the individual ones, and scaling the drive scales all signals, for any objects and boundaries.", "quantifier": "for all drives, grids and numbers of steps", "why_tests_cant": "Superposition over all pairs of runs.", "anchors": ["nidn/fdtd/grid.py:Grid.update_E", "nidn/fdtd/grid.py:Grid.update_H", "nidn/fdtd/boundaries.py:PML.update_phi_E"]}
{"id": "C53", "title": "Signals travel at most one cell per step", "statement": "A source cannot influence a cell at distance d in fewer than d steps; in particular a detector placed further from the source than FDTD_niter cells records exactly zero and the coefficient computation reports the documented ValueError instead of numbers.", "quantifier": "for all grids, materials, sources and step counts", "why_tests_cant": "Domain of dependence over all configurations.", "anchors": ["nidn/fdtd/grid.py:Grid.step", "nidn/fdtd_integration/calculate_transmission_reflection_coefficients.py:_check_for_all_zero_signal"]}
{"id": "C54", "title": "Objects set material only inside themselves, latest wins, vacuum is neutral", "statement": "Placing objects changes inverse permittivity and absorption only in the addressed cells, a later object overrides an earlier one, negative indices address from the end, and placing an object of relative permittivity one and conductivity zero into an empty grid changes no update at all.", "quantifier": "for every sequence of object placements and slices", "why_tests_cant": "Sequences of overlapping slices.", "anchors": ["nidn/fdtd/objects.py:Object._register_grid", "nidn/fdtd/objects.py:Object._handle_slice", "nidn/fdtd/objects.py:AbsorbingObject._register_grid"]}
{"id": "C55", "title": "Resetting a grid reproduces the run", "statement": "After reset, running the same number of steps yields the same fields and the same newly recorded detector signals as the first run.", "quantifier": "for every grid and number of steps before and after the reset", "why_tests_cant": "Equality of unbounded histories.", "anchors": ["nidn/fdtd/grid.py:Grid.reset"]}
{"id": "C56", "title": "Detectors record one sample per step at the requested cells", "statement": "After running n steps a line detector holds exactly n electric and n magnetic samples, sample k being the field at its cells right after the k-th electric (magnetic) update including sources; the cells of a detector placed on a line across the grid are exactly that line.", "quantifier": "for every n, grid and placement", "why_tests_cant": "All run lengths and placements.", "anchors": ["nidn/fdtd/detectors.py:LineDetector", "nidn/fdtd/backend.py:TorchBackend.linspace", "nidn/fdtd/grid.py:Grid.update_E"]}
{"id": "C57", "title": "Line sources inject the configured total amplitude", "statement": "A line source's profile is positive, symmetric about its centre cell, sums to the configured amplitude, and only the z-component of the electric field in its cells is changed each step; pulsed sources inject nothing after their stated duration and every documented signal type works for every source type.", "quantifier": "for every source length, amplitude, signal type and time step", "why_tests_cant": "All lengths and time steps.", "anchors": ["nidn/fdtd/sources.py:LineSource", "nidn/fdtd/sources.py:PointSource", "nidn/fdtd/sources.py:_ricker", "nidn/fdtd/waveforms.py:hanning"]}
{"id": "C58", "title": "Line and block index lists stay inside the grid", "statement": "Detectors and sources addressed by slices (including full slices) only ever index existing cells, one index triple per point.", "quantifier": "for every slice and grid shape", "why_tests_cant": "All slices and shapes.", "anchors": ["nidn/fdtd/detectors.py:BlockDetector._handle_slices", "nidn/fdtd/detectors.py:LineDetector._handle_slices", "nidn/fdtd/sources.py:LineSource._handle_slices"]}
{"id": "C59", "title": "The FDTD geometry is a contiguous stack with detectors on either side", "statement": "For every accepted config the layers occupy consecutive, non-overlapping cell ranges in order, starting right after the front free space, each within one cell of its nominal thickness; the reflection detector lies between the PML and the first layer and the transmission detector between the last layer and the rear PML, all inside the grid.", "quantifier": "for every accepted config", "why_tests_cant": "Rounding of arbitrary real thicknesses.", "anchors": ["nidn/fdtd_integration/init_fdtd.py:init_fdtd", "nidn/utils/validate_config.py:_check_value_ranges", "nidn/utils/validate_config.py:_check_grid_scale"]}
{"id": "C60", "title": "The grid resolves the shortest wavelength", "statement": "The chosen scaling always gives at least ten cells per shortest wavelength and at least FDTD_min_gridpoints_per_unit_magnitude cells per micrometre, and is the smallest such value.", "quantifier": "for every positive wavelength range and minimum", "why_tests_cant": "Continuum of inputs.", "anchors": ["nidn/fdtd_integration/compute_fdtd_grid_scaling.py:_compute_fdtd_grid_scaling"]}
{"id": "C61", "title": "Computing a spectrum leaves the user's configuration meaning unchanged", "statement": "compute_spectrum does not change any user-set entry of the config, so the same config can be re-used, re-validated and run again with the same result.", "quantifier": "for every accepted config and both solvers", "why_tests_cant": "Aliasing/mutation over all configs.", "anchors": ["nidn/fdtd_integration/compute_spectrum_fdtd.py:compute_spectrum_fdtd", "nidn/utils/compute_spectrum.py:compute_spectrum"]}
{"id": "C62", "title": "Returned FDTD coefficients are normalised when they exceed one", "statement": "If the computed T and R sum to more than one the returned pair sums to one and keeps the ratio T:R; otherwise it is returned unchanged.", "quantifier": "for all non-negative T, R", "why_tests_cant": "Threshold behaviour at every real value.", "anchors": ["nidn/fdtd_integration/calculate_transmission_reflection_coefficients.py:_check_and_normalize_coefficients"]}
{"id": "C63", "title": "Transient removal returns a non-trivial tail of the signal", "statement": "For every signal at least as long as two windows the result of transient removal is a suffix of the signal that still contains at least one full window; for shorter signals only leading zeros are removed; it never fails.", "quantifier": "for every signal, wavelength and threshold", "why_tests_cant": "All signals, including lengths exactly at the limit.", "anchors": ["nidn/fdtd_integration/calculate_transmission_reflection_coefficients.py:_eliminate_transient_part"]}
{"id": "C64", "title": "Peak finding returns exactly the strict interior maxima", "statement": "The peak finder returns, in increasing order and without duplicates, exactly the indices whose sample is strictly larger than both neighbours; first and last sample are never peaks.", "quantifier": "for every signal", "why_tests_cant": "All signals.", "anchors": ["nidn/fdtd_integration/calculate_transmission_reflection_coefficients.py:_torch_find_peaks"]}
{"id": "C65", "title": "Coefficients depend only on relative signal strength", "statement": "Multiplying all signals by the same non-zero constant leaves T and R unchanged (as long as thresholds are not crossed); multiplying only the material signal by k multiplies its coefficient by k^2; the coefficients are non-negative.", "quantifier": "for all signals and constants", "why_tests_cant": "Relational property over pairs of signals.", "anchors": ["nidn/fdtd_integration/calculate_transmission_reflection_coefficients.py:_peak_based_coefficient_computation", "nidn/fdtd_integration/calculate_transmission_reflection_coefficients.py:_mean_square"]}
{"id": "C66", "title": "A structure made of vacuum is invisible to the FDTD pipeline", "statement": "If the simulation with the object yields exactly the same signals as the free-space simulation then the reported reflection is zero and the reported transmission is one.", "quantifier": "for every signal accepted by the pipeline", "why_tests_cant": "All signals; the shipped test checks only a one-sided inequality on one sine.", "anchors": ["nidn/fdtd_integration/calculate_transmission_reflection_coefficients.py:calculate_transmission_reflection_coefficients"]}
{"id": "C67", "title": "Both solvers agree on which index is which frequency", "statement": "For the same config entry i of the spectra returned by the RCWA and the FDTD solver refers to the same frequency and the same slice of the epsilon grid, and both return reflection first.", "quantifier": "for every config and index", "why_tests_cant": "Ordering conventions across two implementations for all N_freq.", "anchors": ["nidn/fdtd_integration/compute_spectrum_fdtd.py:compute_spectrum_fdtd", "nidn/trcwa/compute_spectrum_trcwa.py:compute_spectrum_trcwa", "nidn/utils/compute_spectrum.py:compute_spectrum"]}
{"id": "C68", "title": "Detector averaging is the spatial mean", "statement": "The signal derived from a line detector is, at each time step, the mean of the z component over the detector's cells; it is linear in the field and equals the common value for a uniform field.", "quantifier": "for every number of steps and cells", "why_tests_cant": "All sizes.", "anchors": ["nidn/fdtd_integration/compute_spectrum_fdtd.py:_average_along_detector", "nidn/fdtd_integration/compute_spectrum_fdtd.py:_get_abs_value_from_3D_signal"]}
{"id": "C69", "title": "The current detector averages two loop currents", "statement": "The reported current at a cell is the average of the loop currents around the cell in the z-plane of the cell and in the plane below, and a static uniform magnetic field gives zero current.", "quantifier": "for all magnetic fields and interior cells", "why_tests_cant": "All field values.", "anchors": ["nidn/fdtd/detectors.py:CurrentDetector.single_point_current"]}
{"id": "C70", "title": "Backend selection and zero padding accept exactly the documented requests", "statement": "set_backend accepts exactly the documented names and rejects every other string without changing the backend; the computed FFT padding is non-negative and yields at least the requested frequency resolution.", "quantifier": "for every string and every window/resolution request", "why_tests_cant": "Infinite string and real domains.", "anchors": ["nidn/fdtd/backend.py:set_backend", "nidn/fdtd/fourier.py:FrequencyRoutines.compute_padding"]}
{"id": "C71", "title": "Shipped materials never amplify light", "statement": "At every frequency the permittivity loaded for each shipped material has a non-negative imaginary part; every shipped table is non-empty with positive, strictly increasing wavelengths, and a collection of all of them can be built for every non-empty list of non-zero frequencies.", "quantifier": "for every shipped material and every non-zero frequency", "why_tests_cant": "The data files have thousands of rows and the frequency is a continuous parameter; the shipped test uses four frequencies and looks at shapes only.", "anchors": ["nidn/materials/data/aluminium_oxide.csv", "nidn/materials/material_collection.py:MaterialCollection._load_material_data"]}
{"id": "C72", "title": "Every frequency is scored by the loss", "statement": "The loss a run is optimised for depends on the produced spectrum at every requested frequency: a spectrum that misses its target anywhere never has loss zero, also when the target lists given by the user do not have exactly N_freq entries (then an error is raised).", "quantifier": "for all spectra, targets of any length, every exponent", "why_tests_cant": "The number of frequencies and the position of the missed one are unbounded; the shipped tests use targets of matching length.", "anchors": ["nidn/training/losses/spectrum_loss.py:_spectrum_loss_fn", "nidn/utils/validate_config.py:_validate_config"]}
{"id": "C73", "title": "Training recovers from a solver failure", "statement": "After an iteration in which the solver failed, training continues from weights with which the solver is known to work, so a deterministic run does not fail for ever.", "quantifier": "for every deterministic solver and every number of iterations", "why_tests_cant": "Temporal property over unbounded runs.", "anchors": ["nidn/training/run_training.py:run_training"]}
{"id": "C74", "title": "Every accepted encoding dimension can be evaluated", "statement": "A config accepted by the validator yields a network that can be evaluated on the (x, y, z, frequency) rows it is trained with, whatever encoding_dim it requests.", "quantifier": "for every encoding_dim, depth, width and weights", "why_tests_cant": "Unbounded integer parameters and all weights.", "anchors": ["nidn/training/model/model_to_eps_grid.py:_eval_model", "nidn/training/model/init_network.py:init_network"]}
{"id": "C75", "title": "A voxel model starts inside the configured ranges", "statement": "A freshly initialised voxel model has every real part in [real_min_eps, real_max_eps] and every imaginary part in [imag_min_eps, imag_max_eps], so that the clipping of the grid conversion does not alter it; every value of the range can occur; classification runs are rejected with AssertionError.", "quantifier": "for all ranges and all random draws", "why_tests_cant": "Continuous ranges and random draws.", "anchors": ["nidn/training/utils/voxel.py:Voxel"]}
{"id": "C76", "title": "A rejected placement leaves the grid as it was", "statement": "If assigning a boundary, object, source or detector to a grid raises an exception, a program that catches it continues with the grid it had before.", "quantifier": "for every grid and every rejected assignment", "why_tests_cant": "All grids and index expressions.", "anchors": ["nidn/fdtd/boundaries.py:Boundary._register_grid", "nidn/fdtd/boundaries.py:PeriodicBoundary._register_grid", "nidn/fdtd/boundaries.py:PML._register_grid", "nidn/fdtd/objects.py:Object._register_grid"]}
{"id": "C77", "title": "Assigning one boundary object to two sides gives both sides that boundary", "statement": "Assigning the same PML object to two sides either gives both sides an absorbing layer or raises an error.", "quantifier": "for every grid, object and pair of sides", "why_tests_cant": "All programs placing boundaries.", "anchors": ["nidn/fdtd/boundaries.py:PML._register_grid"]}
{"id": "C78", "title": "The FDTD solver simulates the lateral pattern it is given or refuses it", "statement": "For a permittivity grid with several lateral cells the FDTD spectrum is that of the whole structure; a patterned grid is never silently given the spectrum of a different, unpatterned structure.", "quantifier": "for every config, grid, resolution and wavelength", "why_tests_cant": "All grids; the shipped FDTD tests use one lateral cell.", "anchors": ["nidn/fdtd_integration/compute_spectrum_fdtd.py:compute_spectrum_fdtd", "nidn/fdtd_integration/init_fdtd.py:init_fdtd"]}
{"id": "C79", "title": "The check for enough time steps only warns", "statement": "The check whether the configured number of FDTD time steps suffices for the light to pass the stack logs a warning at most; it never prevents the spectrum of a valid permittivity grid from being computed.", "quantifier": "for every config and every permittivity grid within the configured ranges", "why_tests_cant": "All permittivity values, including metals with negative real part.", "anchors": ["nidn/fdtd_integration/compute_spectrum_fdtd.py:_check_if_enough_timesteps"]}
{"id": "C80", "title": "The frequency-domain routine returns the spectrum of a recorded signal", "statement": "After a simulation has run, FrequencyRoutines.FFT returns frequencies and spectrum of a signal recorded by a detector.", "quantifier": "for every signal, time step, window and resolution request", "why_tests_cant": "All signals and requests; the routine is exported but not covered by any test.", "anchors": ["nidn/fdtd/fourier.py:FrequencyRoutines.FFT", "nidn/fdtd/backend.py:TorchBackend"]}
{"id": "C81", "title": "Unit conversions of the fields are inverse to each other", "statement": "Converting a field from simulation to world units and back returns it; in simulation units the impedance of free space is one.", "quantifier": "for all field values", "why_tests_cant": "Continuous values.", "anchors": ["nidn/fdtd/conversions.py:simE_to_worldE", "nidn/fdtd/conversions.py:worldE_to_simE", "nidn/fdtd/conversions.py:simH_to_worldH", "nidn/fdtd/conversions.py:worldH_to_simH"]}
{"id": "C82", "title": "Normalised pulses have peak value one and the requested width", "statement": "The normalised Gaussian pulse is at most one, equal to one only at its centre, and above one half exactly within half the full width at half maximum; its normalised derivative lies between minus one and one and attains both.", "quantifier": "for all times, centres and positive widths", "why_tests_cant": "Continuous parameters.", "anchors": ["nidn/fdtd/waveforms.py:normalized_gaussian_pulse", "nidn/fdtd/waveforms.py:normalized_gaussian_derivative_pulse"]}
{"id": "C83", "title": "The sources emit the wavelength that is simulated", "statement": "For every pulse type the source of a simulation oscillates at the wavelength the simulation is run for, up to the resolution of the time step.", "quantifier": "for every wavelength of at least ten cells, every resolution and every time step", "why_tests_cant": "Continuous parameters and all steps; the shipped tests compare coefficients with wide tolerances only.", "anchors": ["nidn/fdtd_integration/init_fdtd.py:_add_source", "nidn/fdtd/sources.py:LineSource.update_E", "nidn/fdtd/sources.py:PointSource.update_E", "nidn/fdtd/waveforms.py:hanning"]}
{"id": "C84", "title": "A plane source acts on exactly the addressed plane", "statement": "A plane source registered on a location that is one cell thick along exactly one axis imposes, in every time step, its sinusoid on the requested component of the electric field and on a perpendicular in-plane component of the magnetic field, on exactly the addressed cells and nowhere else; the bounds of a range may be given in either order and equal bounds mean that one cell; a location that is not a plane, or a polarisation along its normal, is refused.", "quantifier": "for all grid sizes, locations given by indices or slices, polarisations, amplitudes, phases and numbers of steps", "why_tests_cant": "Unboundedly many grids, slices and steps; the shipped tests place no plane source.", "anchors": ["nidn/fdtd/sources.py:PlaneSource._register_grid", "nidn/fdtd/sources.py:PlaneSource.update_E", "nidn/fdtd/sources.py:PlaneSource.update_H"]}
{"id": "C85", "title": "A plane source emits in the same direction for both polarisations", "statement": "The direction into which the fields imposed by a plane source carry energy depends on the plane and not on which of the two polarisations was requested.", "quantifier": "for all grids, planes and polarisations", "why_tests_cant": "Quantifies over all grids and locations; it concerns the relative sign of two fields, which no single-field test observes.", "anchors": ["nidn/fdtd/sources.py:PlaneSource._register_grid", "nidn/fdtd/sources.py:PlaneSource.update_H"]}
{"id": "C86", "title": "A soft point source plays its waveform into its cell", "statement": "A soft point source with a user-given waveform adds, step by step, the samples of that waveform (divided by the cell width, plus the voltage drop over its impedance) to the electric field along z of its cell and to nothing else, and stops when the waveform ends; a name makes it accessible on the grid and changes nothing else.", "quantifier": "for all waveforms, impedances, grids, cells and steps", "why_tests_cant": "Unboundedly many waveforms and steps.", "anchors": ["nidn/fdtd/sources.py:SoftArbitraryPointSource._register_grid", "nidn/fdtd/sources.py:SoftArbitraryPointSource.update_E"]}
{"id": "C87", "title": "A layer absorbs what the imaginary part of its permittivity says", "statement": "In an FDTD simulation a layer with complex permittivity acts on fields oscillating at the simulated wavelength like a medium with exactly the given real part and, up to three percent, the given imaginary part; it is absorbing exactly if the imaginary part is positive.", "quantifier": "for all layer permittivities with positive real part and non-negative imaginary part, all wavelengths of at least ten cells, all cells of the layer and all time steps", "why_tests_cant": "Continuous parameters and all steps; the shipped tests only compare final coefficients of a few materials.", "anchors": ["nidn/fdtd_integration/init_fdtd.py:_add_object", "nidn/fdtd/objects.py:AbsorbingObject.update_E", "nidn/fdtd/objects.py:AbsorbingObject._register_grid"]}
{"id": "C88", "title": "Validation accepts every config that is in order", "statement": "A config that has all keys of the default config and no unknown ones, with values of the documented types in the documented ranges, passes validation.", "quantifier": "for all configs", "why_tests_cant": "Validation tests only probe single faulty keys of the default config; that nothing valid is rejected quantifies over infinitely many configs.", "anchors": ["nidn/utils/validate_config.py:_validate_config"]}
{"id": "C89", "title": "No solver runs on an invalid config, and the named network is built", "statement": "Computing a spectrum with a config that fails validation raises exactly the validation error and runs no solver; from an accepted config the network class named by model_type is chosen, and an unknown name is refused.", "quantifier": "for all configs and whatever the solvers would return", "why_tests_cant": "Quantifies over all invalid configs.", "anchors": ["nidn/utils/compute_spectrum.py:compute_spectrum", "nidn/training/model/init_network.py:init_network"]}
{"id": "C90", "title": "A point source of an accepted config is placed where it is configured", "statement": "With FDTD_source_type point the simulation drives exactly the cell at the configured source position, for every accepted config.", "quantifier": "for all accepted configs, wavelengths and permittivities", "why_tests_cant": "Quantifies over all configs; the shipped tests use line sources or small grids.", "anchors": ["nidn/fdtd_integration/init_fdtd.py:_add_source", "nidn/fdtd/sources.py:PointSource._register_grid"]}
{"id": "C91", "title": "The FDTD solver illuminates the stack under normal incidence", "statement": "In a simulation of the FDTD solver the field averaged across the stack evolves, between the absorbing layers, by the discrete one-dimensional Maxwell equations of the layered medium (permittivity and loss of the layer at each plane, vacuum elsewhere), driven by the source only at the configured source plane; so the solver computes normal incidence whatever the profile of the source.", "quantifier": "for all valid geometries, layer permittivities, wavelengths, pulse types, planes and time steps", "why_tests_cant": "Quantifies over all stacks and all steps of the simulation; tests only see peak ratios at the end of a few runs.", "anchors": ["nidn/fdtd_integration/init_fdtd.py:init_fdtd", "nidn/fdtd/grid.py:Grid.update_E", "nidn/fdtd/grid.py:Grid.update_H", "nidn/fdtd/sources.py:LineSource.update_E"]}
{"id": "C92", "title": "The wave front arrives at the detectors on time", "statement": "In the free-space run of the FDTD solver a detector D cells from the source records exactly zero in the first D + 1 steps and a positive value in the next, namely the first non-zero source sample times the squared Courant number per cell, divided by the three cells of the detector.", "quantifier": "for all valid geometries, wavelengths of at least ten cells and detectors at least as far from the absorbing layers as from the source", "why_tests_cant": "All geometries and the exact first arrival step; no test inspects single recorded samples.", "anchors": ["nidn/fdtd_integration/compute_fdtd_grid_scaling.py:_compute_fdtd_grid_scaling", "nidn/fdtd_integration/init_fdtd.py:init_fdtd", "nidn/fdtd/grid.py:Grid.step", "nidn/fdtd/detectors.py:LineDetector.detect_E"]}
{"id": "C93", "title": "A trained config can be used again with all its settings", "statement": "When a training run returns, every setting of the user's config is as before (a single layer thickness may have been written out once per layer), the config passes validation, and training can be started with it again.", "quantifier": "for all accepted configs, both solvers, regression and classification, with or without a network already stored in the config", "why_tests_cant": "The written entries depend on solver, type and layer count; tests train a few configs once and never validate the result.", "anchors": ["nidn/training/run_training.py:run_training", "nidn/training/run_training.py:_init_training", "nidn/utils/validate_config.py:_validate_config"]}
{"id": "C94", "title": "Every config can be printed", "statement": "print_cfg prints every entry of a config exactly once and in order, at most three entries per line, lists on a line of their own, and does not raise, before and after training.", "quantifier": "for all configs", "why_tests_cant": "No test prints a trained config; the layout claim is about every order of entries.", "anchors": ["nidn/utils/print_cfg.py:print_cfg"]}
{"id": "C95", "title": "Spectrum plots show the simulated wavelengths and the logged error", "statement": "plot_spectra and plot_spectrum draw every reflectance and transmittance value at the wavelength (in micrometres) at which it was simulated, the absorptance as what is missing to one, and print the mean absolute difference to the target; for physical spectra the two printed errors average to the L1 error logged by training; spectra of another length are refused.", "quantifier": "for all wavelength bands, distributions, numbers of frequencies and spectra", "why_tests_cant": "The order and unit of the x axis is only visible in a picture; tests do not look at drawn data.", "anchors": ["nidn/plots/plot_spectra.py:plot_spectra", "nidn/plots/plot_spectrum.py:plot_spectrum", "nidn/training/losses/spectrum_loss.py:_spectrum_loss_fn"]}
{"id": "C96", "title": "Grid plots show the magnitude of the permittivity", "statement": "The number shown for a grid cell by plot_model_grid and plot_epsilon_grid is the magnitude of the cell's permittivity, averaged over the frequencies.", "quantifier": "for all permittivity grids and numbers of frequencies", "why_tests_cant": "Universal over complex values; a test would compare pictures.", "anchors": ["nidn/plots/plot_model_grid.py:plot_model_grid", "nidn/plots/plot_epsilon_grid.py:plot_epsilon_grid"]}
{"id": "C97", "title": "Grid plots show every cell at its own place with the right label", "statement": "Every three-dimensional grid plot draws exactly one point per cell, ordered in space as in the grid, with that cell's value, and labels the height of layer l as L(l+1); the per-frequency plot shows real and imaginary part of each requested frequency in a row of its own titled with its wavelength; the legend of the permittivity curves names the cell they belong to.", "quantifier": "for all grid sizes, permittivities and up to four requested frequencies", "why_tests_cant": "Relies on two flattening orders agreeing for all sizes; a swapped axis is invisible in tests that only check that plotting does not crash.", "anchors": ["nidn/plots/plot_model_grid.py:plot_model_grid", "nidn/plots/plot_epsilon_grid.py:plot_epsilon_grid", "nidn/plots/plot_model_grid_per_freq.py:plot_model_grid_per_freq", "nidn/plots/plot_eps_per_point.py:plot_eps_per_point"]}
{"id": "C98", "title": "The material plot names the closest material of each cell", "statement": "In plot_material_grid the colour of a cell occurs exactly once on the colour bar, and the name written there is a material with the smallest mean distance to the cell's permittivity; the error plot shows that distance.", "quantifier": "for all grids, permittivities and material collections", "why_tests_cant": "An off-by-one between colours and labels depends on the number of materials and cannot be seen by a smoke test.", "anchors": ["nidn/plots/plot_material_grid.py:plot_material_grid", "nidn/materials/find_closest_material.py:_find_closest_material"]}
{"id": "C99", "title": "All plots of a trained config can be saved", "statement": "save_all_plots writes all six pictures for every config that was accepted and trained.", "quantifier": "for all numbers of frequencies, grid sizes and spectra", "why_tests_cant": "Holds or fails depending on the number of frequencies; the only test uses one setting.", "anchors": ["nidn/plots/save_all_plots.py:save_all_plots"]}
{"id": "C100", "title": "The trained network fits the settings", "statement": "The network that a training run trains is of the configured model type, has two outputs for regression and one per material for classification, and a voxel model has the size of the grid.", "quantifier": "for all accepted configs, whether or not they were trained with before", "why_tests_cant": "About sequences of training runs with changed settings in between; tests train fresh configs.", "anchors": ["nidn/training/run_training.py:_init_training", "nidn/training/model/init_network.py:init_network", "nidn/training/utils/voxel.py:Voxel"]}
{"id": "C101", "title": "Mode amplitudes can be queried anywhere in the structure", "statement": "After solving, the amplitudes returned for a layer and a depth are those of the solution of the whole structure at that depth; at an interface both sides give the same tangential fields, and the power computed from them behind the structure is the reported transmittance.", "quantifier": "for all structures that can be solved, all layers and depths, all excitations", "why_tests_cant": "Quantifies over structures, layers and depths; no test calls the query.", "anchors": ["nidn/trcwa/trcwa.py:TRCWA.GetAmplitudes", "nidn/trcwa/trcwa.py:TRCWA.GetAmplitudes_noTranslate", "nidn/trcwa/trcwa.py:TranslateAmplitudes"]}
{"id": "C102", "title": "The solver solves Maxwell's equations", "statement": "Incoming and outgoing amplitudes are related by the solver exactly if there are electric and magnetic fields with these amplitudes in the first and last layer that satisfy Maxwell's equations in every layer, uniform or patterned (in the retained orders), and whose tangential components are continuous at every interface.", "quantifier": "for all frequencies, lattices, wave vectors, numbers of layers, permittivities and patterns, thicknesses and amplitudes (without grazing orders and degenerate modes)", "why_tests_cant": "A statement about all field configurations and derivatives at every depth; tests compare a few reflectances with reference values.", "anchors": ["nidn/trcwa/trcwa.py:MakeKPMatrix", "nidn/trcwa/trcwa.py:SolveLayerEigensystem", "nidn/trcwa/trcwa.py:SolveLayerEigensystem_uniform", "nidn/trcwa/trcwa.py:GetSMatrix", "nidn/trcwa/trcwa.py:SolveExterior"]}
{"id": "C103", "title": "Fields inside the structure can be queried", "statement": "After solving, the fields returned for a layer and a list of depths are the Fourier components, or the values on a grid, of the solution of Maxwell's equations of the structure, and the stress tensor is computed from them.", "quantifier": "for all structures that can be solved, all layers and lists of depths", "why_tests_cant": "No test calls these functions; a claim about all layers and depths.", "anchors": ["nidn/trcwa/trcwa.py:TRCWA.Solve_FieldFourier", "nidn/trcwa/trcwa.py:TRCWA.Solve_FieldOnGrid", "nidn/trcwa/trcwa.py:TRCWA.Solve_ZStressTensorIntegral"]}
{"id": "C104", "title": "Volume integrals integrate the modes over the thickness", "statement": "Volume_integral returns the integral of the weighted squared field components over a layer; its weights are the depth integrals of products of two modes.", "quantifier": "for all layers, wave numbers and thicknesses", "why_tests_cant": "About an integral for all complex wave numbers, including coinciding ones; no test calls it.", "anchors": ["nidn/trcwa/trcwa.py:TRCWA.Volume_integral", "nidn/trcwa/trcwa.py:Matrix_zintegral", "nidn/trcwa/trcwa.py:Gmeshgrid"]}
{"id": "C105", "title": "The permittivity profile of a layer can be read back", "statement": "Return_eps gives the permittivity of a layer on a grid of points: the constant of a uniform layer, the pattern of a patterned layer.", "quantifier": "for all layers, grids and components", "why_tests_cant": "No test calls it; universal over patterns.", "anchors": ["nidn/trcwa/trcwa.py:TRCWA.Return_eps", "nidn/trcwa/utils/fft_funs.py:get_ifft"]}
{"id": "C106", "title": "Both documented truncation schemes select orders", "statement": "Asking for orders with the circular or the parallelogram scheme yields a set of distinct orders around the central one, not more than requested; any other scheme and a request that is not an int are refused.", "quantifier": "for all lattices, requested numbers and schemes", "why_tests_cant": "Universal over lattices and numbers; the tests use the default scheme only.", "anchors": ["nidn/trcwa/utils/kbloch.py:Lattice_getG", "nidn/trcwa/utils/kbloch.py:Gsel_parallelogramic", "nidn/trcwa/utils/kbloch.py:Gsel_circular"]}
{"id": "C107", "title": "Light from behind behaves like light on the turned structure", "statement": "Exciting a structure from behind gives the reflectance and transmittance, in total and by order, of the reversed structure excited from the front, and a lossless structure reflects and transmits all of the incident power.", "quantifier": "for all structures, lossless ones for the energy part, all frequencies, angles and polarisations", "why_tests_cant": "Symmetry of the solver over all structures; tests only excite from the front.", "anchors": ["nidn/trcwa/trcwa.py:TRCWA.MakeExcitationPlanewave", "nidn/trcwa/trcwa.py:TRCWA.RT_Solve", "nidn/trcwa/trcwa.py:GetZPoyntingFlux"]}
{"id": "C108", "title": "Powers by order are physical and add up to the totals", "statement": "The reflected and transmitted powers by diffraction order add up to the totals, are never negative, vanish for evanescent orders, and vanish in all orders but the incident one if no layer is patterned.", "quantifier": "for all structures between transparent half-spaces, all real frequencies, angles, polarisations, truncations", "why_tests_cant": "Per-order statements over all structures; tests look at totals of a few examples.", "anchors": ["nidn/trcwa/trcwa.py:TRCWA.RT_Solve", "nidn/trcwa/trcwa.py:GetZPoyntingFlux"]}
{"id": "C109", "title": "The excitation is the plane wave that was asked for", "statement": "The excitation with amplitudes s and p is the plane wave travelling in the direction of the two angles whose electric field has these amplitudes perpendicular to and in the plane of incidence; with both angles zero p-light is polarised along x.", "quantifier": "for all frequencies, angles, front media and complex amplitudes", "why_tests_cant": "A vector identity for all angles and media; reflectances of isotropic stacks at normal incidence cannot see polarisation or scale.", "anchors": ["nidn/trcwa/trcwa.py:TRCWA.MakeExcitationPlanewave"]}
{"id": "C110", "title": "Anisotropic patterns act along their own axes", "statement": "In a patterned layer given by three permittivity patterns, the first acts on the electric field along x, the second along y, the third along z.", "quantifier": "for all patterns, frequencies, lattices and truncations", "why_tests_cant": "Visible only for patterns whose x and y values differ; there is no such test.", "anchors": ["nidn/trcwa/utils/fft_funs.py:Epsilon_fft", "nidn/trcwa/trcwa.py:TRCWA.GridLayer_geteps"]}
{"id": "C111", "title": "The steady-state test looks at whole oscillations", "statement": "The windows whose ranges are compared to find the steady state of an FDTD signal hold at least one full period of the light, so that a steady oscillation has the same range in every window.", "quantifier": "for all accepted wavelength ranges, minimum grid densities and structures, at every wavelength of the range", "why_tests_cant": "Relates three independent numbers (window, grid refinement, time step) over all wavelengths; tests run one or two wavelengths.", "anchors": ["nidn/fdtd_integration/calculate_transmission_reflection_coefficients.py:_eliminate_transient_part", "nidn/fdtd_integration/compute_fdtd_grid_scaling.py:_compute_fdtd_grid_scaling", "nidn/fdtd/grid.py:Grid.__init__"]}
{"id": "C112", "title": "Homogeneous stacks agree with the textbook thin-film method", "statement": "For a stack of homogeneous layers the RCWA reflectance and transmittance are those of the characteristic-matrix (Abeles) method with the same permittivities and thicknesses, in both polarisations and at every angle. In particular Fresnel's formulas, Brewster's angle, total reflection, quarter-wave antireflection coatings and invisible half-wave films come out exactly.", "quantifier": "for all numbers of layers, complex permittivities, thicknesses, angles of incidence, azimuths, polarisations, lattices and truncations of the orders for which the solver answers; for the driver's damped frequencies at normal incidence, all passive stacks", "why_tests_cant": "Equality of two algorithms over a continuum of parameters; tests compare a few points of one or two structures.", "anchors": ["nidn/trcwa/trcwa.py:TRCWA.RT_Solve", "nidn/trcwa/trcwa.py:GetSMatrix", "nidn/trcwa/trcwa.py:TRCWA.MakeExcitationPlanewave", "nidn/trcwa/compute_spectrum_trcwa.py:compute_spectrum_trcwa"]}
{"id": "C113", "title": "The RCWA solver answers for every passive structure", "statement": "Computing reflection and transmission of a structure that does not amplify light does not fail: at the driver's frequencies no matrix that has to be inverted is singular.", "quantifier": "for all stacks of passive layers (uniform or patterned), thicknesses, orders and excitations; at damped frequencies, and at real ones if all retained orders propagate in front", "why_tests_cant": "Solvability for all structures is a statement about determinants over a continuum; the failing parameters are isolated and a test misses them.", "anchors": ["nidn/trcwa/trcwa.py:GetSMatrix", "nidn/trcwa/trcwa.py:SolveExterior", "nidn/trcwa/trcwa.py:TRCWA.RT_Solve"]}
{"id": "C114", "title": "The answer does not depend on the choice of eigenvectors", "statement": "The reflectance and transmittance of a structure with patterned layers are determined by the structure and the illumination: they do not depend on which eigenvectors the linear algebra library returns (their order, normalisation, or basis in degenerate spaces), so different library versions and devices agree up to rounding.", "quantifier": "for all structures, all choices of invertible eigenvector matrices in every patterned layer, all excitations from both sides", "why_tests_cant": "One library makes one choice; a test never sees another.", "anchors": ["nidn/trcwa/trcwa.py:SolveLayerEigensystem", "nidn/trcwa/trcwa.py:GetSMatrix", "nidn/trcwa/trcwa.py:TRCWA.RT_Solve"]}
{"id": "C115", "title": "Scale invariance of Maxwell's equations", "statement": "Multiplying all lengths of a structure (lattice vectors and thicknesses) by a factor and dividing the frequency by it leaves reflectance, transmittance and the set of retained orders unchanged.", "quantifier": "for all positive factors, structures, frequencies (real or complex), directions and polarisations", "why_tests_cant": "A relation between runs on two inputs, for a continuum of factors.", "anchors": ["nidn/trcwa/utils/kbloch.py:Lattice_Reciprocate", "nidn/trcwa/trcwa.py:SolveLayerEigensystem", "nidn/trcwa/trcwa.py:TRCWA.RT_Solve"]}
{"id": "C116", "title": "Shifting all patterns together changes nothing", "statement": "A periodic structure has no origin: moving the patterns of all layers by the same number of pixels leaves reflectance and transmittance unchanged.", "quantifier": "for all structures, grids, shifts, directions and polarisations", "why_tests_cant": "A relation between two runs over all patterns; the violation needs Fourier coefficients in one quadrant.", "anchors": ["nidn/trcwa/utils/fft_funs.py:Epsilon_fft", "nidn/trcwa/utils/fft_funs.py:get_conv", "nidn/trcwa/trcwa.py:TRCWA.RT_Solve"]}
{"id": "C117", "title": "Rotating or reflecting structure and light together changes nothing", "statement": "Turning the lattice in its plane by any angle, with the azimuth of the incident light turned by the same angle, leaves reflectance and transmittance unchanged; so does a reflection in the x axis with the reflected polarisation. The set of retained orders does not change.", "quantifier": "for all lattices (also oblique), angles, structures, directions and polarisations", "why_tests_cant": "A continuum of orientations; tests use lattices along the axes.", "anchors": ["nidn/trcwa/utils/kbloch.py:Lattice_Reciprocate", "nidn/trcwa/utils/kbloch.py:Gsel_circular", "nidn/trcwa/trcwa.py:TRCWA.MakeExcitationPlanewave", "nidn/trcwa/trcwa.py:TRCWA.RT_Solve"]}
{"id": "C118", "title": "The numbering of the diffraction orders does not matter", "statement": "Equally long diffraction orders come out of the sort in no particular order. Whatever it is, the same orders are retained, and reflectance and transmittance of the same incident wave are the same.", "quantifier": "for all lattices, requested numbers of orders, sorts, structures and excitations", "why_tests_cant": "One numpy version makes one choice of ties.", "anchors": ["nidn/trcwa/utils/kbloch.py:Gsel_circular", "nidn/trcwa/trcwa.py:TRCWA.MakeExcitationPlanewave", "nidn/trcwa/trcwa.py:TRCWA.RT_Solve"]}
{"id": "C119", "title": "Symmetric patterns respond symmetrically", "statement": "Flipping the pixels of all patterns along x and lighting from the mirrored direction with the mirrored polarisation gives the same reflectance and transmittance; on a square lattice the same holds for a quarter turn. A structure that equals its quarter turn responds to normally incident light of every linear polarisation in the same way.", "quantifier": "for all rectangular (square) lattices, requested numbers of orders, patterns, directions and polarisations", "why_tests_cant": "A relation between runs for all patterns; the number of retained orders matters and a test covers few.", "anchors": ["nidn/trcwa/utils/fft_funs.py:get_conv", "nidn/trcwa/utils/kbloch.py:Gsel_circular", "nidn/trcwa/trcwa.py:TRCWA.MakeExcitationPlanewave", "nidn/trcwa/trcwa.py:TRCWA.RT_Solve"]}
{"id": "C120", "title": "Absorbing layers stretch exactly the derivative across them", "statement": "Inside an absorbing layer every time step is the ordinary Yee update of Maxwell's equations except that each spatial derivative across the layer is replaced by the derivative plus the convolution of its whole history with an exponentially decaying kernel set by the layer's conductivity at that depth; derivatives along the layer are left alone.", "quantifier": "for all grids, sides, thicknesses, loss parameters, further boundaries, fields, cells of the layer, components and numbers of steps", "why_tests_cant": "A statement about the entire history of the fields in every cell; tests check the profile or that the signal decays.", "anchors": ["nidn/fdtd/boundaries.py:PML.update_phi_E", "nidn/fdtd/boundaries.py:PML.update_phi_H", "nidn/fdtd/boundaries.py:PML.update_E", "nidn/fdtd/boundaries.py:PML.update_H", "nidn/fdtd/grid.py:Grid.step"]}
{"id": "C121", "title": "Light runs the opposite way with the same reflectance and transmittance", "statement": "Reciprocity: for unpolarised light the part reflected in the mirror direction is the same from azimuth phi and phi + 180 degrees, and the part that goes straight through is the same in both directions along the same path, whatever the layers absorb.", "quantifier": "for all stacks of homogeneous and patterned layers, complex permittivities, lattices, numbers of orders, frequencies, angles, outer media and choices of eigenvectors", "why_tests_cant": "Relates two different calculations for every structure and direction, where neither has a known value; the truncated orders and the permittivity filter could break it.", "anchors": ["nidn/trcwa/trcwa.py:TRCWA.RT_Solve", "nidn/trcwa/trcwa.py:SolveExterior", "nidn/trcwa/trcwa.py:MakeKPMatrix", "nidn/trcwa/trcwa.py:SolveLayerEigensystem", "nidn/trcwa/utils/kbloch.py:Gsel_circular", "nidn/trcwa/utils/fft_funs.py:Epsilon_fft"]}
{"id": "C122", "title": "The gradients that training follows exist", "statement": "Reflectance and transmittance are differentiable functions (as smooth as one likes) of the permittivities, pixels and thicknesses of the layers, at every design that does not amplify; around such a design the solver always answers.", "quantifier": "for all numbers of homogeneous and patterned layers, smooth parametrisations of permittivities, pixels and thicknesses, frequencies, lattices, numbers of orders and excitations", "why_tests_cant": "Differentiability concerns all neighbouring designs at once; the code branches on signs of square roots and divides by wave numbers, and a test with finite differences cannot tell a steep function from a jump.", "anchors": ["nidn/trcwa/trcwa.py:TRCWA.RT_Solve", "nidn/trcwa/trcwa.py:SolveExterior", "nidn/trcwa/trcwa.py:SolveLayerEigensystem_uniform", "nidn/trcwa/compute_spectrum_trcwa.py:compute_spectrum_trcwa", "nidn/training/run_training.py:run_training"]}
{"id": "C123", "title": "Waves on the FDTD grid travel undistorted, never faster than light, and resolved waves almost as fast", "statement": "In a uniform lossless medium with periodic boundaries a plane wave that fits on the grid keeps its shape for ever and advances by the phase of the discrete dispersion relation every step; below the Courant limit such a wave exists for every wave vector and transverse polarisation; its phase velocity never exceeds c/sqrt(eps mu), and with ten or more cells per wavelength it is at least 98 % of it.", "quantifier": "for all grids of one, two or three dimensions, media, wave vectors, polarisations, numbers of steps, and all grids the constructor accepts", "why_tests_cant": "A test can follow one pulse for some steps on one grid within a tolerance; that the shape is kept exactly for every wave vector and number of steps, and the bounds on the speed for every direction, are statements over continua.", "anchors": ["nidn/fdtd/grid.py:Grid.update_E", "nidn/fdtd/grid.py:Grid.update_H", "nidn/fdtd/grid.py:curl_E", "nidn/fdtd/grid.py:curl_H", "nidn/fdtd/grid.py:Grid.__init__"]}
{"id": "C124", "title": "What the FDTD grid settles into behind a stack of layers is the thin-film solution, and refining the grid leads to the RCWA result", "statement": "If the fields of a simulation oscillate at one frequency, the reflected and transmitted power of that state are given exactly by the thin-film formulas with the grid's own indices and phase advances, in media without gain they add up to at most the incident power and without loss to exactly that power; every passive stack has such a state; and as the cells get smaller the powers tend to the reflectance and transmittance that the RCWA solver returns for the same stack at normal incidence.", "quantifier": "for all stacks of layers with any permittivities and conductivities, all grids, Courant numbers, frequencies, positions of the stack and settled states, all sequences of spacings going to zero, all truncations and lattices of the RCWA solver", "why_tests_cant": "Tests compare both solvers for one stack with a generous tolerance because the discretisation error is unknown; that the grid solves a film stack exactly, and that the error vanishes for every stack, is a statement over all stacks and a limit.", "anchors": ["nidn/fdtd/grid.py:Grid.update_E", "nidn/fdtd/grid.py:Grid.update_H", "nidn/fdtd/boundaries.py:_PeriodicBoundaryY", "nidn/fdtd/objects.py:AbsorbingObject.update_E", "nidn/trcwa/trcwa.py:TRCWA.RT_Solve"]}
{"id": "C125", "title": "Stored results can be loaded again and do not replace one another", "statement": "A configuration saved after training is what loading its file gives back, saving changes no other file, and results of different runs, stored one by one or by the batch script, are all still there at the end.", "quantifier": "for all contents of the disk, run names, subfolders, configurations, times, and all sequences of configs run by the batch script", "why_tests_cant": "A test stores one run and loads it; whether any earlier result can be lost depends on every combination of names, folders and times, and on everything already stored.", "anchors": ["nidn/training/save_run.py:save_run", "nidn/training/load_run.py:load_run", "nidn/scripts/run_cfgs.py", "nidn/plots/save_all_plots.py:save_all_plots"]}
{"id": "C126", "title": "Components of a grid are available under their names, and the stored readings hold every detector's signals", "statement": "A named object, source, detector or boundary that was placed or added can be reached as an attribute of the grid from then on, no name replaces anything that was there before, and saving the data stores two arrays, the electric and the magnetic signal, for every detector under its name.", "quantifier": "for all grids, all components and names, all sequences of placements, additions and saves, successful or not, and all recordings", "why_tests_cant": "Whether a name can be lost or a recording overwritten depends on the whole history of a grid; tests place a handful of components with names they know to be different.", "anchors": ["nidn/fdtd/grid.py:Grid.save_data", "nidn/fdtd/grid.py:Grid.save_simulation", "nidn/fdtd/grid.py:Grid.add_object", "nidn/fdtd/grid.py:Grid.add_source", "nidn/fdtd/grid.py:Grid.add_detector", "nidn/fdtd/grid.py:Grid.add_boundary", "nidn/fdtd/grid.py:Grid.__setitem__", "nidn/fdtd/objects.py:AnisotropicObject._register_grid", "nidn/fdtd/detectors.py:CurrentDetector.detector_values"]}
{"id": "C127", "title": "The FDTD spectrum tells the requested wavelengths apart", "statement": "Every frequency point of an FDTD spectrum is simulated at its own wavelength: two different target wavelengths of an accepted config are simulated with different sources, and the simulated wavelength is the requested one up to a stated bound.", "quantifier": "for all configs, all stacks, all pairs of target wavelengths", "why_tests_cant": "Whether two wavelengths get the same source depends on the rounding of the period to time steps, for all pairs of real numbers; tests look at a few wavelengths and have no exact value to compare with.", "anchors": ["nidn/fdtd_integration/compute_spectrum_fdtd.py:compute_spectrum_fdtd", "nidn/fdtd_integration/init_fdtd.py:_add_source", "nidn/fdtd/sources.py:LineSource._register_grid", "nidn/fdtd/grid.py:Grid._handle_time"]}
{"id": "C128", "title": "The coefficients of settled signals are ratios of powers", "statement": "When the recorded signals have settled into oscillations, the transmission the FDTD solver reports is the squared ratio of the amplitudes behind the structure and in the empty grid, and the reflection the squared ratio of the amplitudes of the reflected and the incident oscillation, whatever the phases and the number of samples.", "quantifier": "for all numbers of time steps per period, all amplitudes and phases of the four signals, all lengths and all transients in front of the settled part", "why_tests_cant": "The samples hardly ever hit the crests of an oscillation, so whether the computed power is the right one depends on the phases, which are real numbers; tests look at a few phases with a tolerance.", "anchors": ["nidn/fdtd_integration/calculate_transmission_reflection_coefficients.py:calculate_transmission_reflection_coefficients", "nidn/fdtd_integration/calculate_transmission_reflection_coefficients.py:_peak_based_coefficient_computation", "nidn/fdtd_integration/calculate_transmission_reflection_coefficients.py:_torch_find_peaks", "nidn/fdtd_integration/calculate_transmission_reflection_coefficients.py:_mean_square"]}
{"id": "C129", "title": "The decibel map of a block detector shows how many decibels each cell is above the quietest one", "statement": "`dB_map_2D` shows, for every cell of a block detector, ten times the decimal logarithm of the swing (highest minus lowest reading) of the chosen field component divided by the smallest swing of all cells; the quietest cell shows zero, no cell shows less, and neither the unit of the readings nor a constant offset changes the picture. Arguments that are no readings of a block detector are refused with a ValueError.", "quantifier": "for all numbers of time steps, rows, columns and heights, all readings, all components and all units and offsets", "why_tests_cant": "The claim quantifies over arbitrary readings of arbitrary size; a test compares one picture with stored numbers, and does not notice what happens if one cell stands still.", "anchors": ["nidn/fdtd/visualization.py:dB_map_2D"]}
{"id": "C130", "title": "The picture of a grid shows fields and components in their cells", "statement": "`grid.visualize` raises a ValueError unless exactly one of x, y, z is given as an integer and the normalisation is known. Otherwise every pixel shows the energy of both fields in the cell of the cut whose coordinates along the two axes named beside the picture are its row and column; objects and absorbing boundaries cover exactly the pixels of their cells; lines run along the periodic edges, from the first to the last cell of line sources and line detectors, and around block detectors; plane sources cover the pixels of their cells, and every point source is marked in its pixel.", "quantifier": "for all grid shapes, all fields, all three directions and positions of the cut, all lists of sources, detectors, boundaries and objects, and all points of every pixel", "why_tests_cant": "Which pixels a shape covers is a statement about all points of the plane and all positions of the component; pictures are not compared by unit tests.", "anchors": ["nidn/fdtd/visualization.py:visualize"]}
{"id": "C131", "title": "Frames never overwrite each other, and making the video leaves the process as it was", "statement": "Frames saved under different indices go to different files, whose names contain the index with at least four digits. `generate_video` returns the path of the video inside the folder of the simulation, deletes pictures exactly on request and touches no other file, and the working directory afterwards is the one before; it raises if `save_simulation` was not called, and reports a failing ffmpeg.", "quantifier": "for all frame numbers (also beyond four digits), all folders, file lists and working directories, and all three ways in which ffmpeg can end", "why_tests_cant": "Collisions of file names would only show for particular pairs of numbers; how the process is left after a failure of an external program is not tested.", "anchors": ["nidn/fdtd/grid.py:Grid.generate_video", "nidn/fdtd/visualization.py:visualize", "nidn/fdtd/grid.py:Grid.save_simulation"]}
{"id": "C132", "title": "Without the warning about too few time steps the simulation is long enough", "statement": "If `compute_spectrum_fdtd` does not warn about the number of time steps, then within these steps (and one more, for rounding) the light can go the documented way: once through the free space, three times through all layers with their real permittivities, and five wavelengths more. If it warns, then the light cannot go this way through layers that all have the largest permittivity of the grid. The check raises only if a permittivity is NaN, all real parts are negative, or there are no entries.", "quantifier": "for all configs, grid scalings, wavelengths, numbers of time steps, layer thicknesses and permittivities", "why_tests_cant": "The recommendation must be compared with the time step the grid derives from its Courant number, for all geometries; a test runs one config and does not look at log messages.", "anchors": ["nidn/fdtd_integration/compute_spectrum_fdtd.py:_check_if_enough_timesteps", "nidn/fdtd_integration/compute_spectrum_fdtd.py:_summed_thickness_times_sqrt_permittivity", "nidn/fdtd/grid.py:Grid.__init__"]}
{"id": "C133", "title": "Printing a grid lists every component with its kind, name and position", "statement": "`print(grid)` gives a line for the grid and then one entry for each source, detector, boundary and object in the order of placement: its class and name, and its position in the notation in which indices are written between brackets (`6:8`, `:`, `0`, `[4, ... , 4]`). From the entry the position can be read off. A grid on which something was placed can be printed, also after a placement was refused.", "quantifier": "for all programs of placements on a grid, all classes of components, names and indices", "why_tests_cant": "The text goes through chains of replacements whose effect depends on which parts of a slice are missing and whether a step is given; whether printing raises depends on earlier refused placements.", "anchors": ["nidn/fdtd/grid.py:Grid.__str__", "nidn/fdtd/boundaries.py:Boundary.__str__", "nidn/fdtd/objects.py:Object.__str__", "nidn/fdtd/sources.py:LineSource.__str__", "nidn/fdtd/detectors.py:LineDetector.__str__"]}
{"id": "C134", "title": "Every accepted config leads to a permittivity grid of the configured shape", "statement": "For every config that passes validation the permittivity grid computed from the model has the shape Nx x Ny x N_layers x N_freq, and the material weights of a classification have the shape Nx x Ny x N_layers x N_materials; the checks of the RCWA solver on the shape pass.", "quantifier": "for all accepted configs, all numbers of materials, and all networks (and voxel models) made for the config", "why_tests_cant": "The shapes depend on how oversampling, the list of thicknesses, the number of frequencies and the squeezed table of materials interact; tests use a few configs.", "anchors": ["nidn/training/model/model_to_eps_grid.py:model_to_eps_grid", "nidn/training/model/model_to_eps_grid.py:_regression_model_to_eps_grid", "nidn/training/model/model_to_eps_grid.py:_classification_model_to_eps_grid", "nidn/trcwa/compute_spectrum_trcwa.py:compute_spectrum_trcwa"]}
{"id": "C135", "title": "plot_detection shows when a pulse arrives at each line detector", "statement": "For the readings saved by save_data, plot_detection shows for every field and axis asked for one envelope per line detector, nowhere below the readings of its first cell, and as time of arrival the first step at which this envelope is largest; other detectors are left out, and a pulse that comes s steps later at a second detector is shown with an arrival s steps later.", "quantifier": "for all dictionaries of readings (any number and order of line and block detectors, any number of steps and cells), all choices of specific_plot, all signals and delays", "why_tests_cant": "The function opens windows and returns nothing, so it is not tested at all; the order of the detectors and their sizes decide whether it fails after drawing.", "anchors": ["nidn/fdtd/visualization.py:plot_detection", "nidn/fdtd/grid.py:save_data"]}
{"id": "C136", "title": "An accepted config can be trained", "statement": "Training with a config that passes validation gets past its preparation: the frequencies, the seeds, the configured network, its optimiser and the training loop are set up without an exception.", "quantifier": "for every accepted config without a stored network, all values and types of the settings", "why_tests_cant": "Validation leaves out some settings and checks only the type of others; the combinations of types and values are unbounded and the tests train only variations of the default config.", "anchors": ["nidn/training/run_training.py:_init_training", "nidn/training/run_training.py:run_training", "nidn/training/model/init_network.py:init_network", "nidn/training/utils/siren.py:Siren", "nidn/training/utils/nerf.py:NERF", "nidn/utils/fix_random_seeds.py:fix_random_seeds", "nidn/utils/validate_config.py:_validate_config"]}
{"id": "C137", "title": "An accepted RCWA run of uniform layers is answered, correctly", "statement": "Calling get_frequency_points and then compute_spectrum with an accepted config for the RCWA solver and a permittivity grid of the configured shape with one cell per layer returns one reflectance and one transmittance per frequency. They are physical (not negative, sum at most one) and are the textbook thin-film values for the configured thicknesses and surrounding permittivities; lattice and number of orders have no influence.", "quantifier": "for every accepted config with one cell per layer, every number of layers and frequencies, all thicknesses, lattices, order counts and passive complex permittivities", "why_tests_cant": "The claim spans the whole call chain from the raw config entries to the spectra, over unbounded stacks, real-valued settings and every lattice; tests run a few configs and cannot compare against an independent method for all of them.", "anchors": ["nidn/utils/compute_spectrum.py:compute_spectrum", "nidn/trcwa/compute_spectrum_trcwa.py:compute_spectrum_trcwa", "nidn/trcwa/init_trcwa.py:_init_trcwa", "nidn/trcwa/get_frequency_points.py:get_frequency_points", "nidn/trcwa/trcwa.py:TRCWA", "nidn/trcwa/utils/kbloch.py:Lattice_getG", "nidn/utils/validate_config.py:_validate_config"]}
{"id": "C138", "title": "A current detector records the current of each requested cell in each step", "statement": "After k time steps a current detector holds k samples, one reading per requested cell each; the reading of a step is the current along z through that cell, taken from the magnetic field at the end of the step, and equals the displacement current, i.e. it is zero where the electric field does not change. Fields far from the cell do not enter.", "quantifier": "for every grid, number of steps, placement of the detector (integers, index lists, slices) and field", "why_tests_cant": "Placement, timing and the values over a run depend on unbounded grids, step counts and fields; a test looks at one detector in one grid.", "anchors": ["nidn/fdtd/detectors.py:CurrentDetector", "nidn/fdtd/grid.py:Grid.update_H", "nidn/fdtd/grid.py:Grid.run"]}
{"id": "C139", "title": "A one-dimensional simulation that ends in absorbing layers never blows up", "statement": "On a row of cells that ends in absorbing layers, with a Courant number below 1 and materials no thinner than vacuum (conducting or not), the fields stay below a fixed factor times the initial fields plus everything the sources have added so far, however many steps are made; and two simulations of the same structure never get further apart than that factor times their initial difference plus the difference of what their sources added. Without sources the fields stay bounded for ever.", "quantifier": "for every length of the row, thickness of the layers, loss parameter, material in every cell, conductivity outside the layers, initial field, drive of the sources and number of steps", "why_tests_cant": "Late-time instability of absorbing layers shows after arbitrarily many steps and depends on materials and thickness; a test runs one structure for a few hundred steps.", "anchors": ["nidn/fdtd/boundaries.py:PML", "nidn/fdtd/grid.py:Grid.update_E", "nidn/fdtd/grid.py:Grid.update_H"]}
{"id": "C140", "title": "The transfer-matrix method returns the reflectance and transmittance of the stack", "statement": "For light that comes from a medium of real refractive index at a real angle, in either polarisation, through any stack of homogeneous layers (absorbing or not) into a last medium, the values R and T that coh_tmm returns are those of the characteristic-matrix method for the same stack; it does not matter which branch of the arcsine is used for the inner layers. Stacks of passive materials into which the light travels are always accepted. (Layers that attenuate the field by more than exp(-35) are excluded, as the docstring warns.)", "quantifier": "for every number of layers, every thickness, every complex index, both polarisations, every angle, every wavelength and every function that inverts the sine", "why_tests_cant": "A test compares a handful of stacks with known values; the interference of arbitrarily many layers and all angles and losses cannot be enumerated.", "anchors": ["notebooks/tmm_core.py:coh_tmm", "notebooks/tmm_core.py:list_snell", "notebooks/tmm_core.py:interface_r", "notebooks/tmm_core.py:interface_t", "notebooks/tmm_core.py:is_forward_angle"]}
{"id": "C141", "title": "RCWA solver and transfer-matrix method agree on uniform layers", "statement": "For every accepted config with the RCWA solver, and every grid whose permittivities do not amplify, the reflectance and transmittance that compute_spectrum returns at a frequency equal those that coh_tmm returns at normal incidence, in either polarisation, for the same layers between the same media at the complex frequency f(1+i/200000) the solver works at, up to the damping of the front layer in which the solver's wave starts.", "quantifier": "for every config, lattice, number of orders and sorting, every number of layers and thicknesses, every grid and frequency, both polarisations", "why_tests_cant": "The comparison notebook plots two curves for one film; agreement for every stack and every number of orders is a theorem about two different algorithms.", "anchors": ["nidn/trcwa/compute_spectrum_trcwa.py:compute_spectrum_trcwa", "notebooks/tmm_core.py:coh_tmm", "notebooks/FDTD_RCWA_TMM_Comparison.ipynb:coh_tmm"]}
{"id": "C142", "title": "absorp_in_each_layer accounts for all the light", "statement": "The list that absorp_in_each_layer returns adds up to 1. For passive layers that are not opaque and light from a medium of real index it has one entry per layer, no entry is negative, the first is the reflectance, the last the transmittance, and layers without loss absorb nothing. So R and T are not negative and add up to at most 1, and to exactly 1 if no layer absorbs.", "quantifier": "for every number of layers, every thickness, every passive complex index, both polarisations, every angle and wavelength", "why_tests_cant": "Energy conservation over all stacks is a statement about infinitely many inputs; tests check it for single stacks to a tolerance.", "anchors": ["notebooks/tmm_core.py:absorp_in_each_layer", "notebooks/tmm_core.py:position_resolved", "notebooks/tmm_core.py:coh_tmm"]}
{"id": "C143", "title": "position_resolved returns a solution of Maxwell's equations through the whole stack", "statement": "After a successful coh_tmm, the fields that position_resolved returns fit together: at every interface Ex, Ey, n^2 Ez and the Poynting flow are the same on both sides; inside every layer the three components satisfy the wave equation with the layer's index and the field is free of divergence; and for real wavelengths the Poynting flow falls along the layer by exactly the local absorption that is returned with it.", "quantifier": "for every stack, thickness, complex index, both polarisations, every angle and wavelength, every layer, every interface and every place in the layers (layers that attenuate by more than exp(-35) are excluded at interfaces)", "why_tests_cant": "That the returned numbers solve differential equations everywhere is a statement about all places and all stacks; tests sample a few.", "anchors": ["notebooks/tmm_core.py:position_resolved", "notebooks/tmm_core.py:coh_tmm"]}
{"id": "C144", "title": "The analytic absorption function is the absorption in the layer", "statement": "For every layer but the first, absorp_analytic_fn().fill_in(coh_tmm_data, layer).run(z) is the absorption position_resolved returns at that place, and its integral over the layer is the layer's share in absorp_in_each_layer. flip() turns the function around front to back, scale(x) multiplies it by x, add(b) adds two functions with the same decay constants and raises ValueError for others, and copy() changes nothing.", "quantifier": "for every stack, layer, place and factor, and every two functions", "why_tests_cant": "Tests compare a few places numerically; that two formulas are one function, and what its integral is, concerns all places and all stacks.", "anchors": ["notebooks/tmm_core.py:absorp_analytic_fn", "notebooks/tmm_core.py:position_resolved", "notebooks/tmm_core.py:absorp_in_each_layer"]}
{"id": "C145", "title": "Places in a stack are found, and the power flow never grows along them", "statement": "find_in_structure rejects infinite layers; otherwise it returns the layer that holds the given distance and the distance into it, so that the layers before it and that distance add up to the place asked for (layer -1 in front of the stack). find_in_structure_with_inf does the same for stacks that coh_tmm accepts, in agreement with layer_starts, and position_resolved answers at the place it returns. Followed that way through a passive stack from left to right, the Poynting flow never increases: it is 1-R everywhere in front of the stack and T where the last medium begins.", "quantifier": "for every stack and every real distance, in front of, inside and behind it", "why_tests_cant": "Boundary cases (a distance exactly on an interface, layers of thickness 0, negative distances) and monotonicity over a continuum of places cannot be enumerated.", "anchors": ["notebooks/tmm_core.py:find_in_structure", "notebooks/tmm_core.py:find_in_structure_with_inf", "notebooks/tmm_core.py:layer_starts", "notebooks/tmm_core.py:position_resolved"]}
{"id": "C146", "title": "Turning a stack around keeps its transmittance", "statement": "If coh_tmm and coh_tmm_reverse both accept a stack, their transmitted amplitudes satisfy t_reverse n0 cos(th0) = t nN cos(thN), whatever the layers are. Between two media of real index the transmittances T are therefore equal, also when layers inside absorb (their reflectances may differ); if no layer absorbs, the reflectances are equal too and R + T = 1 from both sides. Stacks of passive layers between two real media in which the light travels are accepted from both sides.", "quantifier": "for every stack, thickness, complex inner index, both polarisations, every angle and wavelength", "why_tests_cant": "Reciprocity relates two different products of matrices for all stacks; tests compare a few numerically.", "anchors": ["notebooks/tmm_core.py:coh_tmm_reverse", "notebooks/tmm_core.py:coh_tmm", "notebooks/tmm_core.py:snell"]}
{"id": "C147", "title": "inc_group_layers sorts every layer into the right place", "statement": "inc_group_layers accepts exactly the lists of equal length whose first and last layer are incoherent and infinite and whose other entries are 'c' or 'i', and raises ValueError for other non-empty lists. Its tables are inverse to each other: all_from_inc lists the incoherent layers in order and inc_from_all undoes it; every maximal row of coherent layers becomes one stack which also holds the incoherent layer before and behind it, with their indices and with both outer thicknesses infinite; stack_from_inc and inc_from_stack name the stack in front of an incoherent layer and the layer in front of a stack.", "quantifier": "for every list of layers and every pattern of 'c' and 'i'", "why_tests_cant": "The tables are built by a loop with state; that they fit together for every pattern is an invariant, not a finite set of cases.", "anchors": ["notebooks/tmm_core.py:inc_group_layers"]}
{"id": "C148", "title": "Incoherent layers balance their intensities", "statement": "When inc_tmm accepts a stack, its R and T are the unique solution of the balance of intensities: one forward and one backward intensity in every incoherent layer, each link between neighbouring incoherent layers (a bare interface, or the whole coherent stack between them, from both sides) passes and reflects the intensities it receives, each incoherent layer weakens them by exp(-4 pi d Im(n cos th)/lam) (at least 1e-30), and one unit of light comes in from the front only. Hence the thickness of an incoherent layer without losses does not matter; a stack whose inner layers are all coherent gives the same R and T as coh_tmm; one incoherent layer gives R01 + T01 P^2 R12 T10/(1 - P^2 R10 R12) and T01 P T12/(1 - P^2 R10 R12). Every well-formed stack of passive layers with incoherent layers of real index, in which light travels, is accepted.", "quantifier": "for every number and pattern of coherent and incoherent layers, every index, thickness, angle and wavelength, both polarisations", "why_tests_cant": "The code multiplies a chain of 2x2 matrices; that the result solves the network of multiple reflections uniquely for every pattern is no finite check.", "anchors": ["notebooks/tmm_core.py:inc_tmm", "notebooks/tmm_core.py:inc_group_layers", "notebooks/tmm_core.py:coh_tmm", "notebooks/tmm_core.py:coh_tmm_reverse"]}
{"id": "C149", "title": "Energy is conserved between incoherent layers", "statement": "inc_absorp_in_each_layer gives one share of the light to every layer of the stack, in the order of the layers; the shares add up to exactly 1 and the last one is T. If no layer gains light, no share is negative, the first one is R, incoherent layers without losses absorb nothing, 0 <= R, 0 < T and R + T <= 1, with R + T = 1 when no layer has losses.", "quantifier": "for every stack that inc_tmm accepts, every pattern of coherent and incoherent layers", "why_tests_cant": "Bounds for all stacks; any finite sample of stacks misses the ones for which they fail.", "anchors": ["notebooks/tmm_core.py:inc_tmm", "notebooks/tmm_core.py:inc_absorp_in_each_layer", "notebooks/tmm_core.py:inc_group_layers"]}
{"id": "C150", "title": "Absorption inside coherent layers between incoherent ones", "statement": "inc_find_absorp_analytic_fn gives, for every coherent layer of a stack that inc_tmm accepted, a function of depth: what the light from the front and the light from behind lose there. Its integral over the layer is the layer's share in inc_absorp_in_each_layer. For incoherent layers it raises ValueError.", "quantifier": "for every accepted stack, every pattern of coherent and incoherent layers and every layer", "why_tests_cant": "The claim relates an integral to a sum over stacks for all stacks.", "anchors": ["notebooks/tmm_core.py:inc_find_absorp_analytic_fn", "notebooks/tmm_core.py:inc_absorp_in_each_layer", "notebooks/tmm_core.py:absorp_analytic_fn"]}
{"id": "C151", "title": "Forward angles and refraction", "statement": "is_forward_angle answers for every wave in a passive medium that light from a transparent medium can excite, and raises AssertionError in media with gain. Of a wave and the wave at the supplementary angle exactly one goes forwards, unless it runs along the surface (n cos(theta) without real part and with at most 100 EPSILON of imaginary part), which is never forward. snell follows Snell's law into every passive medium, returns a forward angle, and which wave (n cos(theta)) this is does not depend on the branch of the arcsine. Between transparent media n2 cos(theta2) is the positive root of n2^2 - n1^2 sin^2(theta1) below the critical angle, and beyond it i times the positive root of the opposite, a wave that decays.", "quantifier": "for every complex index and angle", "why_tests_cant": "Holds on a continuum of complex indices and angles; the exceptions are a set that random tests never hit.", "anchors": ["notebooks/tmm_core.py:is_forward_angle", "notebooks/tmm_core.py:snell"]}
{"id": "C152", "title": "At normal incidence the polarisation does not matter", "statement": "At normal incidence coh_tmm accepts a stack of passive layers for p polarisation if it does for s; both give the same transmitted amplitude, opposite reflected amplitudes and the same R, T and entering power. unpolarized_RT returns exactly these R and T, and ellips returns psi = pi/4 and Delta = 0 unless nothing is reflected.", "quantifier": "for every stack of any number of layers with indices of positive real and non-negative imaginary part, every thickness and wavelength", "why_tests_cant": "An equality of two matrix products for all stacks.", "anchors": ["notebooks/tmm_core.py:coh_tmm", "notebooks/tmm_core.py:unpolarized_RT", "notebooks/tmm_core.py:ellips"]}
{"id": "C153", "title": "The unit of length does not matter for the transfer-matrix module", "statement": "Thicknesses, positions and wavelength may be given in any unit: if all of them are multiplied by the same positive number, coh_tmm and inc_tmm accept the same stacks, raise the same errors, and give the same amplitudes, R, T and shares of absorption; wave numbers and absorption per length are divided by the number, and find_in_structure names the same layer and the scaled distance.", "quantifier": "for every stack, every angle, both polarisations, every wavelength and every positive factor", "why_tests_cant": "An equality between runs on a continuum of inputs and factors, including the runs that raise.", "anchors": ["notebooks/tmm_core.py:coh_tmm", "notebooks/tmm_core.py:inc_tmm", "notebooks/tmm_core.py:position_resolved", "notebooks/tmm_core.py:absorp_in_each_layer", "notebooks/tmm_core.py:find_in_structure"]}
{"id": "C154", "title": "Layers that change nothing in a coherent stack", "statement": "In coh_tmm a layer may be written as two layers of the same index with the same total thickness, without any effect on r, t, R, T and power_entering. A layer of thickness zero or of a whole number of half waves has no effect on R, T and power_entering. A layer of the substrate's material before the substrate leaves r and R unchanged and multiplies t by exp(i kz d); a layer of the first medium behind that medium multiplies r by exp(2 i kz d) and t by exp(i kz d).", "quantifier": "for every accepted stack of any number of layers, at any place in it, both polarisations, every angle and wavelength", "why_tests_cant": "Equalities between matrix products of different length for all stacks.", "anchors": ["notebooks/tmm_core.py:coh_tmm"]}
{"id": "C155", "title": "Unpolarised light and ellipsometry of coherent stacks", "statement": "unpolarized_RT returns the mean of the reflected and transmitted shares over all directions of linear polarisation; in a stack that amplifies nowhere both are at least 0 and add up to at most 1. ellips returns psi in [0, pi/2) and Delta in (-pi, pi] with rp = -rs tan(psi) exp(i Delta), and fails with NaN exactly when s light is not reflected at all. At one surface between transparent media: a result at every angle below the critical one and beyond it; at Brewster's angle R = 0 for p light and psi = 0; beyond the critical angle R = 1 in both polarisations and psi = pi/4.", "quantifier": "for every stack, every angle and wavelength at which both polarisations are accepted; for the surface: all positive indices and all angles", "why_tests_cant": "A mean over a continuum of polarisations and angular relations on a continuum of indices and angles.", "anchors": ["notebooks/tmm_core.py:unpolarized_RT", "notebooks/tmm_core.py:ellips", "notebooks/tmm_core.py:coh_tmm"]}
{"id": "C156", "title": "An accepted RCWA run of patterned layers is answered, physically", "statement": "Calling get_frequency_points and then compute_spectrum with an accepted config for the RCWA solver and a permittivity grid of the configured shape with several cells per layer returns one reflectance and one transmittance per frequency; they are not negative and add up to at most one. If each layer has one permittivity in all of its cells, they are the textbook thin-film values, the same as with one cell per layer, and number of cells, lattice and order count have no influence.", "quantifier": "for every accepted config with several cells per layer, every number of layers, cells and frequencies, all thicknesses, lattices, order counts and passive complex permittivities, and every choice of eigenvectors by the linear algebra library", "why_tests_cant": "The claim spans the whole call chain from raw config entries to spectra over unbounded grids; the cells, order counts and lattices for which the run ends in an exception form a number-theoretic condition no sample finds.", "anchors": ["nidn/utils/compute_spectrum.py:compute_spectrum", "nidn/trcwa/compute_spectrum_trcwa.py:compute_spectrum_trcwa", "nidn/trcwa/init_trcwa.py:_init_trcwa", "nidn/trcwa/get_frequency_points.py:get_frequency_points", "nidn/trcwa/trcwa.py:TRCWA", "nidn/trcwa/utils/fft_funs.py:get_conv", "nidn/utils/validate_config.py:_validate_config"]}
{"id": "C157", "title": "An accepted FDTD run ends in spectra or in a complaint about the recorded signals", "statement": "compute_spectrum with an accepted config for the FDTD solver and a permittivity grid of the configured shape returns one reflectance and one transmittance per frequency, none negative, or the error of the first frequency whose recorded signals give no answer: ValueError exactly when a free-space signal has a mean square of at most 1e-15, RuntimeError exactly when one of the four compared signals has exactly two windows left from where it sets in, NaN only when a free-space signal ends in a part whose largest sample is zero.", "quantifier": "for every accepted config with a line source inside the grid and at least one cell of PML, every number of layers, steps and frequencies, all positive wavelengths and thicknesses, all permittivities with positive real part; for the signals, all recordings of equal length", "why_tests_cant": "The claim spans the whole call chain from config to spectra over unbounded grids and run lengths; a test sees one run, and the lengths and signals for which the evaluation fails are isolated.", "anchors": ["nidn/fdtd_integration/compute_spectrum_fdtd.py:compute_spectrum_fdtd", "nidn/fdtd_integration/init_fdtd.py:init_fdtd", "nidn/fdtd_integration/calculate_transmission_reflection_coefficients.py:calculate_transmission_reflection_coefficients", "nidn/fdtd_integration/compute_fdtd_grid_scaling.py:_compute_fdtd_grid_scaling", "nidn/utils/validate_config.py:_validate_config"]}
{"id": "C158", "title": "Objects with a tensor material give every cell its own value", "statement": "Placing an Object or AbsorbingObject on a block of cells accepts permittivity and conductivity as numbers, as tensors with one value per cell, or with one value per cell and component. Every addressed cell then has the inverse of its own permittivity and the absorption of its own conductivity, other cells are unchanged, and tensors of another size are refused. The object can be placed again elsewhere.", "quantifier": "for every grid, block of cells, way of writing the location, tensor and material already present", "why_tests_cant": "Wrong alignment of axes, a shift by one cell or a swapped pair of axes shows only in values cell by cell of tensors without symmetry; the tests place objects with one number.", "anchors": ["nidn/fdtd/objects.py:Object", "nidn/fdtd/objects.py:AbsorbingObject", "nidn/fdtd/objects.py:AbsorbingObject._register_grid"]}
{"id": "C159", "title": "A training run is reproducible from its seed", "statement": "run_training seeds the generators of torch and numpy from the config before it draws the first number. Two runs with the same config show the same logs, weights and learning rate whatever else happened in the process before, more iterations only extend the logs, and the seed has no other effect than through start weights and noise. Running the same config again repeats the run.", "quantifier": "for every network, solver, optimiser, seed, number of iterations, noise setting and history of the process", "why_tests_cant": "A missing or late call of the seeding function does not show in a fresh process, where the first run starts from the same state anyway; tests run once per process.", "anchors": ["nidn/utils/fix_random_seeds.py:fix_random_seeds", "nidn/training/run_training.py:_init_training", "nidn/training/run_training.py:run_training"]}
{"id": "C160", "title": "Noise perturbs the permittivities around their values", "statement": "With add_noise every permittivity of a model is moved by centred random noise with the scale noise_scale relative to the configured range, stays within the range, and opposite random numbers cancel.", "quantifier": "for every config, model, cell and random number", "why_tests_cant": "A bias far below the size of the noise does not show in a test with a tolerance, and a test with a fixed seed records whatever the code does.", "anchors": ["nidn/training/model/model_to_eps_grid.py:_regression_model_to_eps_grid", "nidn/training/model/model_to_eps_grid.py:_classification_model_to_eps_grid"]}
{"id": "C161", "title": "A simulation can be run in pieces, and running longer only adds samples", "statement": "Calling Grid.run several times is the same as calling it once with the total: fields, boundaries, time and detector recordings agree. A longer run records what a shorter one records, followed by more, and raising FDTD_niter only extends the signals of the solver's detectors.", "quantifier": "for every grid with its sources, boundaries, objects and detectors, every number of steps and every duration", "why_tests_cant": "State that is initialised at the start of run instead of the start of the simulation is invisible to tests that call run once, and the tests compare no two runs of different length.", "anchors": ["nidn/fdtd/grid.py:Grid.run", "nidn/fdtd/grid.py:Grid.step", "nidn/fdtd_integration/compute_spectrum_fdtd.py:compute_spectrum_fdtd"]}
{"id": "C162", "title": "Orders that the structure does not couple to the incident light have no influence", "statement": "Reflectance and transmittance do not change when the same structure is described by a unit cell that repeats the true one, or when a grating of lines is given more pixels, another period or more orders along the lines, as long as the orders that the structure couples to the incident wave are the same: wherever the larger run has an answer, the smaller one has the same answer. Keeping only the number of orders is not enough: a grating that reflects 47.9 percent with two orders reflects nothing in a doubled cell with two orders.", "quantifier": "for every stack of uniform and patterned layers, every lattice, every number of repetitions, every list of orders, every angle of incidence, polarization and (complex) frequency", "why_tests_cant": "The tests run one cell size and one list of orders. Nothing compares two descriptions of the same structure, and mixing up orders of different groups only shows up in such comparisons.", "anchors": ["nidn/trcwa/trcwa.py:TRCWA.Init_Setup", "nidn/trcwa/trcwa.py:TRCWA.GetSMatrix", "nidn/trcwa/trcwa.py:TRCWA.RT_Solve", "nidn/trcwa/utils/fft_funs.py:get_conv", "nidn/trcwa/utils/kbloch.py:Lattice_SetKs"]}
{"id": "C163", "title": "The FDTD grid treats its axes alike", "statement": "Exchanging the axes of a simulation - cells, material, absorbing layers, periodic sides, sources and detectors - exchanges the axes of the result and changes nothing else: after any number of steps the electric field is the old one with exchanged axes, and so is the magnetic field, with the sign that an axial vector takes. For rotations this holds for all sources, for the exchange of two axes for sources that only drive the electric field (points and lines; on the exchanged grid the key with exchanged entries picks the same cells with the same profile). A plane source prescribes a magnetic field of a fixed sign next to the electric one, and the exchange of two axes changes its result.", "quantifier": "for every permutation of the axes, every grid size, material, list of absorbing layers and periodic sides, list of sources and detectors and every number of steps", "why_tests_cant": "The tests run one simulation along one axis. A sign, an axis or a slice that is wrong for one of the three axes only (there are separate classes and hand-written curl lines for each) is invisible there.", "anchors": ["nidn/fdtd/grid.py:curl_E", "nidn/fdtd/grid.py:curl_H", "nidn/fdtd/grid.py:Grid.update_E", "nidn/fdtd/grid.py:Grid.update_H", "nidn/fdtd/boundaries.py:PML", "nidn/fdtd/boundaries.py:PeriodicBoundary", "nidn/fdtd/sources.py:LineSource", "nidn/fdtd/sources.py:PointSource", "nidn/fdtd/detectors.py:LineDetector"]}
{"id": "C164", "title": "Only the ratios of the lengths to the wavelength matter to the FDTD spectra", "statement": "Multiplying every length of an FDTD configuration - thicknesses of the layers, of the free space and of the absorbing layers, source position, wavelength range - by one factor and dividing the smallest number of grid points per length by it gives exactly the same reflection and transmission spectra, or the same error, for continuous and Ricker sources; the configuration is left behind scaled in the same way. The Hanning pulse is the exception: it is sampled at a fixed 1e-15 s per step whatever the grid, so its signal changes with the scale.", "quantifier": "for every positive factor, every permittivity tensor and every configuration of the FDTD solver whose pulse is not the Hanning pulse", "why_tests_cant": "The tests compute one wavelength range in micrometres. A length that is forgotten in one formula, or a constant that silently assumes micrometres, only shows up when two different scales are compared.", "anchors": ["nidn/fdtd_integration/compute_spectrum_fdtd.py:compute_spectrum_fdtd", "nidn/fdtd_integration/init_fdtd.py:init_fdtd", "nidn/fdtd_integration/compute_fdtd_grid_scaling.py:_compute_fdtd_grid_scaling", "nidn/fdtd_integration/calculate_transmission_reflection_coefficients.py:calculate_transmission_reflection_coefficients", "nidn/fdtd/sources.py:LineSource", "nidn/fdtd/objects.py:AbsorbingObject"]}
{"id": "C165", "title": "Source and detector of an FDTD simulation can change places", "statement": "Feeding a signal into one field component of one cell and recording another component in another cell gives, at every time step, the same record as feeding the same signal into the second component and cell and recording the first - up to the ratio of (1 + absorption) times permittivity at the two places, so exactly the same in equal materials. What is compared is the field the source adds to a grid in any state and with any other point or line sources running. It holds with absorbing layers on any sides (also crossing in the corners), periodic boundaries on any axes and bare walls elsewhere, whatever the materials, as long as both places are outside the absorbing layers and border planes and nothing conducts inside an absorbing layer; extended sources work the same with the record summed over the other source's profile. The grids init_fdtd builds meet these conditions.", "quantifier": "for every grid size, material distribution, state, signal, pair of places and components, and number of steps", "why_tests_cant": "The tests look at single runs with one source and one detector. Reciprocity compares two runs and depends on all update rules at once: an absorbing layer whose electric and magnetic memories do not match, or a boundary that copies the wrong plane, breaks it without any single run looking wrong.", "anchors": ["nidn/fdtd/grid.py:Grid.update_E", "nidn/fdtd/grid.py:Grid.update_H", "nidn/fdtd/boundaries.py:PML", "nidn/fdtd/boundaries.py:PeriodicBoundary", "nidn/fdtd/sources.py:PointSource", "nidn/fdtd_integration/init_fdtd.py:init_fdtd"]}
{"id": "C166", "title": "A source acts the same whenever it is switched on, and records are convolutions", "statement": "What one more point or line source adds to the fields does not depend on the fields already there, on the memories of the absorbing layers, or on what the other sources (also a plane source, which overwrites) send. Starting the same signal m steps later leaves the run unchanged for m steps and afterwards adds exactly the same fields m steps later. What a source has added after k steps is therefore the sum of the responses to its single kicks, each as old as the kick: the record of a detector is the convolution of the signal with the response to one unit kick. Hence one run with a kick determines the records for all signals. It holds on every grid, with any materials, boundaries and clock.", "quantifier": "for every grid, state, signal, delay, number of steps and place of the detector", "why_tests_cant": "A test compares a few recorded numbers of one run. Independence of time and state compares every run with every other one, and a reset or a stale memory that shows only when a source starts late is not in any single record.", "anchors": ["nidn/fdtd/grid.py:Grid.step", "nidn/fdtd/grid.py:Grid.update_E", "nidn/fdtd/sources.py:PointSource", "nidn/fdtd/sources.py:LineSource", "nidn/fdtd/boundaries.py:PML"]}
{"id": "C167", "title": "The numpy stand-ins of the RCWA solver are the numpy functions", "statement": "torch_dot gives the product of two vectors, of a matrix and a vector, and of two matrices, with the data type numpy would choose; operands that do not fit raise an error and nothing is stretched or cut silently. torch_transpose reverses the order of the axes for any number of axes. torch_eye and torch_zeros are the unit matrix and the zero tensor, real or complex, in the precision of torch's default type. Products of double-precision tensors stay in double precision, so multiplying by the complex unit matrix changes nothing.", "quantifier": "for all tensors of any sizes and any mixture of data types", "why_tests_cant": "The tests run the solver as a whole, on square matrices of one data type. Which shapes and types are accepted and what comes out of mixed ones is a matter of all combinations.", "anchors": ["nidn/trcwa/utils/torch_functions.py:torch_dot", "nidn/trcwa/utils/torch_functions.py:torch_transpose", "nidn/trcwa/utils/torch_functions.py:torch_eye", "nidn/trcwa/utils/torch_functions.py:torch_zeros"]}
{"id": "C168", "title": "The recorded activations of a siren are those of its forward pass", "statement": "forward_with_activations returns the input, then for every sine layer the values before and after the sine and for every other module its output, in the order of the modules; no entry overwrites another, the last one is what the forward pass returns, and it fails exactly when the forward pass fails. A network with h hidden layers leaves 2h + 5 entries, whether its last layer is linear or a sine layer.", "quantifier": "for every number and size of layers, all weights, frequencies and inputs", "why_tests_cant": "Nothing in the tests calls it. That keys never collide depends on the numbering over all layers, and that values belong to the right layer on every position of the list.", "anchors": ["nidn/training/utils/siren.py:Siren.forward_with_activations", "nidn/training/utils/siren.py:SineLayer.forward_with_intermediate", "nidn/training/utils/siren.py:Siren.forward"]}
{"id": "C169", "title": "Quarter-wave stacks behave as mirrors and coatings should in both solvers", "statement": "At normal incidence a stack of lossless layers, each an odd number of quarter wavelengths thick, has the reflectance and transmittance of a bare surface whose index is obtained by replacing, from the back, Y with n^2/Y for every layer. coh_tmm returns exactly this in both polarisations, and the Fourier-modal solver returns it at a real frequency for every mixture of polarisations. Hence N pairs of a high and a low index reflect ((n0 nL^2N - ns nH^2N)/(n0 nL^2N + ns nH^2N))^2, every further pair on a substrate at least as dense as the front medium raises the reflectance, enough pairs bring it as close to 1 as one likes, and a coating reflects nothing exactly if the transformed index is that of the front medium.", "quantifier": "for all lists of layers, all positive indices, all wavelengths, all numbers of pairs", "why_tests_cant": "A test can evaluate single mirrors. The closed form, the monotony and the limit concern all numbers of layers and all indices.", "anchors": ["notebooks/tmm_core.py:coh_tmm", "nidn/trcwa/trcwa.py:TRCWA.RT_Solve"]}
{"id": "C170", "title": "Along a periodic direction the place does not matter", "statement": "On an axis with a periodic boundary, moving everything (sources, materials, detectors, fields) by the same number of cells around the ring changes nothing but the place: the fields agree at corresponding cells after every number of steps and the detectors record the same, with absorbing layers on the other axes or without. In particular a source and a detector can be moved together to any place of the ring, and fields never vary along a periodic axis along which nothing varies.", "quantifier": "for all grid sizes, materials, boundaries on the other axes, sources, detectors, displacements and numbers of steps", "why_tests_cant": "The tests use one geometry with a grid of three rows. That no place of the ring is special is a statement about all places, displacements and times.", "anchors": ["nidn/fdtd/boundaries.py:_PeriodicBoundaryY.update_E", "nidn/fdtd/boundaries.py:_PeriodicBoundaryY.update_H", "nidn/fdtd/grid.py:Grid.update_E", "nidn/fdtd/grid.py:Grid.update_H"]}
{"id": "C171", "title": "In a flat FDTD grid the two polarisations do not mix", "statement": "In a grid that is one cell thick along one axis (as all the grids the FDTD solver builds), with absorbing layers across the other axes and periodic boundaries as wanted, the out-of-plane electric field with its in-plane magnetic field evolves on its own, and so does the in-plane electric field with the out-of-plane magnetic one: fields of one polarisation after any number of steps depend only on that polarisation's own start, sources, material components and layers. A source for the out-of-plane field never produces any other component.", "quantifier": "for both polarisations, all flat axes, grid sizes, anisotropic materials and absorptions, boundaries, sources and numbers of steps", "why_tests_cant": "The tests record one component of one source. That another component can never appear, or matter, is a statement about all sources, materials and times.", "anchors": ["nidn/fdtd/grid.py:Grid.update_E", "nidn/fdtd/grid.py:Grid.update_H", "nidn/fdtd/grid.py:curl_E", "nidn/fdtd/grid.py:curl_H", "nidn/fdtd/boundaries.py:PML.update_phi_E", "nidn/fdtd/boundaries.py:PML.update_phi_H"]}
{"id": "C172", "title": "A mirrored simulation gives the mirrored fields", "statement": "If materials, sources and initial fields of an FDTD grid are mirrored across an axis, all fields afterwards are the mirrored ones, with the signs that electric and magnetic components have in a mirror (components along the mirror's axis of E and across it of H change their sign). In particular a source in a uniform surrounding sends the same field to both of its sides.", "quantifier": "for all grid sizes, materials, additive sources, mirror planes (on a plane of cells or midway between two) and numbers of steps", "why_tests_cant": "The tests look at one side of one source. That left and right are treated alike is a statement about all structures and all times, and a wrong offset of the staggered components or of the outermost cells would break it without any test noticing.", "anchors": ["nidn/fdtd/grid.py:curl_E", "nidn/fdtd/grid.py:curl_H", "nidn/fdtd/grid.py:Grid.update_E", "nidn/fdtd/grid.py:Grid.update_H", "nidn/fdtd/boundaries.py:_PeriodicBoundaryY.update_E", "nidn/fdtd/boundaries.py:_PeriodicBoundaryY.update_H"]}
{"id": "C173", "title": "Objects look the same from both sides", "statement": "An object in the FDTD grid is symmetric, as the code announces: placing an object at the mirrored slice gives the mirror image of the material, for all field components with their places on the staggered grid, so that light meets the same object from the left as from the right.", "quantifier": "for all grid sizes, axes, slices, permittivities and conductivities", "why_tests_cant": "The tests never compare the two sides of an object. Where each component of each border cell has to change is an off-by-one question for every slice and axis.", "anchors": ["nidn/fdtd/objects.py:Object._register_grid", "nidn/fdtd/objects.py:AbsorbingObject._register_grid", "nidn/fdtd/objects.py:Object._handle_slice"]}
{"id": "C174", "title": "A lossless FDTD simulation can be run backwards", "statement": "If nothing absorbs and no source is on, an FDTD run can be undone: change the sign of the magnetic field, call update_H once, and run on; the electric field then goes back through all its earlier states, step by step, and turning round once more gives the earlier magnetic field too. So no information is lost: two different states of the fields never become the same.", "quantifier": "for all grid sizes, all sets of periodic axes, all materials, all field states whose periodic seams agree, all numbers of steps forwards and backwards", "why_tests_cant": "The tests run short forward simulations of single cases. Reversibility needs every update and every boundary to have an exact inverse for all fields.", "anchors": ["nidn/fdtd/grid.py:Grid.step", "nidn/fdtd/grid.py:Grid.update_E", "nidn/fdtd/grid.py:Grid.update_H", "nidn/fdtd/boundaries.py:PeriodicBoundary"]}
{"id": "C175", "title": "A thick absorbing layer hides what is behind it", "statement": "Make one absorbing layer of a stack of homogeneous layers thicker and thicker in the RCWA solver. The solver keeps answering for every thickness (the growing exponentials of the layer never make it fail), the reflectance tends to that of the stack that simply ends in the absorbing material, whatever lies behind the layer, and the transmittance falls to zero by Beer's law: divided by exp(-2 w Im(c) d), where w c is the normal component of the wave vector in the layer, it tends to a finite limit.", "quantifier": "for all angles of incidence below 90 degrees, all mixtures of polarisations, all numbers of layers in front and behind with any passive permittivities and thicknesses, all substrates, all sets of orders that propagate in front", "why_tests_cant": "A limit over all thicknesses cannot be sampled, and the obvious failure (overflow or a singular matrix for a thick layer) shows only for thicknesses and stacks that the tests do not have.", "anchors": ["nidn/trcwa/trcwa.py:TRCWA.RT_Solve", "nidn/trcwa/trcwa.py:GetSMatrix"]}
{"id": "C176", "title": "Energy leaves a part of an FDTD grid only through its surface", "statement": "Take any box of cells of an FDTD grid that no boundary layer and no plane source writes to. From one step to the next the field energy in the box changes exactly by the power that flows through its six sides (E times H across the faces), by what its conductivity absorbs and by the work of the soft sources in it, whatever the rest of the grid contains. Over a run the balances add up; when the fields have become periodic in time, what flows out over a period is what the sources in the box supply less what is absorbed; a box without sources that does not amplify never gives out more energy than it had or received; and what leaves one box through a common side enters its neighbour.", "quantifier": "for all grid sizes, materials, conductivities, sources, boundaries outside the box, boxes, field states and numbers of steps", "why_tests_cant": "The tests compare single simulations with recorded numbers; an exact local balance for all boxes and all fields needs the two curls, the absorption and the time stepping to fit together cell by cell.", "anchors": ["nidn/fdtd/grid.py:Grid.update_E", "nidn/fdtd/grid.py:Grid.update_H", "nidn/fdtd/grid.py:curl_E", "nidn/fdtd/grid.py:curl_H"]}
{"id": "C177", "title": "The order in which parts are added to an FDTD grid does not matter", "statement": "Add boundaries, sources and detectors to an FDTD grid in any order: after any number of steps the fields are the same and every detector has recorded the same readings. This needs materials and sources that are the same on the first and last plane of each periodic axis, and plane sources that share no cell with another source (they overwrite, so there the last one added wins). Two objects without a common cell can also be placed in either order, unless one of them lies at the far end of the grid in line with the last plane of the other.", "quantifier": "for all grid sizes, materials, numbers and kinds of boundaries, sources and detectors, all permutations of them, all numbers of steps; for objects, all pairs of documented placements", "why_tests_cant": "The tests build each grid in one order. That no pair of parts interferes, with memory variables in the absorbing layers that depend on the whole past, cannot be seen from runs of a few permutations.", "anchors": ["nidn/fdtd/grid.py:Grid.update_E", "nidn/fdtd/grid.py:Grid.update_H", "nidn/fdtd/grid.py:Grid.add_source", "nidn/fdtd/grid.py:Grid.add_boundary", "nidn/fdtd/grid.py:Grid.add_detector", "nidn/fdtd/grid.py:Grid.add_object", "nidn/fdtd/objects.py:Object._register_grid"]}
{"id": "C178", "title": "The gradients of the FDTD spectra exist", "statement": "Training differentiates the FDTD spectra by the permittivities. In any FDTD grid the fields after any number of steps are smooth functions (of every differentiability class, even analytic) of permittivities, permeabilities and absorptions that depend smoothly on parameters, as long as no absorption factor is -1. Every sample of both detectors of a NIDN simulation is such a function of the layer permittivities, wherever the simulation runs and the permittivities have positive real and non-negative imaginary parts, and the simulation then also runs for all nearby stacks. The transmittance and reflectance computed from the signals are smooth where no comparison made on the way is tied: no two neighbouring samples of the kept signal are equal, no sample sits at the threshold of the transient test, no sum of coefficients is exactly 1 or 1.05. At a tie the transmittance jumps.", "quantifier": "for all configurations, geometries, sources, wavelengths, numbers of layers and steps, all smooth dependences on any number of parameters", "why_tests_cant": "Automatic differentiation always returns some number; a test cannot see whether it is the derivative of a function that has one, at every permittivity and after every number of steps.", "anchors": ["nidn/fdtd_integration/compute_spectrum_fdtd.py:compute_spectrum_fdtd", "nidn/fdtd_integration/init_fdtd.py:init_fdtd", "nidn/fdtd_integration/calculate_transmission_reflection_coefficients.py:calculate_transmission_reflection_coefficients", "nidn/fdtd/grid.py:Grid.update_E", "nidn/fdtd/grid.py:Grid.update_H", "nidn/fdtd/objects.py:AbsorbingObject._register_grid"]}
{"id": "C179", "title": "FDTD simulations converge to Maxwell's equations", "statement": "For every three times continuously differentiable solution of Maxwell's equations in a medium whose permittivity, permeability and conductivity may vary in space (diagonal tensors), that is periodic along some axes and constant along the others, the fields of a grid with periodic boundaries and without sources that starts from the samples of the solution stay close to it: the root mean square error over the cells is at most C s^2 at every step up to a given time, where s is the grid spacing and C does not depend on s, the Courant number or the number of cells, as long as the Courant number stays below the stability limit by a fixed margin. The error of every single component of every cell is at most C sqrt(s), so all values converge when the grid is refined.", "quantifier": "for all solutions, media, periodic axes and periods, grid spacings, Courant numbers below the limit, numbers of cells and steps", "why_tests_cant": "A test compares a few grids with one known solution; convergence is a statement about all refinements, all solutions and all media, and a scheme that is wrong by one term of lower order passes on every fixed grid with a suitable tolerance.", "anchors": ["nidn/fdtd/grid.py:Grid.update_E", "nidn/fdtd/grid.py:Grid.update_H", "nidn/fdtd/grid.py:curl_E", "nidn/fdtd/grid.py:curl_H", "nidn/fdtd/boundaries.py:_PeriodicBoundaryX.update_E", "nidn/fdtd/boundaries.py:_PeriodicBoundaryX.update_H"]}
{"id": "C180", "title": "FDTD simulations settle", "statement": "A simulation between absorbing layers forgets its start and settles into an oscillation. For a row of cells between two absorbing layers (the lower one of at least two cells, Courant number below 1, relative permittivities and permeabilities between 1 and a bound, any conductivity outside the layers) there is a rate rho < 1 that depends on the grid alone: if what the sources of two simulations add differs by an oscillation of omega radians per step from some step on, the difference of their fields across the row tends to an oscillation of omega radians per step with an error of at most C rho^k after k steps, and this oscillation depends on omega and the drive only; if the sources no longer differ, the fields become equal like rho^k. The same holds for the fields summed across a grid that is periodic across the row, and so for every simulation that init_fdtd sets up with a line source between the absorbing layers and lossy or lossless layers of real part at least one: compared with the same grid without its source, the fields summed across settle into an oscillation with the period of the source, rounded to whole steps, or vanish after a pulse. The amplitudes of the settled state obey the film formulas: if no wave comes from behind the stack, its reflectance and transmittance are those of the films that the grid makes of the configured layers.", "quantifier": "for all grids, media, layer thicknesses, initial fields, source signals, frequencies and step counts within the stated hypotheses", "why_tests_cant": "That a simulation settles is a statement about infinitely many steps; the existence of a rate below one for every medium rules out trapped modes, which a test only meets if it happens to excite them and waits long enough.", "anchors": ["nidn/fdtd/grid.py:Grid.step", "nidn/fdtd/grid.py:Grid.update_E", "nidn/fdtd/grid.py:Grid.update_H", "nidn/fdtd/boundaries.py:PML.update_phi_E", "nidn/fdtd/boundaries.py:PML.update_phi_H", "nidn/fdtd/boundaries.py:PML.update_E", "nidn/fdtd/boundaries.py:PML.update_H", "nidn/fdtd_integration/init_fdtd.py:init_fdtd"]}
{"id": "C181", "title": "A grid tells its size and the time that has passed", "statement": "The properties x, y and z of an FDTD grid are its numbers of cells times the spacing; each is the requested length up to half a cell, and exactly that length if it is a whole number of cells. Building a grid from the shape or from the extents of another one gives the same grid. Every place between 0 and the extent lies in one of the cells. time_passed is the number of steps since the last reset times the time step, whatever was done with the grid: a step adds one time step, a run of n steps adds n, a run of t seconds adds at most t and lacks less than one step, and converting time_passed back gives the number of steps.", "quantifier": "for every requested shape of integers and floats, spacing, Courant number, place, and every sequence of runs, steps and resets", "why_tests_cant": "No test reads these properties; round trips and rounding errors range over a continuum of lengths.", "anchors": ["nidn/fdtd/grid.py:Grid.x", "nidn/fdtd/grid.py:Grid.y", "nidn/fdtd/grid.py:Grid.z", "nidn/fdtd/grid.py:Grid.shape", "nidn/fdtd/grid.py:Grid.time_passed", "nidn/fdtd/grid.py:Grid.run", "nidn/fdtd/grid.py:Grid.reset", "nidn/fdtd/grid.py:Grid._handle_distance"]}
{"id": "C182", "title": "FDTD simulations converge in layered media", "statement": "In a closed periodic box without source and absorbing layers: for every solution of Maxwell's equations in a medium of layers stacked along the first axis, whose materials jump at the faces of the layers, that is smooth in every layer and whose tangential components agree at the faces, the fields of every grid that starts from the samples of the solution stay close to it: the mean square over the cells of the errors of all components is at most C s at every step up to a given time, where s is the grid spacing and C does not depend on s, the Courant number, the number of cells or where in the cells the faces lie, as long as the Courant number stays below the stability limit by a fixed margin.", "quantifier": "for all layered solutions, layer thicknesses, media, periodic axes and periods, grid spacings, Courant numbers below the limit, numbers of cells and steps", "why_tests_cant": "At a face of two layers the scheme is wrong by a term that does not shrink with the cells; that the mean error shrinks nevertheless is a statement about all refinements and all positions of the faces, of which a test sees a few.", "anchors": ["nidn/fdtd/grid.py:Grid.update_E", "nidn/fdtd/grid.py:Grid.update_H", "nidn/fdtd/grid.py:curl_E", "nidn/fdtd/grid.py:curl_H", "nidn/fdtd/boundaries.py:_PeriodicBoundaryX.update_E", "nidn/fdtd/boundaries.py:_PeriodicBoundaryX.update_H"]}
{"id": "C183", "title": "FDTD simulations with sources converge", "statement": "In a closed periodic box: for every solution of Maxwell's equations in a medium of layers stacked along the first axis (materials may jump at the faces) that is driven by surface currents flowing in some of the faces, where the tangential magnetic field jumps by the current, the fields of every grid that starts from the samples of the solution and whose soft sources (line and point sources, which add a value to the electric field of their cells in every step) add what the current adds to a cell stay close to the solution: the mean square over the cells of the errors of all components is at most C s at every step up to a given time, where s is the grid spacing and C does not depend on s, the Courant number or the number of cells, as long as the Courant number stays below the stability limit by a fixed margin. Taking the source at the beginning of a step instead of at its middle, as the code does, does no harm.", "quantifier": "for all layered solutions and surface currents, media, periodic axes and periods, grid spacings, Courant numbers below the limit, numbers of cells and steps", "why_tests_cant": "A soft source makes the fields jump over one cell, an error that does not shrink with the cells; that the fields converge nevertheless to those of a sheet of current, and to which current, is a statement about all refinements.", "anchors": ["nidn/fdtd/grid.py:Grid.update_E", "nidn/fdtd/grid.py:Grid.update_H", "nidn/fdtd/grid.py:curl_E", "nidn/fdtd/grid.py:curl_H", "nidn/fdtd/sources.py:LineSource.update_E", "nidn/fdtd/boundaries.py:_PeriodicBoundaryX.update_E", "nidn/fdtd/boundaries.py:_PeriodicBoundaryX.update_H"]}
{"id": "C184", "title": "FDTD validation warns about exactly the layers the grid cannot represent", "statement": "For every FDTD config with positive lengths: validation warns about a layer exactly if the thickness the simulation gives it (its cells times the cell size) is not the specified one, and it is silent exactly if every layer is simulated with the specified thickness (also if one thickness is given for all layers). The thickness the warning names is the one the layer is simulated with.", "quantifier": "for all configs, scalings, lengths and numbers of layers", "why_tests_cant": "The warning and the simulation cut positions to cells in two separate pieces of code, one layer by layer and one cumulatively; that they agree on which layers are inexact for all lengths is a statement about floors of sums, and a test with one layer or whole cells cannot see where the named values differ.", "anchors": ["nidn/utils/validate_config.py:_check_grid_scale", "nidn/fdtd_integration/init_fdtd.py:init_fdtd"]}
{"id": "C185", "title": "The convolution matrix multiplies fields by the pattern", "statement": "For every pattern, order set and vector of amplitudes for which get_conv and get_fft succeed: the convolution matrix applied to the amplitudes of a field gives the amplitudes, at the same orders, of the pattern times the field. get_fft returns Fourier coefficients: it recovers the amplitudes of a field from its samples, with as many orders as pixels its amplitudes give back the pattern exactly, and with fewer orders no other amplitudes come closer to the pattern in the mean square. An order outside the grid is an IndexError.", "quantifier": "for all grid sizes, patterns, sets of distinct orders whose differences the grid resolves, and amplitudes", "why_tests_cant": "Sign, normalisation and wrap-around of the two index expressions have to fit for all orders; a mistake cancels for symmetric patterns and for few orders. That the coefficients are optimal compares with infinitely many other choices.", "anchors": ["nidn/trcwa/utils/fft_funs.py:get_fft", "nidn/trcwa/utils/fft_funs.py:get_conv"]}
{"id": "C186", "title": "With oversampling the RCWA solver sees the pixels of a pattern", "statement": "Repeating every cell of a pattern r times along both lateral axes (eps_oversampling) makes its Fourier coefficients, and the entries of the convolution matrix built from it, those of the image in which each cell is a pixel of constant permittivity, up to an error of at most 2 pi M (|d1|/Nx + |d2|/Ny) / r at order (d1, d2), where M bounds the permittivities and Nx, Ny count the cells before repeating. In the limit of large r they are exactly those of the image.", "quantifier": "for all patterns, cell numbers, oversampling factors, orders and bounds", "why_tests_cant": "The coefficients of the image are integrals that the program never computes; that the sampled ones approach them at a definite rate for all patterns and orders cannot be seen from finitely many runs.", "anchors": ["nidn/training/model/model_to_eps_grid.py:_regression_model_to_eps_grid", "nidn/training/model/model_to_eps_grid.py:_classification_model_to_eps_grid", "nidn/trcwa/utils/fft_funs.py:get_conv"]}
{"id": "C188", "title": "The impedance of a node is the ratio of its voltage and current spectra", "statement": "Asking for the impedance of a node with a voltage and a current record should return the frequencies and the quotient of the two spectra. In the code the request returns only before the first time step, and then two empty lists; after that it raises for every node, record, time step and request.", "quantifier": "for all numbers of steps, nodes, records, time steps, windows and requests, and every behaviour of reshape, the Fourier transform and the division", "why_tests_cant": "A test can show that one request raises; that no request at all can succeed, whatever the records, is a statement about every input.", "anchors": ["nidn/fdtd/fourier.py:impedance"]}
{"id": "C190", "title": "More orders and larger permittivities move the matrices of a layer in one direction", "statement": "For lossless patterns of positive permittivities: raising the permittivity of pixels never lowers the mean permittivity x* C x and never raises the mean inverse permittivity x* epinv x that a field of the orders sees. Adding orders keeps the convolution matrix of the fewer orders as a part of the new one, and the mean inverse permittivity seen through the fewer orders is at most the one seen through more, so it climbs monotonically towards its limit.", "quantifier": "for all grid sizes, pairs of ordered patterns, nested order sets and fields", "why_tests_cant": "Monotonicity in the matrix order is a statement about every field at once; a fault in the indexing changes it only for some fields, patterns and order sets.", "anchors": ["nidn/trcwa/utils/fft_funs.py:Epsilon_fft", "nidn/trcwa/utils/fft_funs.py:get_conv"]}
{"id": "C189", "title": "The inverse permittivity of a patterned layer lies between the inverse of the mean and the mean of the inverse", "statement": "For a pattern of positive permittivities, distinct orders and a grid that resolves them, Epsilon_fft answers, and for every field of these orders the mean of the inverse permittivity matrix it returns is real, at least the inverse of the mean permittivity and at most the mean of the inverse permittivities. It therefore stays between 1/(largest permittivity) and 1/(smallest permittivity). With as many orders as pixels (and permittivities that are only nonzero, also lossy) the matrix is exactly the convolution matrix of the inverse pattern, so nothing is lost by truncation then. For lossy patterns the inverse permittivity amplifies for no field. For anisotropic patterns the matrix is that of the third pattern.", "quantifier": "for all grid sizes, patterns, order sets and fields", "why_tests_cant": "The bounds hold with room to spare for most patterns and fields, so samples cannot tell a matrix that obeys them from one that breaks them at some truncation; the proof is a Jensen inequality for all of them.", "anchors": ["nidn/trcwa/utils/fft_funs.py:Epsilon_fft", "nidn/trcwa/utils/fft_funs.py:get_conv"]}
{"id": "C191", "title": "A pattern that the diffraction orders cannot see acts as a uniform layer of its mean permittivity", "statement": "If no pattern of a structure has a Fourier component between any two of the diffraction orders kept, the RCWA solver answers for the structure exactly what it answers (or refuses) for the structure with every pattern replaced by its mean permittivity, for every frequency, angle, polarisation and choice of eigenvectors. In particular a run with a single order sees nothing of any pattern but its mean, and a pattern of one permittivity is a uniform layer.", "quantifier": "for all grid sizes, patterns, order sets without components between them, stacks, frequencies, incident and outgoing waves and eigenvector choices", "why_tests_cant": "The patterned and the uniform branch of the solver are different code with an eigen-decomposition in between that is free to return any basis; agreement for every pattern, stack and basis is out of reach of samples.", "anchors": ["nidn/trcwa/utils/fft_funs.py:Epsilon_fft", "nidn/trcwa/trcwa.py:SolveLayerEigensystem", "nidn/trcwa/trcwa.py:SolveLayerEigensystem_uniform", "nidn/trcwa/trcwa.py:MakeKPMatrix"]}
{"id": "C192", "title": "Patterns that are close have permittivity matrices that are close", "statement": "If two patterns differ by at most delta in every pixel, the matrices that Epsilon_fft computes for them should differ by at most a fixed multiple of delta in their effect on any field, so that small changes of a design or of a material change the input of the eigen-solver little. This holds for the convolution matrices (factor 1) and, for permittivities beyond a line at distance lo from zero, for the inverse permittivity (factor 1/(lo lo')), which enlarges no field by more than 1/lo. It fails for the second matrix returned.", "quantifier": "for all grid sizes, pairs of patterns, order sets and fields; for every delta > 0 in the counterexample", "why_tests_cant": "Continuity relates all pairs of patterns at all distances; the jump of the filter happens on a threshold of 1e-14 that samples do not hit.", "anchors": ["nidn/trcwa/utils/fft_funs.py:Epsilon_fft", "nidn/trcwa/utils/fft_funs.py:get_conv"]}
{"id": "C187", "title": "The permittivities a patterned layer works with lie between those of its pattern", "statement": "For every pattern and every set of distinct orders for which get_conv succeeds: the mean permittivity that any field of these orders sees (x* C x for a unit vector x) and every eigenvalue of the convolution matrix C lie in the convex hull of the permittivities of the pattern. For a lossless pattern the eigenvalues are real and lie between the smallest and the largest permittivity, for a passive one they have no negative imaginary part. Truncating the orders therefore never makes up a material more extreme than those in the pattern. With as many orders as pixels the eigenvalues are exactly the permittivities of the pattern.", "quantifier": "for all grid sizes, patterns, order sets, unit vectors and eigenvalues", "why_tests_cant": "The hull contains all mixtures; a matrix built with a wrong sign or a missing wrap-around still has eigenvalues inside it for many patterns, and only a proof covers all patterns and truncations.", "anchors": ["nidn/trcwa/utils/fft_funs.py:get_conv"]}
{"id": "C194", "title": "Setting the log level decides which messages of the package are shown", "statement": "set_log_level with one of the seven documented names, in any mix of cases, should make every later message of the package that ranks at least as high be shown once, and no other; a name that is refused should leave the earlier setting alone; and importing the package should not affect the messages of the program around it. The first holds, only the last call counts, and after the import warnings and errors of the package are shown. The second and third fail.", "quantifier": "for all names, upper-casing functions, earlier handlers, messages, levels and sending modules", "why_tests_cant": "The claims concern every set of earlier handlers and every message; tests do not look at what is shown after a refused call or at messages of other modules.", "anchors": ["nidn/utils/set_log_level.py:set_log_level"]}
{"id": "C195", "title": "A smooth design gives the same spectra on every grid that is fine enough for it", "statement": "A permittivity with finitely many Fourier components that is sampled on a grid gives the solver exactly these components, hence the same matrices and the same reflectance and transmittance, on every grid with more samples along each axis than the components are away from the differences of the orders, so refining the grid of such a design changes nothing. Every grid that get_conv accepts for the orders should do; this fails.", "quantifier": "for all finite sets of components and amplitudes, pairs of grids, order sets, structures of such layers, frequencies, wave vectors, polarisations and choices of eigenvectors", "why_tests_cant": "Equality of the results on all grids, for all designs and whatever the eigen-solver returns, is no finite set of cases.", "anchors": ["nidn/trcwa/utils/fft_funs.py:get_conv", "nidn/trcwa/utils/fft_funs.py:Epsilon_fft"]}
{"id": "C193", "title": "Oversampling changes Fourier coefficients by fixed factors and removes aliases", "statement": "Repeating every cell of a design r times in x and y (eps_oversampling) multiplies the Fourier coefficient of each order by a factor that depends on the order, the number of cells and r only, not on the pattern; no coefficient is enlarged, the mean permittivity is kept, and between orders whose differences are below the number of cells nothing is lost: designs that are told apart without repeating are told apart with it. Without repeating, an order that runs through a whole number of periods per cell shows the solver the coefficient of another order, for instance the mean permittivity; with repeating, the matrix entries between orders so far apart are zero, unless the repeated grid cannot resolve them either.", "quantifier": "for all patterns, numbers of cells in x and y, repetition factors, order sets and pairs of orders", "why_tests_cant": "The factor is claimed to be the same for every pattern, and the aliases concern every order that is a multiple of the number of cells.", "anchors": ["nidn/training/model/model_to_eps_grid.py:_regression_model_to_eps_grid", "nidn/training/model/model_to_eps_grid.py:_classification_model_to_eps_grid", "nidn/trcwa/utils/fft_funs.py:get_conv"]}
{"id": "C196", "title": "Designs with more pixels than pairs of orders are not determined by any spectrum", "statement": "Adding a wave to a design whose order is, up to the periods of the grid, not a difference of two orders of the solver leaves the matrices of the layer, and with them reflectance and transmittance of every structure, as they are. Such waves exist whenever the number of pixels exceeds the square of the number of orders; then every real design has other real designs, arbitrarily close to it and arbitrarily far from it, that no run at any frequency can tell from it. Oversampling the cells does not help. If there is no such wave, patterns with the same convolution matrix are equal.", "quantifier": "for all grids, order sets, designs, waves and amplitudes, oversampling factors, structures, frequencies, wave vectors, polarisations and choices of eigenvectors", "why_tests_cant": "Existence of indistinguishable designs for every design and equality of all their spectra cannot be sampled.", "anchors": ["nidn/trcwa/utils/fft_funs.py:Epsilon_fft", "nidn/trcwa/utils/fft_funs.py:get_conv", "nidn/training/model/model_to_eps_grid.py:_regression_model_to_eps_grid"]}
{"id": "C197", "title": "The type of a run decides how its model becomes a permittivity grid", "statement": "model_to_eps_grid should convert the model by the conversion that the type of the run names, return material weights exactly for a classification, and reject every other type. For every accepted config it does the first two, and fails only as that conversion fails. Types that are neither are not rejected: nothing is returned, and the plots, which do not validate the config, end in a TypeError.", "quantifier": "for all configs, accepted or not, and all outcomes of the two conversions", "why_tests_cant": "The tests set one of the two types; what happens for every other value, and that the conversion not named is irrelevant, are statements about all configs.", "anchors": ["nidn/training/model/model_to_eps_grid.py:model_to_eps_grid"]}
