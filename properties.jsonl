{"id": "C01", "title": "Flat and 2-D cell indices are inverse to each other", "statement": "For a domain of L rows and W columns, turning a valid (row, column) into a flat index and back returns the same pair, turning a valid flat index into (row, column) and back returns the same index, results are always inside the domain, and an index outside the domain is rejected with an error.", "quantifier": "every domain shape L,W >= 1 and every integer index or pair of indices", "why_tests_cant": "tests sample a few shapes; the round trip and the exact acceptance boundary range over all integers", "anchors": ["pyDeltaRCM/shared_tools.py: custom_unravel, custom_ravel"]}
{"id": "C02", "title": "Stepping a flat index equals stepping in two dimensions", "statement": "Moving a water parcel by adding the flat offset of one of the eight directions gives exactly the flat index of the neighbouring cell in that direction whenever the neighbour is inside the domain; the move can only alias to another cell when the neighbour is outside the domain.", "quantifier": "every domain shape, every cell, every direction", "why_tests_cant": "the aliasing across row ends only shows for border cells of particular widths", "anchors": ["pyDeltaRCM/water_tools.py: _calculate_new_inds", "pyDeltaRCM/init_tools.py: set_constants (ravel_walk)"]}
{"id": "C03", "title": "Every cell sees nine neighbours, with the domain edge repeated", "statement": "The 3x3 neighbourhood used for routing at any cell, including corners and borders, contains at each position the value of the nearest in-domain cell to the true neighbour (edge padding), so interior neighbours are exact and border neighbours repeat the edge value.", "quantifier": "every array of any shape with L,W >= 1, every cell, every neighbour position", "why_tests_cant": "unit tests compare with numpy on one array", "anchors": ["pyDeltaRCM/shared_tools.py: custom_pad", "pyDeltaRCM/water_tools.py: _get_water_weight_array", "pyDeltaRCM/sed_tools.py: BaseRouter._choose_next_location"]}
{"id": "C04", "title": "Weighted random choice is exact", "statement": "A weighted choice always returns a valid position with strictly positive weight, and position i is returned exactly for the draws in an interval whose length is the weight of i (so choice probabilities equal weights).", "quantifier": "every non-negative weight list with positive sum, every uniform draw", "why_tests_cant": "statistical tests cannot exclude rare boundary draws that choose a zero-weight (forbidden) direction", "anchors": ["pyDeltaRCM/shared_tools.py: random_pick, get_random_uniform"]}
{"id": "C05", "title": "Parcels start only at inlet cells, and in the requested number", "statement": "The list of start cells has exactly the requested number of entries and each one is an inlet cell with positive inlet weight.", "quantifier": "every inlet, every non-negative weights with positive sum, every requested number, every draw sequence", "why_tests_cant": "random process over arbitrary inlets and draws", "anchors": ["pyDeltaRCM/shared_tools.py: get_start_indices, get_inlet_weights", "pyDeltaRCM/water_tools.py: run_water_iteration", "pyDeltaRCM/sed_tools.py: route_all_sand_parcels, route_all_mud_parcels"]}
{"id": "C06", "title": "Water routing weights form a probability distribution", "statement": "For each cell the nine water routing weights are non-negative and sum to one, at land cells they may all be zero instead; the computation never reports an error for a non-land cell with gamma between 0 and 1.", "quantifier": "all stage, discharge, depth, cell-type neighbourhoods, all gamma in [0,1], theta", "why_tests_cant": "infinitely many neighbourhood configurations with three fall-back branches", "anchors": ["pyDeltaRCM/water_tools.py: _get_weight_at_cell_water", "pyDeltaRCM/shared_tools.py: get_weight_sfc_int"]}
{"id": "C07", "title": "Water never prefers land, and never dry ground while a wet way exists", "statement": "A water parcel has zero probability of stepping into a land cell, and zero probability of staying in place or of stepping into a dry cell whenever any admissible wet neighbour exists.", "quantifier": "all neighbourhoods and parameters", "why_tests_cant": "needs all branches of the weighting, including fall-backs", "anchors": ["pyDeltaRCM/water_tools.py: _get_weight_at_cell_water"]}
{"id": "C08", "title": "Sediment routing weights form a distribution over legal moves", "statement": "For each location the sediment routing weights are non-negative, sum to one, are zero for land cells and for staying in place, and are positive for a dry cell only if no wet non-land neighbour has positive flow weight; an error is raised exactly when all eight neighbours are land.", "quantifier": "all neighbourhoods and parameters", "why_tests_cant": "infinitely many neighbourhood configurations and a fall-back branch", "anchors": ["pyDeltaRCM/sed_tools.py: _get_weight_at_cell_sediment"]}
{"id": "C09", "title": "Parcels never leave through the upstream (inlet) boundary", "statement": "A parcel in the first row of the domain has zero probability of stepping upstream out of the domain.", "quantifier": "all neighbourhoods of first-row cells, water and sediment", "why_tests_cant": "requires reasoning about every stage/depth configuration along the inlet row", "anchors": ["pyDeltaRCM/water_tools.py: _get_weight_at_cell_water", "pyDeltaRCM/sed_tools.py: _get_weight_at_cell_sediment, BaseRouter._choose_next_location"]}
{"id": "C10", "title": "Water parcels stay on domain cells", "statement": "Every position recorded for a water parcel is a cell of the domain, and consecutive positions of a parcel that did not loop are neighbouring cells.", "quantifier": "every domain, every field state, every draw sequence, every number of steps", "why_tests_cant": "needs an invariant over arbitrarily long random walks", "anchors": ["pyDeltaRCM/water_tools.py: run_water_iteration, _calculate_new_inds, _choose_next_directions"]}
{"id": "C11", "title": "Water routing always terminates and finished parcels stay finished", "statement": "One water iteration takes at most stepmax steps; a parcel that reached the domain edge is never moved or recorded again; routing stops as soon as no parcel is active.", "quantifier": "every number of parcels, stepmax, field state, draw sequence", "why_tests_cant": "termination and stability are statements about all schedules of random steps", "anchors": ["pyDeltaRCM/water_tools.py: run_water_iteration, check_for_boundary"]}
{"id": "C12", "title": "The path record never overflows", "statement": "The storage for parcel paths is enlarged in time: every step written lies inside the storage, without losing earlier steps.", "quantifier": "every stepmax and every number of steps across any number of iterations", "why_tests_cant": "overflow depends on arithmetic relations between stepmax and growth, for all values", "anchors": ["pyDeltaRCM/water_tools.py: check_size_of_indices_matrix", "pyDeltaRCM/init_tools.py: create_boundary_conditions, create_domain"]}
{"id": "C13", "title": "Loop handling only touches looping parcels and keeps them in the domain", "statement": "A parcel is relocated if and only if its new cell was already visited beyond the inlet rows after more than L0 steps; a relocated parcel lands beyond the inlet rows and at least one cell away from the domain edges; a parcel is excluded from the free surface if and only if it loops where the stage differs from sea level by at least 0.1 m.", "quantifier": "every walk history, step number, inlet length, domain and stage field", "why_tests_cant": "needs all histories and both clamps", "anchors": ["pyDeltaRCM/water_tools.py: _check_for_loops"]}
{"id": "C14", "title": "Water discharge accounting is exact", "statement": "After routing, the total of the unit discharge increments over the domain equals half a parcel discharge for every departure and every arrival, plus half for every arrival at the edge and for every cell in which parcels start; cell by cell the increments are exactly those of the moves leaving and entering that cell.", "quantifier": "every set of walks, number of parcels and steps", "why_tests_cant": "a sum over arbitrary walks with repeated indices (where vectorised increments can lose updates)", "anchors": ["pyDeltaRCM/water_tools.py: update_Q, _update_absQfield, _update_dirQfield, run_water_iteration"]}
{"id": "C15", "title": "Only unlooped parcels that reached the ocean edge shape the water surface", "statement": "A parcel contributes to the water surface if and only if it ended at an edge cell and was not disqualified; the number of visits counted equals the number of path cells before the last of contributing parcels; each contributed elevation differs from sea level by at most the reference slope times the path length.", "quantifier": "every set of walks, flags and velocity fields", "why_tests_cant": "back-walk accumulation over arbitrary paths", "anchors": ["pyDeltaRCM/water_tools.py: _accumulate_free_surface_walks"]}
{"id": "C16", "title": "The computed free surface is never below sea level nor below the bed", "statement": "The water surface used before smoothing is at least the sea level and at least the bed elevation in every cell.", "quantifier": "every bed, depth, accumulated surface, sea level", "why_tests_cant": "must hold for all fields", "anchors": ["pyDeltaRCM/water_tools.py: compute_free_surface"]}
{"id": "C17", "title": "Smoothing the water surface creates no new extremes", "statement": "Smoothing with coefficient in [0,1] keeps every value between the minimum and maximum of the input surface, keeps a flat surface flat, and leaves edge cells unchanged, for any number of passes.", "quantifier": "every surface, cell types, number of passes, coefficient in [0,1]", "why_tests_cant": "induction over passes and all fields", "anchors": ["pyDeltaRCM/water_tools.py: _smooth_free_surface"]}
{"id": "C18", "title": "Flooding correction only floods dry shore cells, to the level of a wet neighbour", "statement": "The correction changes the stage only at dry cells that have a wet neighbour with stage above their bed; the new stage equals the highest wet-neighbour stage and exceeds the bed; all other cells keep their stage.", "quantifier": "every stage, bed, depth field and domain of at least 2x2", "why_tests_cant": "all shorelines; negative elevations (sea level below datum)", "anchors": ["pyDeltaRCM/water_tools.py: flooding_correction, get_wet_mask_nh, build_weight_array"]}
{"id": "C19", "title": "Water depth is consistent after every water iteration", "statement": "After a water iteration, depth equals the positive part of stage minus bed, and stage is at least sea level, in every cell.", "quantifier": "every state and draws", "why_tests_cant": "all fields", "anchors": ["pyDeltaRCM/water_tools.py: finalize_water_iteration"]}
{"id": "C20", "title": "Discharge magnitude matches its components and the inlet condition is enforced", "statement": "After each water iteration the discharge magnitude equals the length of the discharge vector in each cell, and every inlet cell carries the prescribed inlet discharge directed downstream.", "quantifier": "every routed field, iteration number and relaxation coefficient", "why_tests_cant": "all fields", "anchors": ["pyDeltaRCM/water_tools.py: update_flow_field"]}
{"id": "C21", "title": "Flow velocity is bounded, aligned with discharge, and zero on dry cells", "statement": "After each water iteration, the velocity magnitude is between 0 and twice the inlet velocity, is zero where depth is at most the dry depth, and its components are parallel to the discharge with matching length.", "quantifier": "every discharge, depth field", "why_tests_cant": "all fields", "anchors": ["pyDeltaRCM/water_tools.py: update_velocity_field"]}
{"id": "C22", "title": "Each parcel changes a cell by at most a quarter of the local water depth", "statement": "A single deposition or erosion event changes bed elevation by at most one quarter of the absolute local water depth, and deposition on emergent ground is zero.", "quantifier": "every parcel, cell state, velocity", "why_tests_cant": "all real inputs and branches for sand and mud", "anchors": ["pyDeltaRCM/sed_tools.py: BaseRouter._limit_Vp_change, SandRouter._deposit_or_erode, MudRouter._deposit_or_erode"]}
{"id": "C23", "title": "A parcel never carries negative sediment", "statement": "The sediment remaining in a parcel is never negative during its walk; it decreases only by deposition and increases only by erosion.", "quantifier": "every walk length, field state, draws, sed_lag in [0,1]", "why_tests_cant": "invariant over unbounded walks", "anchors": ["pyDeltaRCM/sed_tools.py: SandRouter._route_one_parcel, MudRouter._route_one_parcel"]}
{"id": "C24", "title": "Sediment mass is conserved while routing", "statement": "The change of total bed volume caused by routing any number of sand or mud parcels equals the volume brought in by the parcels minus the volume still carried when they end.", "quantifier": "every number of parcels, walks, states", "why_tests_cant": "conservation over arbitrary executions", "anchors": ["pyDeltaRCM/sed_tools.py: SandRouter.run, MudRouter.run, BaseRouter._update_fields"]}
{"id": "C25", "title": "Deposit records are exact", "statement": "Deposited sand and mud volumes recorded per cell are never negative, never decrease during a timestep, and are increased exactly by the deposition events of that sediment type.", "quantifier": "every routing execution", "why_tests_cant": "invariant over executions", "anchors": ["pyDeltaRCM/sed_tools.py: SandRouter._deposit_or_erode, MudRouter._deposit_or_erode, init_sediment_iteration"]}
{"id": "C26", "title": "Routing sediment keeps depth and velocity physical", "statement": "While sediment is routed, depth stays non-negative and equals the positive part of stage minus bed in every changed cell, deposition never lifts a submerged bed above the water surface, and velocity magnitude stays within [0, u_max].", "quantifier": "every routing execution", "why_tests_cant": "invariant over executions", "anchors": ["pyDeltaRCM/sed_tools.py: BaseRouter._update_fields"]}
{"id": "C27", "title": "Sediment parcels terminate and stay in the domain", "statement": "Each sediment parcel takes at most stepmax steps and stops at the first edge cell it reaches; each visited cell is a non-land domain cell.", "quantifier": "every state satisfying the domain layout, every draw sequence", "why_tests_cant": "termination and safety over all random walks", "anchors": ["pyDeltaRCM/sed_tools.py: SandRouter._route_one_parcel, MudRouter._route_one_parcel, BaseRouter._choose_next_location"]}
{"id": "C28", "title": "Sand and mud parcels add up to the configured number", "statement": "The number of sand parcels plus mud parcels routed in a timestep equals Np_sed.", "quantifier": "every Np_sed and bedload fraction in [0,1]", "why_tests_cant": "rounding at every fraction", "anchors": ["pyDeltaRCM/sed_tools.py: route_all_sand_parcels, route_all_mud_parcels"]}
{"id": "C29", "title": "Topographic diffusion moves sediment without creating it", "statement": "Topographic diffusion exchanges bed elevation only between neighbouring cells with antisymmetric fluxes, so total bed volume is unchanged; land cells and the first row never change.", "quantifier": "every bed, sediment flux field, cell types, number of repetitions", "why_tests_cant": "a summation identity over all fields, with boundary terms", "anchors": ["pyDeltaRCM/sed_tools.py: topo_diffusion", "pyDeltaRCM/init_tools.py: set_constants"]}
{"id": "C30", "title": "Topographic diffusion creates no new extremes", "statement": "If the diffusion coefficient is small enough relative to local sediment flux, diffusion keeps each bed elevation between the extremes of its neighbourhood.", "quantifier": "every bed and flux field satisfying the stability bound", "why_tests_cant": "all fields", "anchors": ["pyDeltaRCM/sed_tools.py: topo_diffusion"]}
{"id": "C31", "title": "Sand flux field accounts for every sand step", "statement": "The total of the sand flux field after routing equals half the carried volume rate for each parcel entry plus the carried volume rate for each step, and it is never negative.", "quantifier": "every routing execution", "why_tests_cant": "sum over arbitrary walks", "anchors": ["pyDeltaRCM/sed_tools.py: SandRouter.run, SandRouter._partition_sediment"]}
{"id": "C32", "title": "Sand fraction stays a fraction", "statement": "Surface sand fraction and active layer values remain between 0 and 1 at all times.", "quantifier": "every execution of any length, initial value in [0,1]", "why_tests_cant": "invariant over executions", "anchors": ["pyDeltaRCM/iteration_tools.py: compute_sand_frac"]}
{"id": "C33", "title": "Sand fraction update follows the active layer rule", "statement": "After a timestep a cell with recorded deposition has the sand share of that deposit; otherwise a cell eroded beyond the active layer has the boundary value, a cell eroded within it has the active layer value, and an unchanged or non-recorded cell keeps its value.", "quantifier": "every cell state", "why_tests_cant": "case analysis over all orderings of bed elevations", "anchors": ["pyDeltaRCM/iteration_tools.py: compute_sand_frac"]}
{"id": "C34", "title": "Subsidence starts on time and accumulates exactly", "statement": "With subsidence on, the bed of every cell beyond the inlet rows is lowered by rate*dt on exactly the steps that begin at or after start_subsidence, cells in the inlet rows are never lowered, and with subsidence off nothing is lowered.", "quantifier": "every dt, rate, start time, number of steps", "why_tests_cant": "counting over arbitrary histories", "anchors": ["pyDeltaRCM/iteration_tools.py: apply_subsidence", "pyDeltaRCM/init_tools.py: init_subsidence"]}
{"id": "C35", "title": "Sea level and time advance linearly", "statement": "After n updates with constant settings the model time is the initial time plus n*dt, the step counter is n, and sea level is the initial sea level plus n*SLR*dt.", "quantifier": "every n, dt, SLR", "why_tests_cant": "induction over n", "anchors": ["pyDeltaRCM/model.py: DeltaModel.update", "pyDeltaRCM/iteration_tools.py: finalize_timestep"]}
{"id": "C36", "title": "Depth, stage and bed are consistent after every update", "statement": "After every update, depth is non-negative and equals the positive part of stage minus bed in each cell, and stage is at least the sea level of that step.", "quantifier": "every run of any length with any draws", "why_tests_cant": "invariant over all executions", "anchors": ["pyDeltaRCM/iteration_tools.py: finalize_timestep", "pyDeltaRCM/model.py: DeltaModel.update"]}
{"id": "C37", "title": "Inlet bed and depth are reset every update", "statement": "After every update every inlet cell has depth h0 and bed h0 below its stage.", "quantifier": "every run of any length", "why_tests_cant": "invariant over all executions", "anchors": ["pyDeltaRCM/iteration_tools.py: finalize_timestep"]}
{"id": "C38", "title": "Land never moves", "statement": "The bed elevation of land cells never changes during a run.", "quantifier": "every run of any length with any draws and settings", "why_tests_cant": "invariant over all executions and all processes (routing, diffusion, subsidence, boundary reset)", "anchors": ["pyDeltaRCM/model.py: DeltaModel.update", "pyDeltaRCM/sed_tools.py: topo_diffusion", "pyDeltaRCM/init_tools.py: init_subsidence, create_domain"]}
{"id": "C39", "title": "Outputs are saved on schedule", "statement": "Data are saved at time zero and afterwards exactly when the time since the last save first reaches save_dt: consecutive saves are at least save_dt apart and less than save_dt+dt (one dt if save_dt<=dt).", "quantifier": "every dt > 0, save_dt, number of updates", "why_tests_cant": "schedule property over all ratios and lengths", "anchors": ["pyDeltaRCM/iteration_tools.py: output_data", "pyDeltaRCM/model.py: DeltaModel.__init__, DeltaModel.update"]}
{"id": "C40", "title": "Output records are contiguous and never overwritten", "statement": "Saved records get consecutive indices 0,1,2,..., each index is written once, and the recorded times are strictly increasing.", "quantifier": "every run", "why_tests_cant": "induction over runs", "anchors": ["pyDeltaRCM/iteration_tools.py: output_data, save_grids_and_figs"]}
{"id": "C41", "title": "Sequential figure files never overwrite each other", "statement": "With sequential figures, two different saves of the same variable never produce the same file name, and for indices below 100000 the names sort in save order.", "quantifier": "all variables and save indices", "why_tests_cant": "injectivity over all numbers", "anchors": ["pyDeltaRCM/iteration_tools.py: save_figure"]}
{"id": "C42", "title": "Checkpoints are taken on schedule", "statement": "With checkpointing on, after each update the latest checkpoint is less than checkpoint_dt old unless it was just written; with checkpointing off none is written.", "quantifier": "every dt, checkpoint_dt, run length", "why_tests_cant": "schedule property", "anchors": ["pyDeltaRCM/iteration_tools.py: output_checkpoint"]}
{"id": "C43", "title": "Resuming from a checkpoint continues the run exactly", "statement": "A run resumed from a checkpoint with the same configuration goes through the same sequence of model states (fields, time, counters, random numbers, outputs) as the uninterrupted run.", "quantifier": "every checkpoint time and every number of later updates", "why_tests_cant": "equivalence of two executions of arbitrary length", "anchors": ["pyDeltaRCM/iteration_tools.py: save_the_checkpoint", "pyDeltaRCM/init_tools.py: load_checkpoint", "pyDeltaRCM/model.py: DeltaModel.__init__"]}
{"id": "C44", "title": "A crash never destroys the last good checkpoint", "statement": "If the process stops at any point while a checkpoint is being written, a complete checkpoint (old or new) remains loadable.", "quantifier": "every crash point", "why_tests_cant": "all crash points of the write protocol", "anchors": ["pyDeltaRCM/iteration_tools.py: save_the_checkpoint"]}
{"id": "C45", "title": "A crash while resuming never destroys saved output", "statement": "If the process stops at any point while the output file is being carried over during resume, all previously saved records remain on disk and a further resume does not lose them.", "quantifier": "every crash point and every sequence of resume attempts", "why_tests_cant": "all crash points and histories", "anchors": ["pyDeltaRCM/init_tools.py: load_checkpoint"]}
{"id": "C46", "title": "Model life cycle is enforced", "statement": "Updating or finalizing a finalized model raises an error and changes nothing; finalize can succeed only once; every update before finalize is accepted.", "quantifier": "every sequence of update and finalize calls", "why_tests_cant": "all call histories", "anchors": ["pyDeltaRCM/model.py: DeltaModel.update, DeltaModel.finalize"]}
{"id": "C47", "title": "Hooks run immediately before the step they are named after", "statement": "In each update every hook named after a step is called exactly once per call of that step and immediately before it, in the documented order, for any number of water iterations.", "quantifier": "every itermax and update count", "why_tests_cant": "traces of arbitrary length", "anchors": ["pyDeltaRCM/model.py: DeltaModel.update", "pyDeltaRCM/water_tools.py: route_water", "pyDeltaRCM/sed_tools.py: route_sediment", "pyDeltaRCM/iteration_tools.py: solve_water_and_sediment_timestep, finalize_timestep", "pyDeltaRCM/hook_tools.py"]}
{"id": "C48", "title": "Configuration precedence and typing", "statement": "Each parameter takes the keyword value if given, else the YAML value, else the default; a supplied value whose type is not allowed is rejected; a parameter's effective value always has an allowed type or is the default.", "quantifier": "every default table, user file, keyword dictionary, subclass parameters", "why_tests_cant": "all dictionaries", "anchors": ["pyDeltaRCM/init_tools.py: import_files"]}
{"id": "C49", "title": "Unused inputs are reported", "statement": "A warning lists exactly the supplied keys that are neither model parameters, subclass parameters, nor run-control keys; there is no warning if there are none; Preprocessor-only keys get their own warning.", "quantifier": "every input dictionary", "why_tests_cant": "all dictionaries", "anchors": ["pyDeltaRCM/init_tools.py: import_files"]}
{"id": "C50", "title": "Accepted parameters give usable derived quantities", "statement": "Every parameter combination accepted by validation produces well-defined derived quantities: at least one cell in each direction, inlet length and width within limits, positive time step, positive parcel volumes, dry depth at most a tenth of h0.", "quantifier": "all accepted parameter values", "why_tests_cant": "real-valued parameter space", "anchors": ["pyDeltaRCM/model.py: property setters", "pyDeltaRCM/init_tools.py: create_other_variables, create_boundary_conditions"]}
{"id": "C51", "title": "The inlet is a contiguous block of N0 cells inside the domain", "statement": "The inlet consists of exactly N0 consecutive columns inside the domain, matching the width used for the input discharge.", "quantifier": "all domain widths and inlet widths", "why_tests_cant": "all integers, with banker's rounding", "anchors": ["pyDeltaRCM/init_tools.py: create_domain, create_boundary_conditions"]}
{"id": "C52", "title": "Cell types partition the domain with a closed edge", "statement": "Each cell is exactly one of land, inlet channel, ocean, edge; land and channel are exactly the first L0 rows; the last row and, beyond the inlet, both side columns are edge; hence from any cell a parcel can occupy all eight neighbours except those upstream of row 0 are inside the domain.", "quantifier": "all domain sizes and inlet sizes", "why_tests_cant": "all domain sizes", "anchors": ["pyDeltaRCM/init_tools.py: create_domain"]}
{"id": "C53", "title": "The initial state is consistent", "statement": "At creation: depth is non-negative, bed equals stage minus depth, ocean cells have stage at sea level and depth hb, channel cells depth h0, and velocity times depth equals discharge where wet.", "quantifier": "all accepted configurations", "why_tests_cant": "all configurations", "anchors": ["pyDeltaRCM/init_tools.py: create_domain"]}
{"id": "C54", "title": "Save flags and the list of saved variables agree", "statement": "At any time a variable is in the list of saved figures (grids) if and only if its save flag was last set to true.", "quantifier": "every sequence of flag assignments", "why_tests_cant": "all assignment histories", "anchors": ["pyDeltaRCM/model.py: save_*_figs and save_*_grids setters"]}
{"id": "C55", "title": "Unset options resolve to documented defaults", "statement": "An unset checkpoint interval equals the save interval, an unset active layer thickness equals half of h0, an unset basin depth equals h0, and set values are used unchanged.", "quantifier": "all values and orders given by the default table", "why_tests_cant": "all values", "anchors": ["pyDeltaRCM/model.py: checkpoint_dt, active_layer_thickness, hb, resume_checkpoint setters", "pyDeltaRCM/init_tools.py: create_domain", "pyDeltaRCM/default.yml"]}
{"id": "C56", "title": "Changing boundary conditions through named properties keeps the model consistent", "statement": "Reading a named boundary property returns what was last written, and after writing one the derived discharge, sediment supply, time step and subsidence per step agree with the new values.", "quantifier": "every sequence of property writes", "why_tests_cant": "all histories", "anchors": ["pyDeltaRCM/model.py: channel_flow_velocity, channel_width, channel_flow_depth, influx_sediment_concentration setters", "pyDeltaRCM/init_tools.py: create_boundary_conditions"]}
{"id": "C57", "title": "Matrix expansion is the full cartesian product", "statement": "Matrix expansion creates exactly one job per combination of listed values, each with the fixed parameters unchanged and the combination's values, no combination missing or duplicated.", "quantifier": "every matrix specification and fixed configuration", "why_tests_cant": "combinatorial over all dimensions and sizes", "anchors": ["pyDeltaRCM/preprocessor.py: _expand_matrix"]}
{"id": "C58", "title": "Job folders are distinct", "statement": "Every job of a multi-job run writes into its own folder below out_dir, for any number of jobs.", "quantifier": "any number of jobs", "why_tests_cant": "zero-padded names for all numbers", "anchors": ["pyDeltaRCM/preprocessor.py: _expand_matrix, _expand_set, _write_job_configs"]}
{"id": "C59", "title": "Ensemble expansion replicates every configuration with its own seed", "statement": "Ensemble n creates n jobs per configuration, each keeping all other parameters, with different seeds.", "quantifier": "every n, configuration, with matrix or set", "why_tests_cant": "all sizes and random seeds", "anchors": ["pyDeltaRCM/preprocessor.py: _expand_ensemble"]}
{"id": "C60", "title": "Set expansion preserves order and fixed parameters", "statement": "Set expansion creates one job per listed set in order, with fixed parameters plus that set's parameters; sets with differing keys are rejected.", "quantifier": "every list of sets and fixed configuration", "why_tests_cant": "all dictionaries", "anchors": ["pyDeltaRCM/preprocessor.py: _expand_set"]}
{"id": "C61", "title": "Run length follows the documented precedence and stops on time", "statement": "The end time is timesteps*dt, else time*If, else time_years converted to seconds times If, else an error; the run makes the least number of updates reaching it, and overshoots by less than dt.", "quantifier": "all timing specifications, dt > 0", "why_tests_cant": "all real ratios", "anchors": ["pyDeltaRCM/preprocessor.py: _BaseJob.__init__, _SerialJob.run, _ParallelJob.run"]}
{"id": "C62", "title": "Command-line and keyword timing overrides the YAML file", "statement": "A run-length option given on the command line or as a keyword overrides the same option in the YAML file.", "quantifier": "all combinations of sources", "why_tests_cant": "all dictionaries", "anchors": ["pyDeltaRCM/preprocessor.py: BasePreprocessor.run_jobs, PreprocessorCLI, Preprocessor"]}
{"id": "C63", "title": "Serial jobs: one failing job does not corrupt the others", "statement": "Serial execution attempts each job in order; every job that is attempted is finalized (or its failure recorded), and a failure stops at the documented point.", "quantifier": "every list of jobs and failure pattern", "why_tests_cant": "all failure patterns", "anchors": ["pyDeltaRCM/preprocessor.py: _SerialJob.run, BasePreprocessor.run_jobs"]}
{"id": "C64", "title": "Parallel jobs respect the process limit and all complete", "statement": "At most the requested number of jobs run at once; every job eventually runs once and reports success or error, whichever jobs fail and in whichever order they are scheduled.", "quantifier": "every number of jobs, limit, failure pattern and interleaving", "why_tests_cant": "all schedules", "anchors": ["pyDeltaRCM/preprocessor.py: BasePreprocessor.run_jobs, _ParallelJob.run"]}
{"id": "C65", "title": "Model time scaling is invertible and unit-consistent", "statement": "Scaling model time to real time and back returns the same time; it is linear and monotone; invalid intermittency or units are rejected.", "quantifier": "all times, If in (0,1], units", "why_tests_cant": "real-valued", "anchors": ["pyDeltaRCM/shared_tools.py: scale_model_time, _scale_factor", "pyDeltaRCM/preprocessor.py: scale_relative_sea_level_rise_rate"]}
{"id": "C66", "title": "Verbosity is monotone", "statement": "Raising verbosity never removes a log message, and messages of level 0 are always logged.", "quantifier": "all verbosity values and message levels", "why_tests_cant": "all integers", "anchors": ["pyDeltaRCM/iteration_tools.py: log_info"]}
{"id": "C67", "title": "Stratigraphic preprocessing yields the preserved surface", "statement": "The preserved stratigraphic surface at each time is the minimum of all later bed surfaces: never above the bed at that or any later time, non-decreasing in time, and equal to the final bed at the last time.", "quantifier": "every sequence of bed elevations", "why_tests_cant": "all sequences", "anchors": ["strat_preprocess.py: compute_preservation loop"]}
{"id": "C68", "title": "A job's result does not depend on the other jobs", "statement": "In a multi-job run each job produces the same states as running that job alone with the same configuration and seed.", "quantifier": "every list of jobs, seeds and model behaviour", "why_tests_cant": "needs comparing executions with shared random generator over all job lists", "anchors": ["pyDeltaRCM/preprocessor.py: BasePreprocessor.run_jobs, _SerialJob, _ParallelJob", "pyDeltaRCM/init_tools.py: determine_random_seed", "pyDeltaRCM/shared_tools.py: set_random_seed"]}
{"id": "C69", "title": "Every water parcel brings its discharge into the inlet cell", "statement": "The flux entering from upstream is half a parcel discharge for every parcel, also when several parcels start in the same inlet cell.", "quantifier": "every number of parcels and every choice of start cells", "why_tests_cant": "the vectorised increment loses repeated indices only for particular draws", "anchors": ["pyDeltaRCM/water_tools.py: run_water_iteration"]}
{"id": "C70", "title": "Water parcels end only at the domain boundary", "statement": "The routing of a water parcel ends only at an edge cell or when the step limit is reached; no parcel disappears inside the domain.", "quantifier": "every field state, draw sequence and number of steps", "why_tests_cant": "needs all weight fall-back branches combined with the walk", "anchors": ["pyDeltaRCM/water_tools.py: run_water_iteration, _calculate_new_inds, _get_weight_at_cell_water"]}
{"id": "C71", "title": "A well laid-out domain never aborts", "statement": "On a domain whose inlet, land and edge cells are laid out as the model lays them out, with coefficients in the accepted ranges, no step of a timestep aborts: start cells are found, every parcel always has a cell to go to, no index leaves an array, the walk matrix is always large enough, and every loop ends, so an update always returns.", "quantifier": "every such domain and parameter set, every state of the fields, every sequence of random draws", "why_tests_cant": "an abort may need one particular sequence of draws out of a combinatorial number", "anchors": ["pyDeltaRCM/water_tools.py: run_water_iteration, compute_free_surface", "pyDeltaRCM/sed_tools.py: route_all_sand_parcels, route_all_mud_parcels", "pyDeltaRCM/model.py: update"]}
{"id": "C72", "title": "Water surface under-relaxation", "statement": "In every water iteration the new surface is the old one moved by the under-relaxation fraction towards the smoothed surface suggested by the parcels (mean of the elevations at the visits of contributing parcels, old surface elsewhere, never below bed or sea), with the configured number of smoothing passes; in the first timestep the old surface is kept. Then dry cells beside higher water are flooded, and no cell ends below sea level.", "quantifier": "every domain, state, number of passes, coefficients and sequence of random draws", "why_tests_cant": "a swapped weight or a skipped pass shifts the stage by small amounts that look like natural variability", "anchors": ["pyDeltaRCM/water_tools.py: compute_free_surface, finalize_free_surface", "pyDeltaRCM/water_tools.py: finalize_water_iteration", "pyDeltaRCM/water_tools.py: _smooth_free_surface"]}
{"id": "C73", "title": "When and how much parcels deposit or erode", "statement": "A sand parcel deposits exactly when the sand flux through the cell (its own included) exceeds the capacity, which grows with the power beta of the flow speed, and erodes exactly when the flux is below capacity and the water is faster than the erosion threshold; a mud parcel deposits a lagged share below the deposition speed and erodes above the erosion speed. Deposition needs a bed under water. All volumes are the smaller of the rule's volume and a quarter of the water volume of the cell.", "quantifier": "every state of the fields, every parameter set in range, every sequence of draws", "why_tests_cant": "the rule depends on the fields that earlier parcels changed; samples hit few of the branch boundaries", "anchors": ["pyDeltaRCM/sed_tools.py: SandRouter._deposit_or_erode, MudRouter._deposit_or_erode", "pyDeltaRCM/sed_tools.py: BaseRouter._limit_Vp_change, BaseRouter._compute_Vp_ero"]}
{"id": "C74", "title": "A configuration within the documented ranges can be created and run", "statement": "For a configuration within the documented ranges (positive velocity, depth, concentration, spacing and counts, a domain of at least a few cells, coefficients in their ranges), creating the model succeeds, and then any number of updates succeeds: the time advances by the time step each update, depths stay non-negative and equal to stage minus bed, and the sand fraction stays between 0 and 1.", "quantifier": "every such configuration, every number of updates, every sequence of random draws", "why_tests_cant": "the chain from configuration to a running model has many places to fail for unusual sizes; samples cover few sizes and few draws", "anchors": ["pyDeltaRCM/model.py: DeltaModel.__init__, update", "pyDeltaRCM/init_tools.py: create_other_variables, create_boundary_conditions, create_domain"]}
{"id": "C75", "title": "Contents of the output file", "statement": "For every choice of saved variables the output file has exactly those variables, with units, and record i of each is the field it is named after at the i-th save; time and the varying metadata (sea level, bedload fraction, concentration, inlet velocity) have their value at that save; x and y are the distances of rows and columns from the origin in meters; the fixed metadata are those of the model. An existing file is replaced only if that was asked for.", "quantifier": "every combination of flags, file format, configuration, and sequence of saves of any length with any fields and settings", "why_tests_cant": "there are hundreds of combinations of flags, and a swapped field in a file is plausible data that no check notices", "anchors": ["pyDeltaRCM/init_tools.py: init_output_file, init_metadata_list", "pyDeltaRCM/iteration_tools.py: save_grids_and_figs, save_grids"]}
{"id": "C76", "title": "Resuming carries the output file over", "statement": "After a resume the output file has everything it had: dimensions, coordinates, metadata, variables with their units and all records; saving goes on in it.", "quantifier": "every file contents", "why_tests_cant": "the copy is made once at a restart; tests look at the records of one variable", "anchors": ["pyDeltaRCM/init_tools.py: load_checkpoint"]}
{"id": "C77", "title": "Save flags changed during a run", "statement": "A grid flag may be changed between updates: from then on variables switched on are saved and variables switched off are not, without harm to the other variables.", "quantifier": "every sequence of assignments and saves", "why_tests_cant": "needs combinations of flags at creation and later", "anchors": ["pyDeltaRCM/model.py: save_eta_grids and the other save flags", "pyDeltaRCM/iteration_tools.py: save_grids_and_figs, save_grids"]}
{"id": "C78", "title": "Where parcels go", "statement": "From a cell that is not land, a water parcel goes to the wet neighbours that are not land in proportion to the depth there to the power theta times the gamma-weighted mean of each neighbour's share of the fall of the surface and of the discharge towards it; if nothing attracts it, evenly to those of them not upstream of the first row, and if there are none, evenly to whatever is not land. A sediment parcel goes to the wet neighbours that are not land in proportion to the depth to the power of its kind times the discharge towards them; if nothing attracts it, to every neighbour that is not land in inverse proportion to the distance. Only differences of the stage matter. Cells beyond the edge count as the closest cell of the domain.", "quantifier": "every field of depth, stage, discharge, cell types and modifiers, every cell, every coefficient", "why_tests_cant": "the rule has several branches for dry, flat and walled surroundings that sampled basins rarely meet; wrong weights give a plausible delta", "anchors": ["pyDeltaRCM/water_tools.py: _get_weight_at_cell_water, _get_water_weight_array", "pyDeltaRCM/sed_tools.py: BaseRouter._choose_next_location", "pyDeltaRCM/shared_tools.py: get_weight_sfc_int"]}
{"id": "C79", "title": "Which random numbers are used", "statement": "Every random decision takes the next number of one sequence, in this order: the start cell of each parcel, then for water the direction of each moving parcel step by step, for sediment the directions of each parcel one parcel after the other; sand before mud. A number chooses the option into whose part of the unit interval (in proportion to the weights) it falls. Parcels that have stopped take no number, so the sequence is afterwards exactly as many numbers further as there were decisions.", "quantifier": "every domain, state, number of parcels and every sequence of numbers", "why_tests_cant": "an extra or a shared draw changes no distribution visibly but breaks reproducibility and independence", "anchors": ["pyDeltaRCM/water_tools.py: run_water_iteration", "pyDeltaRCM/sed_tools.py: route_all_sand_parcels, route_all_mud_parcels", "pyDeltaRCM/shared_tools.py: random_pick, get_start_indices"]}
{"id": "C80", "title": "Left and right are treated alike", "statement": "For the basin seen in a mirror (columns reversed, flow across reversed) everything that a timestep computes is seen in the mirror: the weights of water and sediment parcels in every cell, the water level from mirrored paths with smoothing and flooding, discharge and velocity, the volume that a parcel exchanges with the bed and the fields after it, diffusion, subsidence, the inlet and the sand fraction at the end of the timestep. The random choices of a run of any length (start cells, walks of water parcels with the checks at the edges, walks of sediment parcels) can be matched with those of a run of the mirrored basin, choice by choice and with the same chances, so that the fields of one are at every stage the mirrored fields of the other. So whatever is said about the fields at the end of a run has the probability that it has of the mirrored fields in the mirrored basin; and a basin that is its own mirror image has no preferred side.", "quantifier": "every basin of a shape in which no timestep aborts and with no edge cell in its first row, every field, setting and path, every sequence of settings, every length of run, every statement about the final fields", "why_tests_cant": "natural-looking deltas are not symmetric, so a bias to one side is not visible in a run; stencils have eight directions each of which may be wrong; probabilities of whole runs cannot be estimated by running", "anchors": ["pyDeltaRCM/water_tools.py: run_water_iteration, _choose_next_directions, _check_for_loops, _get_water_weight_array, _accumulate_free_surface_walks, _smooth_free_surface, flooding_correction, update_flow_field, update_velocity_field", "pyDeltaRCM/sed_tools.py: route_all_sand_parcels, route_all_mud_parcels, topo_diffusion, BaseRouter._update_fields", "pyDeltaRCM/iteration_tools.py: solve_water_and_sediment_timestep, finalize_timestep, apply_subsidence", "pyDeltaRCM/shared_tools.py: random_pick, get_start_indices"]}
{"id": "C81", "title": "The configuration file written for a job loads as the configuration of the job", "statement": "Numbers in a configuration file are read as the numbers they denote, also in scientific notation without a point or without a sign in the exponent (1e-05, 1E5). The file that the preprocessor writes for a job loads as exactly the configuration of the job, put on top of what the file had before, whatever values the configuration has.", "quantifier": "every configuration of any size, every whole number, float, truth value, null and string, every earlier content of the file", "why_tests_cant": "values are turned into text and back by rules with many special cases; tests write a few numbers", "anchors": ["pyDeltaRCM/preprocessor.py: _write_yaml_config_to_file, BasePreprocessor._open_yaml", "pyDeltaRCM/shared_tools.py: custom_yaml_loader"]}
{"id": "C82", "title": "The level from which elevations are measured does not matter", "statement": "Take the same basin with bed, water surface and sea level all higher by the same amount. With the same random numbers every parcel takes the same way, deposits and erodes the same volumes, and at every time bed, surface and sea level are higher by that amount while depth, discharge, velocity, sand fraction and everything else are the same.", "quantifier": "every basin, setting, amount, number of timesteps and sequence of random numbers", "why_tests_cant": "runs start from one sea level, usually zero; a formula that uses an elevation where it should use a difference gives a plausible delta", "anchors": ["pyDeltaRCM/water_tools.py: flooding_correction, finalize_free_surface, _accumulate_free_surface_walks", "pyDeltaRCM/sed_tools.py: topo_diffusion, BaseRouter._limit_Vp_change", "pyDeltaRCM/iteration_tools.py: finalize_timestep, compute_sand_frac"]}
{"id": "C83", "title": "Sediment budget of a run", "statement": "Over a timestep and over a run of any length, the volume of the bed outside of the inlet changes by exactly the volume of the parcels that entered, less what they still carried when they ended and what they left in inlet cells, less subsidence, plus what the diffusion passes gained from held cells (land, first row) or lost at the border. Each cell outside of the inlet changes only by the steps of parcels in it, by the diffusion passes between sand and mud, and by subsidence. Without diffusion and subsidence the input is the number of timesteps times the number of parcels times the parcel volume.", "quantifier": "every run, settings changing between timesteps, every sequence of random numbers", "why_tests_cant": "a small leak in one of the parts is hidden by the large volumes exchanged, and grows only in long runs", "anchors": ["pyDeltaRCM/sed_tools.py: route_sediment, topo_diffusion, BaseRouter._update_fields", "pyDeltaRCM/iteration_tools.py: finalize_timestep, apply_subsidence", "pyDeltaRCM/model.py: update"]}
{"id": "C84", "title": "Parameters assigned to a running model take effect", "statement": "Between updates a parameter may be assigned. The assignment is accepted exactly if a configuration with that value is; afterwards the parameter reads as assigned, whatever is done in between; and once the boundary conditions and the sediment routers have been made again, as the documentation recommends, every later update does to the present fields what it would do in a model newly created with the present values of all parameters.", "quantifier": "every parameter, every sequence of assignments, calls and updates, every sequence of random numbers", "why_tests_cant": "which of some thirty parameters are copied where, and when the copies are renewed, gives far more histories than tests visit; a stale copy gives a plausible delta", "anchors": ["pyDeltaRCM/model.py: the setters of the parameters", "pyDeltaRCM/init_tools.py: create_boundary_conditions, init_sediment_routers", "docs/source/examples/updating_boundary_conditions.rst, variable_velocity.rst, variable_bedload.rst"]}
{"id": "C85", "title": "A run can be repeated from its seed", "statement": "A model has the seed it was given, or a drawn one, and its log names it. Whatever was done in the process before, and however the generator of numpy is used meanwhile, a model with this configuration and this seed goes through the same fields update after update, as long as nothing else uses the package in between. Which seeds are drawn does not depend on other models.", "quantifier": "every configuration and seed, every history of the process, any number of updates", "why_tests_cant": "whether hidden state of the process leaks into a run shows only in some histories, and as plausible output", "anchors": ["pyDeltaRCM/init_tools.py: determine_random_seed", "pyDeltaRCM/shared_tools.py: set_random_seed, get_random_uniform", "pyDeltaRCM/model.py: DeltaModel.__init__, update"]}
{"id": "C86", "title": "Points and lines are shown at their cells", "statement": "Shown over the picture of a field, a cell given as a flat index or as a pair appears at the place where the picture shows that cell; a tuple that is not a pair is rejected. A line goes through the cells given, in order, where the flat index 0 can be left out; every line drawn is returned. Only two-dimensional arrays are shown as fields.", "quantifier": "every domain, every list of cells, every array of lines", "why_tests_cant": "a line exchanged along the diagonal or an unreturned line is a fault in a picture; tests compare pictures at a few points", "anchors": ["pyDeltaRCM/debug_tools.py: show_attribute, show_ind, show_line, plot_ind, plot_line"]}
{"id": "C87", "title": "The table of the jobs tells the truth", "statement": "A run of several jobs writes a table with one line for each job, in order: its identifier and, under each name in the header, the value this job has. Every parameter in which jobs differ, the folder aside, is in the header.", "quantifier": "every matrix, every list of sets, ensembles of both, any number of jobs", "why_tests_cant": "a value under the wrong name depends on the order in which a set is written down, and is only noticed in the evaluation of the runs", "anchors": ["pyDeltaRCM/preprocessor.py: _expand_set, _expand_matrix, _expand_ensemble"]}
{"id": "C88", "title": "Jobs from a dictionary", "statement": "A configuration may be given as a dictionary instead of a file. The jobs are then exactly those of a file with this content, and the dictionary of the caller is left as it is.", "quantifier": "every dictionary with or without matrix, set and ensemble, every list of seeds", "why_tests_cant": "the dictionary is shared with the caller, so a fault shows only when it is used again, or with one of the ways of expanding it", "anchors": ["pyDeltaRCM/preprocessor.py: Preprocessor.__init__, run_jobs, _expand_ensemble"]}
{"id": "C89", "title": "Log files", "statement": "Every message of a model is written once, in order, into the log file of this model and into no other, whatever other models the process makes and runs before, after or meanwhile.", "quantifier": "every sequence of creations and messages of any number of models in any folders at any times", "why_tests_cant": "loggers are shared in the process by name and never removed; a collision depends on folders and on the second of the clock", "anchors": ["pyDeltaRCM/init_tools.py: init_logger", "pyDeltaRCM/iteration_tools.py: log_info, log_model_time"]}
{"id": "C90", "title": "Branching off another run", "statement": "A model may be told to resume from the checkpoint in the folder of another run. It then goes on as that run would: in every further update it has the same fields, and its own output file has the further saves. Only the checkpoint of the other folder is read; nothing of that run is mixed with other output; a folder without checkpoint is refused.", "quantifier": "every run, checkpoint, number of further updates and sequence of random numbers, every content of the folders", "why_tests_cant": "tests resume in the folder of the run itself; which folder supplies which file shows only when both have files", "anchors": ["pyDeltaRCM/model.py: DeltaModel.__init__", "pyDeltaRCM/init_tools.py: import_files, load_checkpoint"]}
{"id": "C91", "title": "A created basin has no preferred side", "statement": "The basin that a configuration creates is its own mirror image: the inlet is in the middle of the inflow side with as much land on its left as on its right, a cell of sea has a cell of sea as its mirror image and a cell of the edge a cell of the edge. So whatever is said about the fields after any number of updates is as probable as the same said about the mirrored fields.", "quantifier": "every accepted configuration of any size, every number of updates, every statement about the fields", "why_tests_cant": "one column of difference is not seen in a basin of hundreds, and a bias of the shoreline to one side looks like chance", "anchors": ["pyDeltaRCM/init_tools.py: create_other_variables, create_domain", "pyDeltaRCM/water_tools.py: _check_for_loops"]}
{"id": "C92", "title": "Similar basins give the same delta", "statement": "The size of the cells, the velocity of the inflow and the concentration of sediment in it set the units of distance and of time and nothing else. If a basin is a times as long and as wide (with a slope a times as gentle), the water v times as fast, the concentration c times as high, and sea level and subsidence rise per the time in which the same volume per area arrives, then with the same random numbers every parcel goes the same way and at every timestep bed, water surface, depth, sea level and composition are the same; velocities are v times as large, sediment volumes a squared times as large, and the time is a over v c times as late.", "quantifier": "every accepted configuration, every positive factors, every number of timesteps and sequence of random numbers", "why_tests_cant": "tests run one scale; a formula with a wrong unit, such as a volume compared with a length or a rate per timestep taken per second, gives a plausible delta at that scale", "anchors": ["pyDeltaRCM/init_tools.py: create_boundary_conditions, create_other_variables, create_domain", "pyDeltaRCM/water_tools.py: water routing", "pyDeltaRCM/sed_tools.py: sediment routing, topo_diffusion", "pyDeltaRCM/iteration_tools.py: finalize_timestep, compute_sand_frac, apply_subsidence"]}
{"id": "C93", "title": "The composition of the bed has no effect on the delta", "statement": "The sand fraction of the bed and the active layer are a record of what was deposited. Whatever the composition at the beginning, the composition beyond the domain and the thickness of the active layer, with the same random numbers every parcel of every timestep goes the same way, and all fields other than the composition are the same.", "quantifier": "every configuration, every two compositions and thicknesses, every number of timesteps and sequence of random numbers", "why_tests_cant": "a routine that read the composition by mistake would change results by little, and no test compares runs with different compositions", "anchors": ["pyDeltaRCM/iteration_tools.py: compute_sand_frac, finalize_timestep", "pyDeltaRCM/water_tools.py: water routing", "pyDeltaRCM/sed_tools.py: sediment routing"]}
{"id": "C94", "title": "Saving has no effect on the run", "statement": "What is saved and when (output file, figures, checkpoints, their intervals) has no effect on the run: every call raises the same, the fields and the random numbers after it are the same. Records or checkpoints of the same time in two runs with other settings show the same fields, and a run that saves every timestep has all records of a run with a longer interval.", "quantifier": "every session of updates and finalize, every two settings of output, every sequence of random numbers", "why_tests_cant": "tests that compare runs use the same output settings; a save that drew a random number or reset a field would change the delta only when saving is on", "anchors": ["pyDeltaRCM/model.py: DeltaModel.update, finalize", "pyDeltaRCM/iteration_tools.py: output_data, save_grids_and_figs, output_checkpoint, save_the_checkpoint"]}
{"id": "C95", "title": "A job has the length that was asked for, in rounded arithmetic", "statement": "In the arithmetic of the program, where every operation is rounded, a job of n timesteps of a new model makes exactly n updates, and the clock of the model then shows n times the time step up to a relative error of n roundings.", "quantifier": "every rounding (any number of binary digits), every time step, every number of timesteps", "why_tests_cant": "a test that counts updates uses a time step that is a whole number of seconds, for which nothing is rounded; one update more at the end of a long run is not noticed", "anchors": ["pyDeltaRCM/preprocessor.py: _Job.run, _Job.__init__", "pyDeltaRCM/iteration_tools.py: finalize_timestep", "pyDeltaRCM/init_tools.py: create_boundary_conditions"]}
{"id": "C96", "title": "Records are evenly spaced, in rounded arithmetic", "statement": "In the arithmetic of the program records and checkpoints are written at the beginning and then after every interval: for an interval of k timesteps, every k updates, so that a run of n updates has n / k + 1 records, record i showing the model after i k updates.", "quantifier": "every rounding, every interval, time step and number of updates", "why_tests_cant": "tests save every timestep or use whole seconds; a record one timestep late looks like a record in time", "anchors": ["pyDeltaRCM/iteration_tools.py: output_data, output_checkpoint", "pyDeltaRCM/model.py: DeltaModel.update"]}
{"id": "C97", "title": "Routing decisions in rounded arithmetic", "statement": "In the arithmetic of the program, where weights may have 24 and random numbers 53 binary digits, rounding does not change where parcels can go: the cells with positive weight are the same as without rounding and the computation fails in the same cases; every random number gives a cell, no read is outside of the array, a cell with weight zero is never chosen for a positive random number, and every cell with positive weight is chosen for some. The sums of weights that delimit the random numbers of a cell are off by a relative error of as many roundings as there are additions.", "quantifier": "every rounding, every nonnegative weights, depths and modifications, every random number", "why_tests_cant": "a random number between the rounded total and 1, or a weight lost in a sum, is met once in millions of draws", "anchors": ["pyDeltaRCM/shared_tools.py: random_pick, get_random_uniform", "pyDeltaRCM/water_tools.py: _get_weight_at_cell_water", "pyDeltaRCM/sed_tools.py: _get_weight_at_cell_sediment"]}
{"id": "C98", "title": "Sediment in rounded arithmetic", "statement": "In the arithmetic of the program, with fields of 24 and intermediate results of 53 binary digits, the routing of sediment never aborts, and each step leads to a neighbouring cell or out of the domain upstream. A submerged bed stays submerged, nothing is deposited on emergent ground, depths do not get negative, speeds stay within bounds, and the bed changes by at most a quarter of the depth up to rounding. No parcel carries a negative volume. The volume of the bed grows by what the parcels brought less what they still carry, up to a stated sum of rounding errors. The numbers of sand and mud parcels add to the configured number.", "quantifier": "every rounding with fields no finer than intermediate results, every domain, state of the fields, parameter set in range and sequence of random numbers", "why_tests_cant": "a bed raised over the surface by one unit in the last place, or a parcel with a volume of minus one millionth, is met in some step of millions; slow leaks of volume are below what a test compares", "anchors": ["pyDeltaRCM/sed_tools.py: BaseRouter, SandRouter, MudRouter, route_all_sand_parcels, route_all_mud_parcels"]}
{"id": "C99", "title": "From a configuration file to the models of all jobs", "statement": "Take a configuration with a matrix, a list of sets or an ensemble, whose values have the documented types and ranges. Every combination (every set, every member with its seed) becomes one job. Each job reads its own file, makes a model with the values of its combination over the other values of the configuration and the defaults, asks for the output that the flags ask for, has the seed it was given or a drawn one, makes the number of timesteps that was asked for and is finalized: its fields, records and checkpoints are those of a user who makes this one model and runs it by hand. All jobs report success, however the processes interleave. A value of a wrong type stops the run before that job; the jobs before it are not affected.", "quantifier": "every configuration, matrix of any size, number of jobs and members, sequence of random numbers and interleaving of the processes", "why_tests_cant": "the way from the file to the result goes through text, folders, processes and two random generators; tests look at the parts, or at runs of a few jobs with default values", "anchors": ["pyDeltaRCM/preprocessor.py: BasePreprocessor, PreprocessorCLI, Preprocessor, _ParallelJob, _SerialJob", "pyDeltaRCM/init_tools.py: import_files, process_input_to_model, determine_random_seed, create_other_variables", "pyDeltaRCM/model.py: DeltaModel.__init__, update, finalize"]}
{"id": "C100", "title": "Water in rounded arithmetic", "statement": "In the arithmetic of the program the water routing never aborts on a domain laid out as configurations lay it out. Each step of each parcel is one of the kinds of exact arithmetic, parcels that have finished stay finished, and the recorded paths are paths. The discharge counted at a cell is what results from adding the half share of a parcel to zero as often as the cell was left or entered, each sum rounded: it is the exact sum up to one rounding of each precision per share, never less for more shares, and zero only without shares. After each iteration the surface is not below the sea, depths are not negative and are the difference of surface and bed up to one rounding, speeds are between zero and the limit, zero where it is dry or nothing flows, and speed times depth is discharge up to one rounding below the limit. All fields hold numbers of their precision, as the sediment routing needs them.", "quantifier": "every rounding of fields and of intermediate results, every domain, state of the fields, parameter set in range, sequence of random numbers and number of iterations", "why_tests_cant": "tests compare fields to a tolerance after a few iterations; a weight rounded to zero at the only exit or a depth of minus one unit in the last place is met in long runs", "anchors": ["pyDeltaRCM/water_tools.py: run_water_iteration, compute_free_surface, finalize_water_iteration, _get_weight_at_cell_water, _accumulate_free_surface_walks", "pyDeltaRCM/shared_tools.py: get_start_indices, get_weight_at_cell"]}
{"id": "C101", "title": "Timesteps and runs in rounded arithmetic", "statement": "In the arithmetic of the program no timestep aborts, in runs of any length, with settings that may change between timesteps. The fields hold numbers of their precision throughout, so what C98 says of the steps of sediment and C100 of the flow is true in every timestep. At the end of each timestep depths are not negative, the surface is not below the sea, water stands where the surface is above the bed, and bed, depth and surface fit up to one rounding; the inlet has its depth. The bed of land that does not subside is the same to the last digit. Surface composition and active layer follow the rule of exact arithmetic and stay within 0 and 1. Clock and sea level are sums rounded after each timestep.", "quantifier": "every rounding with fields no finer than intermediate results, every domain, state of the fields, parameter sets in range, sequence of random numbers and number of timesteps", "why_tests_cant": "errors of one unit in the last place add up over thousands of timesteps; a fraction of 1 plus one unit or a depth of minus one unit shows in none of the short runs of the tests", "anchors": ["pyDeltaRCM/iteration_tools.py: solve_water_and_sediment_timestep, apply_subsidence, finalize_timestep, compute_sand_frac", "pyDeltaRCM/model.py: DeltaModel.update", "pyDeltaRCM/sed_tools.py: route_sediment, topo_diffusion", "pyDeltaRCM/water_tools.py: route_water"]}
{"id": "C102", "title": "Jobs, output and resumed runs in rounded arithmetic", "statement": "In the arithmetic of the program updates of a model raise nothing. A job of n timesteps is a creation, n or n+1 updates and a finalization, the same by hand, serial or parallel. Data are saved at the beginning and every k updates, where k additions of the timestep reach the interval; save i has number i, shows the fields after i*k timesteps and is record i of the output file, which has no other. Checkpoints likewise; each holds the fields and the generator of its moment and the file is the last of them. With checkpoints at the interval of the saves, a run that stops anywhere can be resumed, and goes on number for number as if it had not stopped. With timesteps of whole seconds this holds for any checkpoints and any number of resumes.", "quantifier": "every rounding with fields no finer than intermediate results, every model, output setting, sequence of random numbers, number of updates and moment of interruption", "why_tests_cant": "a resumed run that differs by a rounding error from the uninterrupted one looks the same in short tests and diverges later; that saves follow the accumulated clock and not multiples of the interval shows after many timesteps", "anchors": ["pyDeltaRCM/model.py: DeltaModel.update", "pyDeltaRCM/iteration_tools.py: output_data, output_checkpoint", "pyDeltaRCM/init_tools.py: load_checkpoint", "pyDeltaRCM/preprocessor.py: run_jobs, _BaseJob, _SerialJob, _ParallelJob"]}
{"id": "C103", "title": "Elevations stay bounded over runs of any length", "statement": "With coefficients in their documented ranges, and as long as the diffusion coefficient is small against the local flux of sand, no bed, no water surface and no top of a water column is ever higher above the higher of the sea and elevation zero than the reference slope along the longest way that a water parcel can take: the configured maximum number of steps, each at most as long as the domain is long and wide. With a sea that does not rise this bound is the same for every number of timesteps; with a rising sea it rises with the sea and no faster. Without diffusion there is no condition on the flux.", "quantifier": "every accepted configuration in range, every number of timesteps, every sequence of random numbers", "why_tests_cant": "that a feedback of surface, deposit and surface does not build up over thousands of timesteps cannot be seen in runs of a few; tests check elevations after one or two timesteps", "anchors": ["pyDeltaRCM/water_tools.py: _accumulate_free_surface_walks, finalize_free_surface, _smooth_free_surface, flooding_correction", "pyDeltaRCM/sed_tools.py: route_all_sand_parcels, route_all_mud_parcels, topo_diffusion, BaseRouter._limit_Vp_change", "pyDeltaRCM/iteration_tools.py: finalize_timestep, apply_subsidence", "pyDeltaRCM/model.py: DeltaModel.update"]}
{"id": "C104", "title": "Every operation of a run is defined", "statement": "With a model created from a configuration whose inflow, spacing and threshold velocities are positive, no timestep of a run of any length divides by zero or takes a power of a negative number, whatever random numbers are drawn: not in the weights of water and sediment, the loop test of the water parcels, the surface, discharge and velocity, erosion and deposition, or the composition of the bed. The functions with these tests give what the functions without them give. Depths, speeds and discharges are never negative. With an erosion threshold of zero, which validation accepts, a sand parcel in moving water divides by zero.", "quantifier": "all domains, configurations with the stated conditions, random streams and numbers of timesteps", "why_tests_cant": "A denominator that is zero in one cell of one timestep of a long run raises ZeroDivisionError or spreads NaN; tests see a few states only.", "anchors": ["pyDeltaRCM/water_tools.py", "pyDeltaRCM/sed_tools.py", "pyDeltaRCM/iteration_tools.py", "pyDeltaRCM/shared_tools.py"]}
{"id": "C105", "title": "Sediment budget in rounded arithmetic", "statement": "In the arithmetic of the program, over a timestep and over a run of any length, the volume of the bed outside of the inlet changes by the volume of the parcels that entered, less what they still carried when they ended and what they left in inlet cells, less subsidence, plus what the diffusion passes gained from held cells or lost at the border, up to a stated sum of rounding errors: for each step of each parcel, each cell in each pass of diffusion and each cell that subsides, an error relative to the volumes that were added up there. Nothing else gets lost. In each cell the bed grows over a routing by what the steps of the parcels left there, with the errors of these steps only. With exact arithmetic all errors are zero.", "quantifier": "every rounding of fields and of intermediate results, every domain, state of the fields, settings changing between timesteps, sequence of random numbers and number of timesteps", "why_tests_cant": "volumes of thousands of cubic metres in numbers of 24 digits: a leak of one part in a million per timestep is below every tolerance and is the whole delta after a long run", "anchors": ["pyDeltaRCM/sed_tools.py: route_sediment, topo_diffusion, BaseRouter._update_fields", "pyDeltaRCM/iteration_tools.py: finalize_timestep, apply_subsidence", "pyDeltaRCM/model.py: DeltaModel.update"]}
{"id": "C106", "title": "Every operation of a run is defined in rounded arithmetic", "statement": "In the arithmetic of the program, where every intermediate result is rounded, no timestep of a run of any length divides by zero or takes a power of a negative number, whatever random numbers are drawn: no spacing, timestep, threshold, sum of weights, depth or discharge that is divided by becomes zero by rounding, under the conditions of C104. The rounded functions with these tests give what the rounded functions without them give. Depths, speeds and discharges are never negative.", "quantifier": "every rounding of fields and of intermediate results (relative errors, no underflow), all domains, configurations with the conditions of C104, random streams and numbers of timesteps", "why_tests_cant": "a guard that compares another number than the one that is divided by (a depth before it is stored, a sum before it is rounded) is met in one cell of one timestep of a long run", "anchors": ["pyDeltaRCM/water_tools.py", "pyDeltaRCM/sed_tools.py", "pyDeltaRCM/iteration_tools.py", "pyDeltaRCM/shared_tools.py"]}
{"id": "C107", "title": "Creating a model in rounded arithmetic", "statement": "In the arithmetic of the program a configuration with positive inflow and at least eight by five cells makes a model: of the number of cells that length and width are cell sizes, to the nearest integer, with the inlet, land, sea and edge where exact arithmetic puts them. A length of a whole number of cells gives that number; a quotient that is not within its rounding of halfway between two integers gives the nearest; so does the number of diffusion passes unless the width of the inlet in cells ends in 5. Discharges, volumes, time step and limits are those of the formulas up to a stated number of roundings, and the parcels of a timestep bring the supply of that timestep. Each initial field is that of C53, rounded. Runs of any length of this model never abort, perform only defined operations, and are as C101 says.", "quantifier": "every rounding (any number of binary digits, at least four), every configuration, every number of timesteps and sequence of random numbers", "why_tests_cant": "tests create models from lengths that are whole numbers of cells; a basin one row longer or one pass of diffusion more because of the last digit of a quotient is not noticed", "anchors": ["pyDeltaRCM/init_tools.py: create_boundary_conditions, create_other_variables, create_domain, init_subsidence", "pyDeltaRCM/model.py: DeltaModel.__init__"]}
{"id": "C108", "title": "Settings of output assigned to a running model", "statement": "Whatever settings of output are assigned between updates, the simulation is the same. Saves and checkpoints follow the settings in force: after one, the next is at the first update at which the interval assigned last has gone by; a save is in the output file if metadata was on at that moment or there are grids, and as a figure in its own file if that figure and sequential files were on, otherwise in the file of the latest; checkpoints begin when they are switched on, and if no interval of checkpoints was given it is that of saves. Settings that are read only at creation (folder, seed, resume, netCDF format) have no effect when assigned later. No assignment makes an update fail.", "quantifier": "every session of assignments and updates in any order, all values, domains, settings and random streams", "why_tests_cant": "tests assign a setting before the first update and look at the next save; what an interval shortened between two saves does to the counters, or a flag switched twice, is seen only over sessions of many assignments", "anchors": ["pyDeltaRCM/model.py: save_dt, checkpoint_dt, save_checkpoint, save_figs_sequential, save_metadata, save_eta_figs, out_dir, seed, resume_checkpoint, clobber_netcdf, legacy_netcdf", "pyDeltaRCM/iteration_tools.py: output_data, output_checkpoint, save_grids_and_figs, save_figure, save_the_checkpoint", "pyDeltaRCM/init_tools.py: init_output_file, init_output_grids"]}
{"id": "C109", "title": "What a hook adds to the output is saved", "statement": "Figures, grids and metadata that hook_init_output_file adds in the documented form are saved: at every save a figure and a record of each added grid under its name and units, holding the attribute named as it is then, the same for metadata that vary, and fixed metadata as they were when the model was made, all besides the built-in output. It does not depend on which built-in output is asked for, and continues when a run is resumed. Standard metadata keep their meaning whatever the hook sets under their names; a dimension that the file has not, or a figure of something that is not an array, is an error.", "quantifier": "every set of added entries, every combination of save flags, netCDF format, every sequence of saves and attribute values, new and resumed runs", "why_tests_cant": "tests and the documented example check that the lists contain the entry; whether a record is written depends on flags that the entry has nothing to do with, and on whether the run is new or resumed", "anchors": ["pyDeltaRCM/hook_tools.py: hook_init_output_file", "pyDeltaRCM/init_tools.py: init_output_file, init_metadata_list, process_input_to_model, load_checkpoint", "pyDeltaRCM/iteration_tools.py: save_grids_and_figs, save_grids", "docs/source/examples/custom_saving.rst"]}
{"id": "C110", "title": "The bed is not scoured without limit", "statement": "No cell carries more water than the inlet or all parcels together can bring, and in water so deep that this discharge flows slower than the thresholds of erosion nothing is taken from the bed. Hence, with coefficients in their documented ranges and as long as diffusion leaves a bed more than a fifth of its height in a timestep, no bed is ever deeper below the lower of the sea and elevation zero than the deeper of the basin and channel at the start and a depth given by the greatest discharge and the threshold, apart from subsidence and the fall of the sea. Without subsidence and with a sea that does not fall this bound is the same for every number of timesteps; together with C103 all elevations stay between two levels fixed by the configuration.", "quantifier": "every accepted configuration in range, every number of timesteps, every sequence of random numbers", "why_tests_cant": "that erosion, which deepens a channel and draws flow to it, comes to an end cannot be seen in runs of a few timesteps; a test sees beds of its own run only", "anchors": ["pyDeltaRCM/sed_tools.py: BaseRouter._compute_Vp_ero, BaseRouter._limit_Vp_change, BaseRouter._update_fields, topo_diffusion", "pyDeltaRCM/water_tools.py: update_flow_field, update_velocity_field, _check_for_loops, route_water", "pyDeltaRCM/iteration_tools.py: finalize_timestep, apply_subsidence", "pyDeltaRCM/model.py: DeltaModel.update"]}
{"id": "C111", "title": "Runs as random experiments", "statement": "If the random numbers are independent and uniformly distributed, the model does what its random choices say: a choice by weights takes an entry with the probability weight over total, and the water parcels start at any sequence of inlet cells with equal probability. A run of any length has finitely many outcomes; whatever is said about the fields at its end is an event, with a probability that depends on configuration and fields at the beginning only and is the same in the mirrored basin; every quantity of the fields has a mean; and with more and more runs that each use numbers of their own, the frequency of the event tends to that probability and the average of the quantity to that mean.", "quantifier": "every probability space with independent uniform numbers, every weights, every number of parcels, every configuration that can be run, number of timesteps, event and quantity of the fields at the end", "why_tests_cant": "tests fix the seed and look at one sequence of numbers; that an ensemble average converges, and to what, is a statement on all sequences", "anchors": ["pyDeltaRCM/shared_tools.py: random_pick, get_start_indices, get_random_uniform", "pyDeltaRCM/water_tools.py: run_water_iteration", "pyDeltaRCM/sed_tools.py: route_sediment", "pyDeltaRCM/model.py: DeltaModel.update", "pyDeltaRCM/preprocessor.py: _expand_ensemble"]}
{"id": "C112", "title": "Customised models", "statement": "A class derived from DeltaModel may define hooks and own versions of methods. If they only change attributes that the class has added, every update gives the fields, the random numbers and the errors of a model without hooks. A class whose hooks make a note of every call finds exactly the documented calls in order. Own versions of methods that make a note and call the original are called exactly in its place. Whatever the class does to fields, parameters and attributes, bed, depth and water surface fit together after each update, unless it replaces finalize_timestep or its changes come after it. What it does in the hook before solving could as well be done between updates, and does not count as erosion. If hooks and own methods raise no errors and leave layout, coefficients and depths in the ranges that the methods rely on, no update of a run of any length raises an error.", "quantifier": "every derived class (hooks and own methods are any functions on the model), every state, parameters and sequence of random numbers, every number of updates", "why_tests_cant": "tests try a few hooks that set an attribute; what holds for all hooks, and which hook is too late to keep the fields consistent, is not seen from examples", "anchors": ["pyDeltaRCM/hook_tools.py: hook_tools (all)", "pyDeltaRCM/model.py: DeltaModel.update", "pyDeltaRCM/iteration_tools.py: solve_water_and_sediment_timestep, finalize_timestep, apply_subsidence", "pyDeltaRCM/water_tools.py: route_water", "pyDeltaRCM/sed_tools.py: route_sediment", "docs/source/guides/developer_guide.rst", "docs/source/examples/slight_slope.rst"]}
{"id": "C113", "title": "A run in several jobs", "statement": "A run may be done in several jobs, each in a set of parallel jobs: the first starts the model, each other resumes it from the checkpoint in its folder. However the timesteps are divided among the jobs and whatever the other jobs are, the last job ends with the fields, time, counters, random numbers and saved records of a run without a break; each job runs its time from the time of the checkpoint on, makes as many updates as it was asked for and reports success. If a job finds a checkpoint that was written before the job before it ended, the run goes on from there, and its end is again a point of the run without a break. A folder without checkpoint is refused, in parallel and alone with the same error, and of a set of serial jobs none is then run.", "quantifier": "every runnable configuration, every division of a run into jobs, every set of other jobs (which may fail), every state of the generator", "why_tests_cant": "tests resume one model once, outside of jobs; that the checkpoint is loaded twice for a parallel job, and where the generator of the process is in between, is not seen by them", "anchors": ["pyDeltaRCM/preprocessor.py: _BaseJob, _ParallelJob.run, _SerialJob.run, run_jobs", "pyDeltaRCM/init_tools.py: load_checkpoint", "pyDeltaRCM/model.py: DeltaModel.__init__"]}
{"id": "C114", "title": "The paths of parcels are their decisions", "statement": "What a run does is fixed by the decisions it takes: for each parcel the cell of the inlet where it starts, for each step the direction. The paths of the water parcels of an iteration, and those of the sand and mud parcels of a timestep, come out exactly if the numbers drawn make these decisions, each by the weights of C78 in the cell and fields at that moment, in the order in which they are drawn, and no other numbers matter. A run of any length with other numbers that make the same decisions gives the same fields. Each decision taken has a positive weight. With independent and uniformly distributed numbers the probability of given paths is therefore the product of 1/m for each start among m inlet cells and of the weight of the direction for each step; and nothing that a run can do has probability zero.", "quantifier": "every runnable configuration, state of the fields, set of paths, number of timesteps, generator, and probability space with independent uniform numbers", "why_tests_cant": "tests fix the seed and compare fields; whether steps of one parcel depend on draws of another, or a draw is used twice, does not show in any single run", "anchors": ["pyDeltaRCM/shared_tools.py: random_pick, get_start_indices", "pyDeltaRCM/water_tools.py: run_water_iteration, _choose_next_directions", "pyDeltaRCM/sed_tools.py: BaseRouter._choose_next_location, SandRouter.run, MudRouter.run", "pyDeltaRCM/model.py: DeltaModel.update"]}
{"id": "C115", "title": "Own weights of the inlet cells", "statement": "A class may give its own weights for the cells of the inlet where water, sand and mud parcels start; the weights may depend on fields, parameters and the kind of parcel. As long as they are not negative and not all zero, no run of any length aborts, and its fields and paths are those that a model without own weights has with some other random numbers: everything that holds for all random numbers, such as the balance of sediment, holds with own weights. Parcels start only in cells of positive weight, each with its part of the total weight as probability, and independently of each other. Each kind of parcel depends on its own weights only. Weights of one are the model itself, and the unit of the weights does not matter.", "quantifier": "every rule for the weights, configuration, state of the fields, generator, number of timesteps; probability spaces with independent uniform numbers", "why_tests_cant": "the documentation invites to reimplement the methods and no test does it with a run; that nothing else depends on even weights is a statement about all rules", "anchors": ["pyDeltaRCM/water_tools.py: get_inlet_weights_water, run_water_iteration", "pyDeltaRCM/sed_tools.py: get_inlet_weights_sediment, route_all_sand_parcels, route_all_mud_parcels", "pyDeltaRCM/shared_tools.py: get_inlet_weights, get_start_indices, random_pick"]}
{"id": "C116", "title": "Derived classes of the documentation", "statement": "The class with tree throw that the documentation shows (a hook after the routing of sediment and an own topographic diffusion) runs without error for any multiplier, number of timesteps and probability. With tree throw off it is the model itself: same errors, fields and random numbers, over runs of any length; so is every class whose hooks change only added attributes and whose own methods do what the replaced ones do. With tree throw on, there is a tree exactly in the cells that have been dry in at least the configured number of latest updates; each update draws one number per cell, row by row, and the diffusion of the next update is multiplied exactly in the cells with a tree, off land, whose number is below the probability; land and the first row do not change. The class whose bed load fraction changes with time runs without error, and each update has the mirrored fraction exactly if it starts after the first and not after the second time, also in runs that do not start at time zero; the capacity for sand keeps the fraction that the model was created with.", "quantifier": "every configuration, parameters of the classes, state of the fields, generator, number of updates", "why_tests_cant": "the documentation shows the classes with one run each; the classes are not part of the test suite", "anchors": ["docs/source/examples/overwrite_topo_diffusion.rst", "docs/source/examples/variable_bedload.rst", "pyDeltaRCM/iteration_tools.py: solve_water_and_sediment_timestep", "pyDeltaRCM/sed_tools.py: route_sediment, topo_diffusion", "pyDeltaRCM/model.py: DeltaModel.f_bedload"]}
{"id": "C117", "title": "Inlet velocity from a time series", "statement": "In the class of the documentation whose inlet velocity follows a series of times and values, the velocity of every update is the value of the series at the time when the update starts: on the straight line between the two points around it, the first or last value outside; it never leaves the range of the values. With positive velocities (not too small for the slope) any number of updates runs without error, and the documented loop up to an end time ends, for every end time, after no more updates than the greatest velocity needs, with the first model that has reached it. After each update the inlet carries the present velocity times the depth, the time has gone on by the time in which always the same volume of water and sediment flows in, and the sea has risen in proportion to the time. The sediment routing and the subsidence per update remain those of the configured velocity. A velocity of zero stops with a division by zero.", "quantifier": "every series, configuration, generator, number of updates and end time", "why_tests_cant": "the documentation builds the class without running it; that the loop ends depends on time steps that change from update to update", "anchors": ["docs/source/examples/variable_velocity.rst", "docs/source/examples/updating_boundary_conditions.rst", "pyDeltaRCM/init_tools.py: create_boundary_conditions", "pyDeltaRCM/iteration_tools.py: apply_subsidence, finalize_timestep", "pyDeltaRCM/model.py: DeltaModel.update"]}
{"id": "C118", "title": "Parcels change the bed where they are", "statement": "A cell outside of the inlet that no mud parcel visits in an update and whose surroundings (the cell and its eight neighbours) no sand parcel visits keeps its bed but for subsidence and keeps its active layer; its surface keeps its sand fraction unless it subsides, when it shows that of the active layer, or that of the ground below if it sinks by more than the active layer. So for runs of any length, whatever the settings of the updates and whatever happens elsewhere. A parcel is never farther from the inlet than the number of steps it may take, except in the last row, where those are found that leave the domain at the inlet: cells beyond that distance, and one cell more, only ever subside. The same holds in rounded arithmetic: a cell that parcels stay away from and that does not subside keeps its bed and its sand fraction to the last digit.", "quantifier": "every configuration, state, generator, cell, number of updates, settings that change between updates", "why_tests_cant": "tests compare whole fields with stored ones; whether a far cell is changed by an index that wraps around or by diffusion from afar is not looked at", "anchors": ["pyDeltaRCM/sed_tools.py: route_sediment, topo_diffusion, SandRouter.run, MudRouter.run, BaseRouter._update_fields", "pyDeltaRCM/iteration_tools.py: compute_sand_frac, apply_subsidence, finalize_timestep"]}
{"id": "C119", "title": "The sloping basin of the documentation", "statement": "The documented class that tilts the basin at the end of its constructor can be made exactly if the cells are together not less wide than the configured width; if the number of columns was rounded down it is an error. The tilt changes the bed of the basin only, by a height that grows by the slope from column to column and is zero at half the width. Runs of any length go through and after each update the depth fits bed and surface, though the constructor leaves the depth as it was; the first iteration of the water routing does not see the tilt. A model made alone shows the bed without the tilt in its first record and checkpoint, in a parallel job with it; fields, and all that is written afterwards, are the same. A model that resumes alone or in a serial job gets the tilt once more, one that resumes in a parallel job does not.", "quantifier": "every slope, width, cell size, configuration that can be run, generator, number of updates, folder with files", "why_tests_cant": "the example of the documentation is made once with the default width and looked at as a figure; it is not run, resumed or made by a job in the tests", "anchors": ["docs/source/examples/slight_slope.rst: SlightSlopeModel", "pyDeltaRCM/model.py: DeltaModel.__init__", "pyDeltaRCM/init_tools.py: load_checkpoint", "pyDeltaRCM/preprocessor.py: _BaseJob, _ParallelJob.run"]}
{"id": "C120", "title": "Subsidence in a region, as in the documentation", "statement": "The documented class that constrains subsidence to a region makes the same model as the base class, or the same error, but for the subsidence: a cell sinks at the configured rate exactly if it lies in the basin, in the left half of the domain with its middle, within 60 degrees of the direction of flow, and between 0.3 and 0.8 times the length of the domain from the inlet; no other cell sinks. Runs of any length go through; the bed of the region sinks by the rate for each update that begins when subsidence has started, besides what the sediment routing does, and the bed of other cells is what the sediment routing makes of it. A rate that was scaled from millimetres a year is shown as that number of millimetres. The documentation says that the region is 30 degrees wide, it is 60.", "quantifier": "every configuration that can be run, rate, generator, number of updates, cell", "why_tests_cant": "the example is made once and shown as a figure; the shape of the region and what it does in runs is not tested", "anchors": ["docs/source/examples/subsidence_region.rst: ConstrainedSubsidenceModel", "pyDeltaRCM/init_tools.py: init_subsidence", "pyDeltaRCM/iteration_tools.py: apply_subsidence", "pyDeltaRCM/preprocessor.py: scale_relative_sea_level_rise_rate"]}
{"id": "C121", "title": "Ensembles that resume from a checkpoint", "statement": "A model that resumes from a checkpoint does not depend on its seed: fields, counters and the state of the generator come from the checkpoint or the configuration. So serial jobs that resume end the same whatever their seeds are, and of parallel jobs two that resume from the same checkpoint with the same configuration but for the seed are the same run: the same fields, records, checkpoints, generator, number of updates and errors. The members of an ensemble that goes on from a checkpoint do not differ when run in parallel. Without a checkpoint each member starts with the generator that its seed gives.", "quantifier": "every list of jobs, configuration, checkpoint that can be loaded, seeds, number of updates, other jobs beside", "why_tests_cant": "ensembles are tested without checkpoints, and resuming with a single model", "anchors": ["pyDeltaRCM/preprocessor.py: _expand_ensemble, run_jobs, _ParallelJob, _SerialJob", "pyDeltaRCM/init_tools.py: load_checkpoint, determine_random_seed", "pyDeltaRCM/shared_tools.py: set_random_state"]}
{"id": "C122", "title": "The class with own timesteps of the documentation", "statement": "The documented class that replaces the routing of water and sediment by blobs at random places runs without error for any number of updates if the patch fits into the domain, and stops at the first update if it does not. Each update uses three random numbers; the first two give the place of the patch, which lies wholly in the domain, and the third has no effect. After any number of updates the bed of a cell outside the inlet is what it was plus the blobs that covered it minus the subsidence of the updates that began after its start; flow fields stay what they were, clock and sea level go on. Without subsidence the bed never falls, it has risen exactly where a blob has been, and the total rise is that of the blobs. The last row and column are never reached in a domain larger than the patch. Models whose generators give the same numbers rise by the same amounts whatever else is different. The sand fraction stays what it was, as the bed is compared with that of the creation of the model.", "quantifier": "every size of domain and patch, height of the blobs, configuration, generator, number of updates, cell", "why_tests_cant": "the example is run three times with random seeds and shown as a figure", "anchors": ["docs/source/examples/custom_class_preprocessor.rst: CustomRandomModel", "pyDeltaRCM/model.py: DeltaModel.update", "pyDeltaRCM/iteration_tools.py: solve_water_and_sediment_timestep, finalize_timestep, compute_sand_frac", "pyDeltaRCM/shared_tools.py: get_random_uniform"]}
{"id": "C123", "title": "Methods called one by one", "statement": "The methods that make up an update (solving the timestep, routing water, routing sediment or one kind of parcels, diffusion, subsidence, the end of the timestep, the sand fraction) and updates can be called from outside in any order and number: no call fails, also for derived classes whose hooks and own methods do not. The old names run_one_timestep and sed_route do what the present ones do. The clock goes on with updates only, the sea level with updates and with every other call of finalize_timestep. The parts of the sediment routing called one after the other are the sediment routing. Solving, subsidence and the end of the timestep called in turns do what as many updates do, with the same random numbers and errors, but for the clock, if the model has been updated before and does not subside; the first round always does.", "quantifier": "every sequence of calls, configuration, state, generator, derived class", "why_tests_cant": "tests call single methods of mocked models; sequences are not enumerated", "anchors": ["pyDeltaRCM/iteration_tools.py: solve_water_and_sediment_timestep, run_one_timestep, apply_subsidence, finalize_timestep", "pyDeltaRCM/sed_tools.py: route_sediment, sed_route", "pyDeltaRCM/water_tools.py: route_water", "pyDeltaRCM/model.py: DeltaModel.update"]}
{"id": "C124", "title": "Resuming customised models", "statement": "A derived class whose hooks and own methods use nothing that a checkpoint does not keep resumes exactly: made again with the same parameters, router values and attributes and loaded from the checkpoint, it goes on for any number of updates as the run without a break, with the same parameters, attributes, fields, random numbers and errors. Parameters and attributes that have changed do no harm if the hook before the timestep sets them again from what is kept. So the documented classes with a bed load fraction that changes at two times and with a velocity that follows a time series resume exactly wherever the break is. Parameters, attributes, the sand flux and the deposits of the last timestep are otherwise those of a new model after a resume. The documented class with trees does not resume: trees and counts are not kept, so in the first p_tt_iter - 1 updates after a break there is no tree and no thrown tree anywhere, while a cell that stays dry keeps its tree in the run without a break.", "quantifier": "every derived class, configuration, state, generator, point of the break, number of updates before and after", "why_tests_cant": "checkpoint tests resume the plain model only, for a few steps; the examples of the documentation are not resumed", "anchors": ["pyDeltaRCM/init_tools.py: load_checkpoint", "pyDeltaRCM/iteration_tools.py: save_the_checkpoint", "pyDeltaRCM/model.py: DeltaModel.__init__, update", "pyDeltaRCM/hook_tools.py: hook_tools", "docs/source/examples/variable_bedload.rst: VariableBedloadModel", "docs/source/examples/variable_velocity.rst: ChangingVelocityModel", "docs/source/examples/overwrite_topo_diffusion.rst: TreeThrowModel"]}
{"id": "C125", "title": "Settings that have no effect", "statement": "Some settings cannot matter beside others, and do not. If the share of the mud in the sediment parcels is less than one parcel (f_bedload of 1, for example), coeff_U_dep_mud, coeff_U_ero_mud, coeff_theta_mud and sed_lag have no effect; if the share of the sand is, coeff_U_ero_sand, coeff_theta_sand and alpha have none. Without toggle_subsidence neither its rate nor its start have an effect, and with it a model does the same as without up to the time at which it starts. Without passes of the smoothing the weight Csmooth has no effect, and with omega_sfc of zero the whole smoothing has none. The first timestep of a model sees neither omega_sfc, omega_flow nor the smoothing. No effect means: models are made or rejected in the same way, have the same size and fields, and in runs of any length every parcel goes the same way, with the same fields, random numbers and errors.", "quantifier": "every configuration, values of these settings, length of run, generator", "why_tests_cant": "a test of a setting looks for the effect it should have; that it has none where it should not would need runs compared for all values", "anchors": ["pyDeltaRCM/init_tools.py: create_boundary_conditions, create_domain, init_subsidence, init_sediment_routers", "pyDeltaRCM/sed_tools.py: route_all_sand_parcels, route_all_mud_parcels, topo_diffusion", "pyDeltaRCM/water_tools.py: finalize_free_surface, update_flow_field", "pyDeltaRCM/iteration_tools.py: apply_subsidence"]}
{"id": "C126", "title": "The inlet supplies what was configured", "statement": "Over a run of any length the parcels bring the sediment discharge (velocity times depth times width of the inlet times concentration) times the elapsed time, the share f_bedload of it as sand and the rest as mud: never more, less than one parcel per timestep less of each kind and in total, and exactly if the share is a whole number of parcels. The time step is ten times the width of the inlet over velocity and concentration in percent, so it depends neither on the depth nor on the numbers of parcels, and a tenth of the volume of water over a square of the width of the inlet enters in it. Without diffusion and subsidence the bed outside of the inlet grows by the discharge times the time less what left the basin or stayed in the inlet. In rounded arithmetic there are in total never more parcels than configured and at most one less, and the volumes agree up to a few roundings, but a share that is a whole number of parcels may lose one in every timestep (Np_sed of 2000 and f_bedload of 0.8: 399 parcels of mud instead of 400).", "quantifier": "every configuration from which a model can be made, in a basin of at least three columns, every number of timesteps and sequence of random numbers", "why_tests_cant": "tests compare derived numbers with literals of one configuration; a supply that is off by a factor in other configurations shapes a delta that still looks like one", "anchors": ["pyDeltaRCM/init_tools.py: create_boundary_conditions", "pyDeltaRCM/sed_tools.py: route_all_sand_parcels, route_all_mud_parcels, SandRouter.run, MudRouter.run", "docs/source/info/morphodynamics.rst: Time stepping"]}
{"id": "C127", "title": "Water parcels do not see each other", "statement": "Within a water iteration no parcel depends on the others: a parcel that starts in the same cell and takes the same directions goes the same path, is moved by the loop handling in the same way, ends in the same step and counts for the water surface or not, whatever the number of parcels, their numbers, the other parcels, the size of the path record and the random numbers are. Renumbering the parcels changes nothing: the number of steps, the fluxes in each cell, the size of the record, the water surface and all fields after the iteration are the same, and every renumbering can be had by some random numbers. In rounded arithmetic the same holds for the paths and the discharge of each cell to the last digit; the direction of the flow may differ, as a sum depends on its order.", "quantifier": "every environment of an iteration, inlet, number of parcels, pair of iterations, generator, renumbering", "why_tests_cant": "the parcels are moved by array operations over all parcels at once; a test with a few parcels does not show whether the entries of one leak into another", "anchors": ["pyDeltaRCM/water_tools.py: run_water_iteration, _choose_next_directions, _check_for_loops, update_Q, compute_free_surface, _accumulate_free_surface_walks"]}
{"id": "C128", "title": "The output file in single precision", "statement": "Each number in the output file is the one of the model at that save, rounded once to the precision of its variable: coordinates, time, sea level and the other metadata; whole numbers are exact. The grids are saved to the last digit: for a run from any configuration in the arithmetic of the program, record i of each grid is the field after i k timesteps, exactly, where k timesteps reach the interval of saving, and there are no other records. Resuming does not round again: the copy has the same numbers, and after further saves the file holds what it would without the break. The times of the records never decrease, are off by at most the relative precision, and are distinct.", "quantifier": "every configuration that can be run, choice of grids, number of timesteps, generator, point of a break", "why_tests_cant": "tests read back a few records with tolerances; they cannot tell one rounding from two, nor see the times of a long run", "anchors": ["pyDeltaRCM/init_tools.py: init_output_file, init_metadata_list, load_checkpoint", "pyDeltaRCM/iteration_tools.py: save_grids_and_figs, save_grids", "pyDeltaRCM/model.py: save_eta_grids and the other save flags"]}
{"id": "C129", "title": "Similar basins to the last digit", "statement": "Multiplying the horizontal distances, the velocities and the concentration of the inflow by powers of two (rates and slopes in proportion) changes no digit of the delta: in the arithmetic of the program, with the same random numbers, all parcels take the same steps, and after any number of timesteps from any configuration bed, surface, depth and sea level are the same, velocities, discharges, volumes and times are multiplied by exactly the factor that their unit has, and a run that stops with an error stops with the same error at the same point. In a basin of the same size the composition is the same, too. Velocities change only where the surface is set up without a slope. Factors that are not powers of two are not exact: some product is rounded.", "quantifier": "every configuration, three factors, generator, number of timesteps, number of binary digits; roots and powers as given, of which only that is asked that powers of two pass through them", "why_tests_cant": "tests compare runs with stored numbers; a constant in some unit, hidden in one of the many operations, shows only when all of them are followed", "anchors": ["pyDeltaRCM/init_tools.py: create_boundary_conditions, create_domain", "pyDeltaRCM/water_tools.py: route_water", "pyDeltaRCM/sed_tools.py: route_sediment", "pyDeltaRCM/iteration_tools.py: apply_subsidence, finalize_timestep"]}
{"id": "C130", "title": "The parts of a water iteration", "statement": "The four parts of a water iteration (clearing, routing the parcels, the water surface, the end) called one after the other from outside are the iteration of the model, whatever earlier calls have left, and as many iterations by hand as the model makes are its water routing: the same fields, random numbers and errors. The parts can be called in any other order and number without error, if the water surface is computed only after parcels have been routed since the last clearing; otherwise it reads outside of an empty array. A routing without clearing adds to the discharge: walks, random numbers and errors are the same whatever discharge there was, and that stays on top; a parcel that was disqualified stays so until the next clearing. In a new model no parcel shapes the water surface before the first clearing. The end of an iteration called over and over scales the discharge of the parcels once, brings the flow nearer to it by the same factor with each call, and leaves surface and depth as the first call made them. In rounded arithmetic all this holds to the last digit, but for the sums of discharge and the nearing of the flow.", "quantifier": "every well laid-out domain, state, list of calls, number of iterations and generator with draws in (0, 1]", "why_tests_cant": "tests call the parts once and in order", "anchors": ["pyDeltaRCM/water_tools.py: init_water_iteration, run_water_iteration, compute_free_surface, finalize_water_iteration, update_flow_field", "docs/source/pyplots/water_tools/run_water_iteration.py"]}
{"id": "C131", "title": "Sediment parcels one after another", "statement": "Each step of each sediment parcel sees the bed, the depth and the flux of sand as all steps before it left them: the padded copy of the depth that the router carries along has no effect of its own, and a group of parcels can be routed in two parts, the second starting anew from the state that the first left, with the same steps, volumes, fields and random numbers. This needs that in the first row the water does not flow upstream or sideways and that no parcel leaves upstream: then the copy does not follow the depth. Unlike water parcels (C127), sediment parcels do see each other: of two that start alike and draw the same numbers the first may pass and the second deposit.", "quantifier": "every well laid-out domain, state with depths not negative, list of starting columns of the inlet, kind of sediment, and generator with draws in (0, 1]", "why_tests_cant": "tests compare the padded copy with nothing, and route a few parcels", "anchors": ["pyDeltaRCM/sed_tools.py: BaseRouter._choose_next_location, _update_fields, SandRouter.run, MudRouter.run, _route_one_parcel"]}
