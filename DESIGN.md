# Design: a Lean 4 model of pyDeltaRCM

The code under study is `/repo` (pyDeltaRCM at the pinned commit, Python).
The properties are listed in `properties.jsonl` (C01, C02, ...).
This file says what is modelled, how each property is proved, and what is trusted.

## Layout

* `lean/Verif/Model/*.lean`: the model, one file per group of Python functions. Every definition cites file and lines in `/repo`.
* `lean/Verif/Spec/*.lean`: small specifications that theorems are stated against. They do not use the helper functions of the model.
* `lean/Verif/Lemmas/*.lean`: helper lemmas about the model.
* `lean/Verif/Props/*.lean`: the property theorems, with an `example` beside each theorem meeting its hypotheses. Some short specifications stand at the top of these files.
* `MANIFEST.json`: which theorems establish which property.
* `seeded/LOG.jsonl`: mutation experiments.

## General modelling decisions

* Numbers: model code is polymorphic in a linearly ordered field `K`, so theorems hold for the reals and the rationals. Floating-point rounding is left out there (trusted base). NaN and infinity are not modelled.
* Rounded arithmetic (C95 and on): functions whose name ends in `R` are those of the model with a rounding after each operation, for any `Rounding` (monotone, idempotent, odd, small relative error). Two instances: the identity, with which each such function is proved to be that of the exact model, and numbers of `p` binary digits, ties to even, without bounds on the exponent (`binary`).
* Powers and square roots: `x ** theta`, `x ** beta` and `sqrt(x*x + y*y)` appear as function parameters. Theorems assume only the facts listed in their hypotheses (for instance: a power of a non-negative number is non-negative). These are facts about the reals; examples instantiate the parameters.
* Grids: a field on an L x W domain is a function `Cell L W -> K` with `Cell L W = Fin L × Fin W`.
* Python negative-index wraparound and out-of-range reads are explicit: a move that leaves the domain gives an explicit wrapped cell or an error value, never a silently repaired cell.
* Randomness: a generator `Rng K σ` is any function from a state to a draw and a next state; every draw goes through it, in the order of the code. Theorems quantify over all generators and states, and say what they need of the draws (for example `PositiveDraws`: draws are in (0,1)).
* Exceptions: `Except` values. A raised error is an `error` result.
* Dictionaries: association lists with Python semantics (insertion order kept, update in place).
* Files and crashes: a disk is a map from names to contents; operations are lists of atomic steps; a crash is any prefix of the step list.
* Processes: interleaving transition system for the parallel job runner.

Where the code does not satisfy a property, the negation is proved with a concrete witness, and a `_partial` theorem states under which condition the property holds. Section "Disagreements" lists those.

## Plan per property

| id | what is modelled | how it is proved |
|----|------------------|------------------|
| C01 | `custom_ravel`, `custom_unravel` on integers with their guards | div/mod identities; witness for the off-by-one guard |
| C02 | `ravel_walk`, `_calculate_new_inds` | integer arithmetic; uniqueness of quotient and remainder |
| C03 | `custom_pad` as the sequence of slice assignments, 3x3 slices | case split on border position, against a clamp specification |
| C04 | `random_pick`: cumsum and left searchsorted | induction on the weight list; witness for draw 0 |
| C05 | `get_start_indices` | C04 plus induction on the count |
| C06-C07 | `_get_weight_at_cell_water` with all branches and errors | case analysis, finite sums over nine directions |
| C08 | `_get_weight_at_cell_sediment` | as C06 |
| C09 | first-row weights (water and sediment) | negation witnesses; partial theorem under the flow condition enforced at the inlet |
| C10-C12 | `run_water_iteration`: vectorised loop with path matrix | invariants by induction on steps |
| C13 | `_check_for_loops` | case analysis; clamp bounds |
| C14 | `update_Q` and the ghost-node increment | sums over all cells by induction on steps; witness for lost duplicate increments |
| C15 | `_accumulate_free_surface_walks` | induction on the backward walk |
| C16-C19 | `compute_free_surface`, `_smooth_free_surface`, `flooding_correction`, `finalize_water_iteration` | pointwise order reasoning; induction on passes; witness for negative elevations |
| C20-C21 | `update_flow_field`, `update_velocity_field` | pointwise algebra |
| C22-C27 | `SandRouter`, `MudRouter` | step lemmas, then induction on the parcel walk and on parcels |
| C28 | parcel counts with truncation | floor arithmetic; witness |
| C29-C30 | `topo_diffusion` with convolution in constant mode | summation by parts on the grid; convexity |
| C31 | `_partition_sediment` and entry flux | sums by induction |
| C32-C33 | `compute_sand_frac` | pointwise case analysis; invariant |
| C34-C38 | `apply_subsidence`, `finalize_timestep`, `update` | invariants by induction on updates |
| C39-C42 | `output_data`, `output_checkpoint`, `save_figure` | invariants on counters by induction on updates; string lemmas |
| C43 | `save_the_checkpoint`, `load_checkpoint` | simulation between original and resumed run; witnesses for lost parts |
| C44-C45 | disk steps of checkpoint write and resume | case analysis on crash prefixes; witnesses |
| C46 | `update`/`finalize` state machine | induction on call sequences |
| C47 | call trace of `update` | trace equalities, induction on itermax |
| C48-C49 | `import_files` | dictionary lemmas |
| C50 | setters, `create_other_variables`, `create_boundary_conditions` | order arithmetic; rounding lemmas; witnesses |
| C51-C53 | `create_domain` | integer arithmetic; pointwise |
| C54-C56 | setters | induction on assignment histories; witnesses |
| C57-C60 | `_expand_matrix`, `_expand_set`, `_expand_ensemble` | list and dictionary lemmas |
| C61-C63 | `_BaseJob`, `_SerialJob.run`, `run_jobs` | induction; Archimedean argument for the number of updates |
| C64 | semaphore protocol | invariant over all interleavings, progress measure |
| C65 | `scale_model_time`, `_scale_factor`, `scale_relative_sea_level_rise_rate` | field algebra |
| C66 | `log_info` | order |
| C67 | `strat_preprocess.py` loop | induction on the list |
| C68 | serial job list sharing one generator state | witness; partial theorem for a single job |
| C69 | the `+=` with an index array at the start of `run_water_iteration` | counting of distinct start cells; witness for repeated ones |
| C70 | parcels that stay where they are | invariant on steps; witness |
| C71 | errors of one update | every error value excluded under a layout of the domain; induction on updates |
| C72 | under-relaxation in `finalize_free_surface` | pointwise algebra |
| C73 | deposition and erosion thresholds | case analysis against a separate rule |
| C74 | creation and run of a configured model | C71 plus facts on `create_domain` |
| C75 | `init_output_file`, `init_metadata_list`, `save_grids` | invariant on the file by induction on saved records |
| C76 | the copy of the output file in `load_checkpoint` | pointwise; witnesses |
| C77 | flags changed between saves | case analysis; witnesses |
| C78 | the weights of water and sediment parcels against the documented rule | case analysis on the branches of the weights |
| C79 | the order in which random numbers are taken | an inductive relation between decisions and numbers; induction on steps and parcels |
| C80 | each part of a timestep against the basin in a mirror; the random choices of whole runs matched with equal chances | reindexing of sums by the mirror; pointwise; induction on walks and passes; a probabilistic coupling of programs on a tape of numbers, composed along the loops |
| C81 | `_write_yaml_config_to_file` and loading with `custom_yaml_loader` | the rules for plain scalars as functions on characters, proved equal to the patterns of the documentation as formal languages (Spec/YamlRules); texts of numbers as an inductive relation; induction on lines; `C81_string_iff` says exactly which strings survive |
| C82 | each part of a timestep, then a whole run, against the same basin with all elevations shifted | equivariance of every part; simulation with equal random numbers; induction on steps, parcels, iterations and timesteps |
| C83 | `update` and a whole run: bed volume against what parcels, diffusion and subsidence did | composition of C24, C29, C31, C34; induction on timesteps |
| C84 | assigning parameters between updates, `create_boundary_conditions`, `init_sediment_routers` | model object with the routers' copies apart (`Model/Assign`); invariant `AsNew` over sessions; negative theorems |
| C85 | `determine_random_seed`, several models in one process | process with the generators of `numpy` and `numba` (`Model/Process`); induction on actions |
| C86 | `show_ind`, `show_line`, `_get_attribute` | positions drawn as pairs, colours left out (`Model/Debug`); induction on lists |
| C87 | `jobs_parameters.txt` | names and values of the table before they are text (`Model/Table`) |
| C88 | `Preprocessor` and `run_jobs` with a dictionary as `input_file` | the argument as an inductive type, what is left in the user's dictionary (`Model/DictInput`); reduction to C55-C61 |
| C89 | `init_logger`, the module `logging` with several models in one process | loggers by name, handlers that are never removed (`Model/Loggers`); induction on actions |
| C90 | `resume_checkpoint` with the folder of another run, `load_checkpoint` | files by folder (`Model/Branch`); simulation of the run that goes on, output shifted by its save number |
| C91 | `create` (sizes, centre column, inlet, edge) and runs of the created model | exact arithmetic of the rounding; the first edge column of a row counted from the centre (least number); C80 for created models |
| C92 | each part of a timestep, a whole run and `create`, against the basin with distances, velocities and concentration multiplied | equivariance of every part under three independent factors; simulation with equal random numbers; induction on steps, parcels, iterations and timesteps |
| C93 | each part of a timestep, runs and `create`, with the composition erased | non-interference: every part commutes with erasing the composition; induction on timesteps; the same for the rounded model (Props/FloatPassive) |
| C95, C96 | time step, end time, `_Job.run`, `output_data`, `output_checkpoint` with a rounding after each operation (`Model/Clock`) | bounds on the drift of the clock by induction; exact multiples; witnesses in double precision |
| C97 | weights, `random_pick` with a rounding after each operation (`Model/FloatWeights`) | signs kept by each operation; interval of draws by rounded partial sums |
| C98 | sediment routing with a rounding after each operation, fields `F`, intermediate results `D` (`Model/FloatSediment`) | each operation keeps signs and stored bounds; induction over steps and parcels; errors of the balance added up |
| C99 | the class as the jobs use it: file, types, checks, seed, domain, updates, finalize (`Model/WholeRun`) | C57–C60 and C58_loaded for the files, C48 and C74 for the model, the loop of C61 and the processes of C64 |
| C100 | water routing with a rounding after each operation (`Model/FloatWater`) | the walk proofs of C10 to C13 need only signs of the weights; discharge as iterates of one rounded addition; fields after an iteration by one rounding each |
| C101 | a timestep with a rounding after each operation (`Model/FloatTimestep`) | invariants over steps, parcels, iterations and timesteps: numbers stay numbers of the fields; C98 and C100 inside |
| C102 | models, jobs, output files and checkpoints with rounding (`Model/FloatRun`) | updates as timesteps of C101; simulation by the clock of C96; two runs that differ only in counters stay in step; Props/FloatChain: runs resumed again and again, by induction on the resumes |
| C103 | the routing models of C10 to C38 | upper bound as an invariant of each part of a timestep: surface from paths, smoothing, flooding, deposition, diffusion (C30), subsidence; induction over timesteps |
| C104 | the functions of a timestep written with checked division and power (Model/Defined) | checked functions equal the unchecked ones; nonnegativity of depth, speed, discharge and deposits as invariant of each step of each parcel; induction over timesteps; C74 for created models |
| C105 | beds, parcels and passes of a rounded run (`timestepsR`), errors as sums of relative roundings | calculus of accumulated relative errors (`Near`) for the convolutions of a pass; per step split of bed and parcel error, induction over steps, parcels, passes and timesteps |
| C106 | the rounded functions of a timestep with checked division and power (Model/FloatDefined) | as C104; rounding keeps signs, so guards on rounded numbers suffice; positive sums of fallback shares; rounded settings of the routers |
| C107 | creation in rounded arithmetic (Model/FloatSetup): sizes, derived quantities, cell types, initial fields | correctly rounded roots do not pass over the radius (half integers are not rounded); bookkeeping of factors 1 ± u; layout for any circle, then C101 and C106 from the configuration on |
| C108 | setters of output settings, output of updates with the settings present then (Model/OutAssign) | invariant over prefixes of a session, with the settings before each update; schedules with changing intervals determine the events; simulation without the assignments that are not read |
| C109 | `hook_init_output_file` and its entries in `init_output_file`, `save_grids_and_figs`, `load_checkpoint` (Model/CustomSave) | loops over dictionaries with distinct keys; induction over saves; frame of what a save leaves as it is, also when it fails |
| C110 | the routing models of C10 to C38 | count of visits and under-relaxation bound the discharge; lower bound of the bed with a bound of the depth of fast cells as an invariant of each part of a timestep; induction over timesteps |
| C111 | the runs of C80 on a tape of real random numbers; Spec/Chance: independent uniform numbers on a probability space | induction over the tree of choices gives a measurable set of tapes and its product measure; equality of laws gives means; strong law of large numbers for disjoint blocks of numbers |
| C112 | Model/Custom: an update with a hook and a possible own version around each method, any functions on the model; C47, C84 | rules that carry a property of all parts to updates and runs (keeps, serves, mimics); reduction of the class without hooks to C84 |
| C113 | Model/Campaign: models in folders with a checkpoint as a class for `run_jobs`; C43, C61, C68 | loading twice is loading once; a relation for runs in several jobs, induction on the jobs with `SamePoint` as invariant; Props/CampaignDisk: the same with the file that is left on disk, an invariant of updates for the last checkpoint and the records it has |
| C114 | Spec/Paths: decisions, their chances; C78, C79, C111 | induction on the rounds of water and on the steps of sediment: a draw makes a decision iff it lies in the interval of the choice; independence turns intersections into products |
| C115 | Model/InletRule: the routing functions with weights of the inlet cells given by a class; C71, C83, C114 | the decisions of a run with own weights are replayed by a run with other numbers; induction on iterations and timesteps |
| C116 | Model/DocClasses: the classes of the documentation as classes of Model/Custom; C29, C112 | relation between runs with and without added attributes, by induction on the calls of an update and on updates; invariant on counts of dry updates and on the switches |
| C117 | Model/Series: np.interp, updates and loop of ChangingVelocityModel as assignments and updates of Model/Assign; C74, C84, C112 | induction on points of the series and on updates; the loop by the lower bound of the time steps |
| C118 | Spec/Local: cells that parcels visited; C83, C29, C31, C33, C27 | account of a cell with zero terms; diffusion leaves a cell alone without flux around it; induction on steps for the reach, on updates for runs; once more for rounded arithmetic, where sums and products of zeros are zero (Props/FloatLocal) |
| C119 | Model/Slope: the tilt as a function on states, and the class that applies it after `__init__` as an engine of Model/Campaign; C74, C71, C36, C83, C113 | number of entries of np.arange against the rounded number of columns; relation of models that differ in what was written, by induction on updates |
| C120 | Model/Region: the overwritten `init_subsidence`; Spec/Region: the region in whole numbers; C74, C71, C34, C38, C65 | square root and arctangent by monotony; runs by those of the base class, whose hypotheses do not depend on the subsidence |
| C121 | Spec/Reseed: folders that differ in the seed; jobs of Model/Jobs, Model/Parallel, Model/Campaign | a map of models that commutes with all calls of a class commutes with jobs, by induction on updates and on jobs |
| C122 | Model/Blobs: the overwritten timestep in Model/Custom; Spec/Blobs: places from random numbers | the sum of the blobs by induction on updates; places by the floor of a product |
| C123 | Model/Calls: methods called from outside; Spec/Calls: rounds, another clock | every method commutes with another clock; the rest by the rules of C112 over lists of calls |
| C124 | Model/CustomResume: a new model with the saved fields of another; Spec/CustomResume: models at the same point, what is known when | relational rule over the steps of an update: each method maps related models to related models; hooks by hypothesis |
| C125 | Spec/Settings: a change of settings as a function of the settings, configurations with the same models and runs | congruence of each routine in what it reads; induction over parcels and timesteps; no sand flux, no diffusion; the same again for the rounded model (Props/FloatSettings) |
| C126 | Spec/Supply: what the parcels carry at their first step, summed over a run; discharge of a configuration | induction over parcels and timesteps; counts of C28; derived quantities of C50, inlet of C51; rounded: half of the last digit on both sides of a whole number, errors of C107 |
| C127 | Spec/Parcels: steps and directions of one parcel, renumbered parcels | refinement of each parcel to a parcel moved alone (walk without the padding of the record), permutations of the log, additivity of the surface sums; construction of random numbers for a renumbered iteration; rounded: paths and discharge (Props/FloatParcels), with a witness that sums of directions depend on the order |
| C128 | Spec/NcSingle: the file with each number rounded once | Model/NcSingle: each write rounds to the type of its variable; refinement to writing a rounded object (C75); a change of the file that commutes with writing (copy on resume); invariant that all saved fields hold single precision numbers; error of the clock sum |
| C129 | each part of a timestep, a whole run and `createR`, against the basin with distances, velocities and concentration multiplied, for every rounding that the factors pass through | as C92 with a hypothesis that products with the factors are exact; powers of two have it for every number of binary digits, and nothing else has it (parity of the digits) |
| C130 | calls of `init_water_iteration`, `run_water_iteration`, `compute_free_surface` and `finalize_water_iteration` in any order, with the discharge and the record of walks that earlier calls leave | refinement of `routeWater`; invariant of the record under any list of calls; the loop commutes with added discharge; geometric decay of the flow by induction; the same in rounded arithmetic, except for sums and decay |
| C131 | Spec/SedSerial: routing that pads the depth anew before each step | simulation: padded copy and depth agree at all cells as long as no parcel leaves upstream; what the copy has above the first row meets a weight of 0; induction over steps and parcels; the same in rounded arithmetic (Props/FloatSerial) |
| C94 | sessions of `update` and `finalize` under two output settings; records of both | simulation relation on sessions; uniqueness of snapshots at a time |

## Disagreements

The code does not always do what the property says. Each entry names the theorem that shows it.

Cells, walks and weights

* `custom_unravel` accepts the index L*W and `custom_ravel` accepts coordinates outside the domain, which give the index of another cell (`C01_unravel_accepts_end`, `C01_ravel_accepts_alias`).
* A draw of exactly 0 picks index 0 even if it has no weight (`C04_zero_draw`).
* With no way downstream water may stay where it is (`C07_may_stay_witness`, `C70_vanish_witness`). Discharge of such a parcel does not reach the boundary.
* A parcel in the first row can step out upstream: water then reads a negative index (`C09_water_witness`, `C10_negative_record_witness`), sediment continues in the last row (`C09_sediment_witness`, `C27_upstream_witness`).
* `_check_for_loops` uses an unset variable if `L0 = 1` (`C13_unbound_witness`); fewer than four steps give an `IndexError` (`C12_small_stepmax_witness`).
* Parcels starting in the same cell bring only one parcel's discharge into it (`C14_start_duplicates_witness`, `C69_fewer_starts`).

Water surface

* A walk that stays in a cell uses the last drop again (`C15_repeat_witness`).
* `Csmooth > 1` overshoots (`C17_overshoot_witness`).
* With a bed below zero the flooding correction can flood a cell above all water around it (`C18_negative_bed_witness`).

Sediment and bed

* One parcel fewer than configured can be routed (`C28_missing_parcel_witness`).
* Diffusion is not conservative at borders and next to land (`C29_border_witness`, `C29_land_witness`), and is unstable for large coefficients (`C30_unstable_witness`). It changes the bed but not the depth.
* Subsidence and the reset of the inlet count as erosion in the sand fraction (see `C33_update`).

Output and checkpoints

* Figure names sort wrongly from 100000 figures on (`C41_sorted_limit`).
* The first update after a resume writes a checkpoint whatever the interval is (`C43_extra_checkpoint`); a missing output file resets the number of saves (`C43_missing_file`); the time since the last save is truncated to a whole number, so a save can be lost (`C43_truncation_witness`).
* The checkpoint is overwritten in place: a crash in that moment loses it (`C44_lost`, `C44_lost_resume`).
* A crash while resuming can lose records (`C45_lost_rename`, `C45_lost_copy`).
* A parallel job that resumes loads its checkpoint twice (`C47_parallel_resume_witness`).
* `save_velocity_figs = False` removes the sediment flux figure, or raises a `KeyError` (`C54_velocity_figs`, `C54_velocity_error`).
* Resuming loses the units of all variables (`C76_units_lost`); a grid that is asked for only on resume fails at the first save (`C76_new_grid`).
* A grid flag that is switched on after creation raises at the next save or is ignored (`C77_on_fails`, `C77_on_ignored`).
* `start_subsidence` is recorded in whole seconds (specification `FixedOk`).

Configuration

* An explicit null is rejected for every option, also for those documented to accept it (`C48_null`).
* Keys next to `ensemble`, `set`, `matrix` are not reported as unused; `If` is (`C49_hidden`, `C49_If`).
* Some accepted configurations divide by zero or give a negative time step (`C50_zero_division`, `C50_negative_step`).
* With `coeff_U_ero_sand` zero, which is accepted, a sand parcel that enters moving water below capacity divides by zero (`C104_threshold`).
* Domains one or two cells wide have an inlet narrower than N0 (`C51_narrow`). Narrow or short domains have an open edge (`C52_open_side`, `C52_open_end`).
* The initial stage of the ocean is 0 for every `H_SL` (`C53_sea_level`).
* `hb = 0` counts as unset (`C55_hb_zero`).
* Several derived values are stale after a runtime change (`C56_sigma_stale`, `C56_diffusion_stale`, `C56_bedload_stale`, `C56_time_step_lost`).
* docs/source/examples/updating_boundary_conditions.rst and variable_velocity.rst change the velocity by an assignment and `create_boundary_conditions`; the sediment routers keep capacity, speed limit, time step and parcel volume of the old velocity (`C84_velocity_alone`). Likewise variable_bedload.rst and the capacity for sand (`C84_bedload_alone`). The docstring of `init_sediment_routers` says the routers should be made again.
* In runs of the documented class with a changing velocity the subsidence of an update stays that of the configured velocity, though the time step changes (`C117_subsidence`); the sea level follows the time.
* The documentation of the class with subsidence in a region says that the region reaches 30 degrees to the left of the flow; it reaches 60 degrees (`C120_angle_witness`).
* The members of an ensemble that resumes from a checkpoint are one and the same run when they run in parallel: the checkpoint sets the generator, the seeds that the preprocessor draws for the members have no effect (`C121_members`, `C121_serial`).
* The documented class with a sloping basin cannot be made if the width is not a whole number of cells and is rounded down (`C119_shape`). Its first record and checkpoint show the bed without the slope, unless the model is made for a parallel job (`C119_alone`, `C119_parallel`). When it resumes, alone or in a serial job, the slope is added once more to the bed of the checkpoint; in a parallel job it is not (`C119_resumed_alone`, `C119_resumed_parallel`, `C119_resumed_twice`).
* Assigning `Length` or `Width` to a model never has an effect but on later checks of `dx` (`C84_unheard`), and values below the cell size, refused in a configuration, are accepted (`C84_small_domain`). Assigning `dx` changes the size of the cells but not their number (`C84_cell_size`); without further calls water and sediment then move over cells of different size (`C84_cell_size_alone`).
* Assigning `coeff_U_*`, `coeff_theta_*`, `subsidence_rate` or `hb` to a model never has an effect (`C84_unheard`), another `Np_water` makes the next update fail (`C84_water_parcels`), and so does switching subsidence on (`C84_subsidence_on`).

Jobs

* Sets that name an `out_dir` share it on resume (`C58_shared`). Ensemble seeds can repeat (`C59_repeated`).
* For a single job the input file wins over options (`C62_file_wins`, `C62_timesteps_ignored`); the command line's default `dryrun` overrides the file (`C62_cli`).
* An error that is not caught stops the following jobs and leaves the model unfinalized (`C63_stops`).
* The queue is joined before it is read: `run_jobs` never returns if the pipe cannot hold all reports (`C64_deadlock`). `parallel: 0` is a `ValueError` (`C64_mode`).
* The rate helper does not check `If` (`C65_rate_unchecked`). Negative verbosity hides messages of level 0 (`C66_negative`).
* Serial jobs share the generator and are all seeded before the first one runs (`C68_serial_start`, `C68_serial_witness`).
* The same with jobs that resume: the first of several serial jobs goes on with the generator state of the last job's checkpoint, so resumed serial jobs do not continue the run as if it had not stopped (`C113_serial_start`, `C113_serial_witness`).
* A run that is resumed twice: the first timestep after a resume always writes a checkpoint (`C43_extra_checkpoint`), usually not together with a save. Its time since the last save is then cut to whole seconds when it is loaded, also in the default setting, where the checkpoints of a run that was not resumed lose nothing. With timesteps that are not whole seconds the second resume therefore saves late (`C113_second_resume`).

Seen while reading, not stated as theorems

* `gamma > 1` gives negative weights. `sed_lag` is not validated. `stepmax <= 0` never stops a sediment parcel by count.
* A time step or sea level rate set while running is not part of the checkpoint.
* The initial ocean velocity exceeds `u_max` if `hb < h0 / 10`.
* Results depend on the level from which elevations are measured, in two places: the flooding correction takes elevation 0 for dry neighbours, and the diffusion takes elevation 0 outside of the domain (`C82_flooding_datum`, `C82_diffusion_datum`). With the default sea level 0, dry cells may have beds between minus the dry depth and 0.
* `ensemble: 0` gives "Config list empty!", an empty set an `IndexError`, an empty matrix a `TypeError`. Calling `run_jobs` twice runs the first jobs again. On resume the job file is appended to, so removed keys stay. Strings are written to job files without quotes: one that reads like a number, a truth value or null becomes that value, and the empty string becomes null (`C81_strings_lost`, `C81_empty_string`). Exactly the plain scalars to which no rule applies come back (`C81_string_iff`); a date, a time `10:30`, `[1]`, `a: b` or `x #y` does not (`C81_survivors`), and spaces at the ends are lost (`C81_spaces`). 
* Units: discharge is labelled cubic meters per second though it is per unit width; legacy coordinates count cells but are labelled meters. Fixed metadata is not updated after runtime changes.
* The help text of the command line says that time options override timesteps; the code does the opposite.
- C86: `show_line` draws an array of pairs `(x, y)` at horizontal `x`, vertical `y`; `show_ind((x, y))` and the pictures
  of the fields have the cell at horizontal `y`, vertical `x`. Of a list of arrays only the last line is returned. The
  lists of indices and the lists of tuples that its documentation names raise an `AttributeError`, the empty list an
  `UnboundLocalError`.
- C87: `_expand_set` takes the header of `jobs_parameters.txt` from the first set and the columns of each row from the
  order of its own set; sets need the same keys, but not in the same order. `[{a: 1, b: 2}, {b: 4, a: 3}]` gives the row
  `job_001,4,3` under `job_id, a, b`.
- C88: a dictionary is documented as `input_file` and accepted, but running a single job from it raises a `TypeError`
  (`C88_single`). With an ensemble and a matrix the seeds are written into the matrix of the user, so the same
  dictionary is refused the next time (`C88_seeds_stay`).
- C89: the log file is opened once per model and never closed, and its logger is found by folder and second. Two models
  made in one folder within one second write every message twice (`C89_twice`).
- C90: when a checkpoint of another folder is resumed, an output file that is already in the folder of the model is kept as
  if it belonged to the branched run; `clobber_netcdf` is not consulted (`C90_mixed`).
- C91: a created basin is not symmetric. The centre column, about which the edge is drawn and around which looping parcels
  turn, is half a column (even width) or one column (odd width) left of the middle (`C91_centre`), so every basin with sea has
  a cell of sea whose mirror image is edge (`C91_edges`); the inlet is off the middle by up to one column (`C91_inlet`). The
  documentation of `_check_for_loops` calls the centre column the midpoint of the inlet, which holds for inlets of 3, 7, 11, …
  columns only (`C91_midpoint`).
- C81: a whole number written with a zero in front is read with base eight, or as a string if it has an 8 or a 9
  (`C81_leading_zero`); PyYAML does this, `custom_yaml_loader` keeps it.
- C84: the depth of the inlet, if only assigned, is that of the inlet cells after the next update, while discharge and
  sediment input keep the old depth (`C84_depth_alone`).
- C92: the size of the cells has an effect besides the unit of distance: mud counts as a deposit from a millionth of a cubic
  meter per cell (`compute_sand_frac`), so the same thickness of mud changes the composition of a bed of large cells but not of
  small ones (`C92_mud_threshold`). All other parts have no absolute horizontal length, time, velocity or concentration.
- C95: the time of a job is compared with a product, the clock is a sum. For a time step that is not a whole number of seconds
  the sum can be below the product after the last update; then one more is made. With an inlet velocity of 1.5 m/s a job of
  10 timesteps makes 11 updates (`C95_one_more`).
- C96: the time since the last record is a sum that is compared with the interval in seconds, so the same happens to records
  (`C96_one_late`); the counter is set to zero, so the delay adds up with every record (`C96_fewer`).
- C97: sediment weights are `float32`. A positive weight below the rounding of the sum of those before it is never chosen
  (`C97_absorbed`, `C97_witness`).
- C98: with 24-bit fields a mud parcel of 10 m³ in still water deposits 10 + 2⁻²⁰ m³ and goes on with a negative volume
  (`C98_mud_negative`). A deposit below half a unit in the last place of the bed leaves the parcel and does not reach the
  bed (`C98_vanishing`): on cells of 50 m, 5 m under sea level, anything below about 6e-4 m³. With a bedload share of 0.8
  and 2000 parcels, 1999 are routed (`C98_missing_parcel`).
- C100: bed plus depth is the water surface only up to one rounding of the depth (`C100_column_inexact`), so C16 and C36 hold
  with this error. The same is true of the bed of the inlet (`C101_inlet_inexact`).
- C107: halfway cases of the numbers of cells and of diffusion passes are decided by rounding errors, not by the rule of rounding
  to even: `C107_passes_tie` (23 passes, not 22), `C107_cells_tie` (8 cells, not 7).
- C108: `checkpoint_dt`, if not given, is `save_dt` according to the documentation of `save_the_checkpoint`; it is the `save_dt` at
  creation, or when `None` was assigned, and does not follow later assignments of `save_dt` (`C108_ckpt_stale`, `C108_ckpt_none`).
- C108: `save_metadata` switched on in a model that was made without output file makes the next due save fail, because there is
  no `output_netcdf` (`C108_no_file`). An `out_dir` assigned later is reported by the attribute and not used (`C108_folder`).
- C109: `_save_any_grids` counts the built-in flags only. A grid added by `hook_init_output_file` is therefore written only if some
  built-in grid is on. With `save_metadata` alone its variable is made and stays empty (`C109_metadata_only`); with neither, as in
  the example of docs/source/examples/custom_saving.rst, no file is made and the added metadata are lost too (`C109_nothing`).
- C109: a run that is resumed and finds its output file does not call the hook. The variables it had added are copied and get no
  further records, and its figures stop (`C109_resumed`). If figures only are saved it is the same (`C109_resumed_figures`). If the
  expected file is missing the hook is called (`C109_resumed_without_file`).
- C109: metadata added under a standard name are replaced by the standard ones without notice (`C109_standard`).
- C124: `TreeThrowModel` of docs/source/examples/overwrite_topo_diffusion.rst cannot be resumed: its trees and counts are not in the
  checkpoint, and start again from nothing (`C124_trees_lost`, `C124_trees_differ`, `C124_trees_witness`).
- C126: docs/source/info/morphodynamics.rst gives the time step as `dV_s / N_p_sed`, which is the volume of a parcel; the time
  step is `dV_s` over the sediment discharge (`C126_documented_step`, `C126_default`: 25000 s against 15.625). The same page gives
  `coeff_theta_sand` and `coeff_theta_mud` as exponents of the depth; the exponents are these times `theta_water`.
  In rounded arithmetic `int(Np_sed * (1 - f_bedload))` may be a parcel short of a whole number: with the default 2000
  parcels and `f_bedload` of 0.8 every timestep has 399 parcels of mud, not 400 (`C126_rounded_witness`).
- C128: the clock is in double, the times of the output file in single precision. In a long run with short intervals two records
  get the same time (`C128_same_time`: half a second, after 335 million timesteps).
- C130: `compute_free_surface` called in a new model, or after `init_water_iteration` and before `run_water_iteration`, reads the last
  entry of an empty array in compiled code, which is not checked (`C130_early`). A `run_water_iteration` without
  `init_water_iteration` before it keeps the marks of parcels that looped earlier (`C130_disqualified`), though all parcels start anew; in a
  new model all parcels are marked from the beginning, so none shapes the surface (`C130_uncleared`).
- C131: the sediment routers carry a padded copy of the depth along. When a parcel leaves upstream (row index -1) the depth is changed in the
  last row but the copy in its first, so later parcels see an old depth in the last row (`C131_stale_witness`). The rows and columns of the copy
  outside of the domain keep the depths from the start of the routing.

## Not expressed

* Drawing (`make_figure`, colours and axes of `debug_tools.py`, lines 28-51 of `strat_preprocess.py`), log text formatting, netCDF library internals, YAML text beyond lines of `key: value` with plain scalars.
* Global attributes of the output file, the netCDF types of added variables, the fill values written at creation.
* Statistical quality of the random generator.
* Floating-point rounding outside of C95 and the properties after it; underflow and overflow.

## Trusted base

* The Lean 4 kernel, and the axioms `propext`, `Classical.choice`, `Quot.sound` (checked for each theorem with `#print axioms`). No theorem uses another axiom.
* The transcription of the Python code into the model definitions, cited line by line.
* Exact arithmetic in place of 32- and 64-bit floats, for the properties before C95. C95 to C98 and C100 to C102 treat the clock, the records, the weights, the random choice, the sediment routing, the water routing, whole timesteps, jobs and resumed runs in rounded arithmetic and say where C39, C61 and C04 differ.
* Powers and roots are parameters with stated facts. `Props/Reals` instantiates them with the real functions, so the facts are met. The comparison with a square root in `create_domain` is squared in the model (`farCells_iff` shows that they agree).
* Draws of exactly 0 are excluded in theorems that assume `PositiveDraws`.
* Division by zero gives 0 in the model. Theorems assume positive denominators where it matters; in timesteps of models that are set up as usual no denominator is zero (C104, in rounded arithmetic C106).
* An error inside a timestep leaves the model unchanged in `simEngine`; jobs do not resume there.
* Files: writing one record is one step, the operating system keeps the order of steps, a torn `npz` file cannot be read. The text round trip of YAML is a function `rt` in the model of the preprocessor; C81 shows that it is the identity for the values listed there. The rules by which PyYAML reads plain scalars, and the texts that Python writes for numbers, are transcribed from their documentation; a float is identified with the decimal number it is written as. A missing parent folder is not modelled.
* Processes: `fork` semantics; the capacity of the pipe is counted in reports.
* A negative `stepmax` is taken as zero.
