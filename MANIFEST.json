{
 "claims": [
  {
   "property": "C01",
   "status": "partial",
   "theorems": [
    "Verif.Props.C01_ravel_unravel",
    "Verif.Props.C01_unravel_ravel",
    "Verif.Props.C01_reject_partial",
    "Verif.Props.C01_unravel_accepts_end",
    "Verif.Props.C01_ravel_accepts_alias"
   ],
   "note": "Round trip proved for all valid cells and indices. The guards accept the one-past-the-end index and negative indices; proved as C01_unravel_accepts_end and C01_ravel_accepts_alias."
  },
  {
   "property": "C02",
   "status": "proved",
   "theorems": [
    "Verif.Props.C02_flat_walk",
    "Verif.Props.C02_alias_only_at_border",
    "Verif.Props.C02_alias_witness",
    "Verif.Props.C02_no_move"
   ],
   "note": ""
  },
  {
   "property": "C03",
   "status": "proved",
   "theorems": [
    "Verif.Props.C03_pad_edge",
    "Verif.Props.C03_neighbourhood",
    "Verif.Props.C03_interior_exact",
    "Verif.Props.C03_centre"
   ],
   "note": ""
  },
  {
   "property": "C04",
   "status": "partial",
   "theorems": [
    "Verif.Props.C04_pick_total",
    "Verif.Props.C04_pick_interval",
    "Verif.Props.C04_positive_weight_partial",
    "Verif.Props.C04_reachable",
    "Verif.Props.C04_zero_draw_witness",
    "Verif.Props.C04_zero_draw"
   ],
   "note": "Exact interval characterisation proved. The draw 0 returns position 0 even if its weight is zero (C04_zero_draw); positivity is proved for positive draws."
  },
  {
   "property": "C05",
   "status": "partial",
   "theorems": [
    "Verif.Props.C05_start_indices",
    "Verif.Props.C05_positive_weight_partial",
    "Verif.Props.C05_default_weights"
   ],
   "note": "For general weights the draw 0 is excluded (see C04); with the default weights all draws are covered."
  },
  {
   "property": "C06",
   "status": "proved",
   "theorems": [
    "Verif.Props.C06_water_distribution",
    "Verif.Props.C06_land"
   ],
   "note": "Non-land cells: distribution and no error; land cells: distribution or all zero, no error."
  },
  {
   "property": "C07",
   "status": "proved",
   "theorems": [
    "Verif.Props.C07_never_land",
    "Verif.Props.C07_never_land_cell",
    "Verif.Props.C07_no_dry_while_wet",
    "Verif.Props.C07_may_stay_witness"
   ],
   "note": ""
  },
  {
   "property": "C08",
   "status": "proved",
   "theorems": [
    "Verif.Props.C08_route",
    "Verif.Props.C08_sediment_distribution",
    "Verif.Props.C08_dry_only_without_wet_way",
    "Verif.Props.C08_error_iff"
   ],
   "note": ""
  },
  {
   "property": "C09",
   "status": "partial",
   "theorems": [
    "Verif.Props.C09_water_witness",
    "Verif.Props.C09_sediment_witness",
    "Verif.Props.C09_water_partial",
    "Verif.Props.C09_sediment_partial"
   ],
   "note": "False in general: witnesses for water and sediment. Proved under the inlet flow condition."
  },
  {
   "property": "C10",
   "status": "partial",
   "theorems": [
    "Verif.Props.C10_no_index_error",
    "Verif.Props.C10_step_kinds",
    "Verif.Props.C10_positions_partial",
    "Verif.Props.C10_weights_admissible",
    "Verif.Props.C10_negative_record_witness"
   ],
   "note": "No index error for any draws and weights. Positions and neighbourhood proved when no weight leads upstream out of the first row; a negative record is possible otherwise (witness)."
  },
  {
   "property": "C11",
   "status": "proved",
   "theorems": [
    "Verif.Props.C11_terminates",
    "Verif.Props.C11_finished_stays"
   ],
   "note": ""
  },
  {
   "property": "C12",
   "status": "proved",
   "theorems": [
    "Verif.Props.C12_record",
    "Verif.Props.C12_no_overflow",
    "Verif.Props.C12_small_stepmax_witness"
   ],
   "note": "For stepmax >= 4; witness of failure for smaller stepmax. C10_no_index_error shows that every write is in range over a whole iteration."
  },
  {
   "property": "C13",
   "status": "proved",
   "theorems": [
    "Verif.Props.C13_disqualified",
    "Verif.Props.C13_left_alone",
    "Verif.Props.C13_relocated",
    "Verif.Props.C13_only_returning",
    "Verif.Props.C13_unbound_witness"
   ],
   "note": "Relocation bounds for L0 >= 2; for L0 = 1 a variable may be unassigned (witness)."
  },
  {
   "property": "C14",
   "status": "proved",
   "theorems": [
    "Verif.Props.C14_cell_accounting",
    "Verif.Props.C14_total",
    "Verif.Props.C14_start_duplicates_witness"
   ],
   "note": "Start flux is counted once per distinct start cell (see C69)."
  },
  {
   "property": "C15",
   "status": "partial",
   "theorems": [
    "Verif.Props.C15_visits",
    "Verif.Props.C15_total_visits",
    "Verif.Props.C15_only_contributors",
    "Verif.Props.C15_elevations_partial",
    "Verif.Props.C15_bound_partial",
    "Verif.Props.C15_repeat_witness",
    "Verif.Props.C15_routed_walks"
   ],
   "note": "Contribution and visit counts proved in full. Elevations and their bound proved for paths without repeated consecutive cells; C15_repeat_witness shows the bound fails otherwise."
  },
  {
   "property": "C16",
   "status": "proved",
   "theorems": [
    "Verif.Props.C16_value",
    "Verif.Props.C16_above"
   ],
   "note": ""
  },
  {
   "property": "C17",
   "status": "proved",
   "theorems": [
    "Verif.Props.C17_bounds",
    "Verif.Props.C17_flat",
    "Verif.Props.C17_edge_unchanged",
    "Verif.Props.C17_land_no_influence",
    "Verif.Props.C17_interior_mean",
    "Verif.Props.C17_overshoot_witness"
   ],
   "note": "For coefficients in [0,1]; C17_overshoot_witness shows what a larger accepted coefficient does."
  },
  {
   "property": "C18",
   "status": "partial",
   "theorems": [
    "Verif.Props.C18_only_dry_shore",
    "Verif.Props.C18_flooded_partial",
    "Verif.Props.C18_unchanged_partial",
    "Verif.Props.C18_value",
    "Verif.Props.C18_negative_bed_witness"
   ],
   "note": "Exact for beds at or above elevation zero. C18_negative_bed_witness: for beds below zero dry neighbours count as water at level zero."
  },
  {
   "property": "C19",
   "status": "proved",
   "theorems": [
    "Verif.Props.C19_iteration",
    "Verif.Props.C19_route"
   ],
   "note": ""
  },
  {
   "property": "C20",
   "status": "proved",
   "theorems": [
    "Verif.Props.C20_iteration",
    "Verif.Props.C20_route",
    "Verif.Props.C20_relaxation",
    "Verif.Props.C20_unvisited",
    "Verif.Props.C20_run"
   ],
   "note": ""
  },
  {
   "property": "C21",
   "status": "proved",
   "theorems": [
    "Verif.Props.C21_iteration",
    "Verif.Props.C21_route",
    "Verif.Props.C21_length",
    "Verif.Props.C21_run"
   ],
   "note": ""
  },
  {
   "property": "C22",
   "status": "proved",
   "theorems": [
    "Verif.Props.C22_run",
    "Verif.Props.C22_quarter_depth"
   ],
   "note": ""
  },
  {
   "property": "C23",
   "status": "proved",
   "theorems": [
    "Verif.Props.C23_run",
    "Verif.Props.C23_carried"
   ],
   "note": ""
  },
  {
   "property": "C24",
   "status": "proved",
   "theorems": [
    "Verif.Props.C24_sediment_routing",
    "Verif.Props.C24_update",
    "Verif.Props.C24_mass",
    "Verif.Props.C24_parcel_count",
    "Verif.Props.C24_cell"
   ],
   "note": ""
  },
  {
   "property": "C25",
   "status": "proved",
   "theorems": [
    "Verif.Props.C25_sediment_routing",
    "Verif.Props.C25_records",
    "Verif.Props.C25_monotone"
   ],
   "note": ""
  },
  {
   "property": "C26",
   "status": "proved",
   "theorems": [
    "Verif.Props.C26_run",
    "Verif.Props.C26_steps",
    "Verif.Props.C26_route"
   ],
   "note": ""
  },
  {
   "property": "C27",
   "status": "partial",
   "theorems": [
    "Verif.Props.C27_no_threshold_partial",
    "Verif.Props.C27_terminates",
    "Verif.Props.C27_steps",
    "Verif.Props.C27_in_domain_partial",
    "Verif.Props.C27_upstream_witness"
   ],
   "note": "Termination and the kind of every step proved in full. In the domain only if the cell in front of the inlet is wet (it stays so if dry_depth is 0, C27_no_threshold_partial): C27_upstream_witness shows a parcel leaving upstream and acting on the last row."
  },
  {
   "property": "C28",
   "status": "partial",
   "theorems": [
    "Verif.Props.C28_counts",
    "Verif.Props.C28_routed_partial",
    "Verif.Props.C28_missing_parcel_witness"
   ],
   "note": "False in general: C28_counts gives the exact count, one parcel is missing if the sand share is not whole (witness)."
  },
  {
   "property": "C29",
   "status": "partial",
   "theorems": [
    "Verif.Props.C29_antisymmetric",
    "Verif.Props.C29_cell",
    "Verif.Props.C29_interior",
    "Verif.Props.C29_held",
    "Verif.Props.C29_balance",
    "Verif.Props.C29_conserved_partial",
    "Verif.Props.C29_border_witness",
    "Verif.Props.C29_land_witness"
   ],
   "note": "Exact balance and antisymmetric exchange proved in full. Volume is conserved only without flux at the border and along held cells; witnesses for both."
  },
  {
   "property": "C30",
   "status": "proved",
   "theorems": [
    "Verif.Props.C30_bounds",
    "Verif.Props.C30_no_extremes",
    "Verif.Props.C30_stability",
    "Verif.Props.C30_unstable_witness"
   ],
   "note": ""
  },
  {
   "property": "C31",
   "status": "proved",
   "theorems": [
    "Verif.Props.C31_sediment_routing",
    "Verif.Props.C31_cell",
    "Verif.Props.C31_total",
    "Verif.Props.C31_nonneg",
    "Verif.Props.C31_mud"
   ],
   "note": ""
  },
  {
   "property": "C32",
   "status": "proved",
   "theorems": [
    "Verif.Props.C32_run"
   ],
   "note": ""
  },
  {
   "property": "C33",
   "status": "proved",
   "theorems": [
    "Verif.Props.C33_update"
   ],
   "note": "The bed change that decides includes subsidence and the inlet reset."
  },
  {
   "property": "C34",
   "status": "proved",
   "theorems": [
    "Verif.Props.C34_sigma",
    "Verif.Props.C34_created",
    "Verif.Props.C34_update",
    "Verif.Props.C34_run",
    "Verif.Props.C34_count"
   ],
   "note": ""
  },
  {
   "property": "C35",
   "status": "proved",
   "theorems": [
    "Verif.Props.C35_sums",
    "Verif.Props.C35_linear"
   ],
   "note": ""
  },
  {
   "property": "C36",
   "status": "proved",
   "theorems": [
    "Verif.Props.C36_update",
    "Verif.Props.C36_run",
    "Verif.Props.C36_flooded"
   ],
   "note": "For inlet depth h0 >= 0."
  },
  {
   "property": "C37",
   "status": "proved",
   "theorems": [
    "Verif.Props.C37_update",
    "Verif.Props.C37_run"
   ],
   "note": ""
  },
  {
   "property": "C38",
   "status": "proved",
   "theorems": [
    "Verif.Props.C38_land"
   ],
   "note": "For domains laid out as create_domain does (SedDomain) and no subsidence on land."
  },
  {
   "property": "C39",
   "status": "proved",
   "theorems": [
    "Verif.Props.C39_schedule",
    "Verif.Props.C39_spacing",
    "Verif.Props.C39_constant"
   ],
   "note": ""
  },
  {
   "property": "C40",
   "status": "proved",
   "theorems": [
    "Verif.Props.C40_records",
    "Verif.Props.C40_times",
    "Verif.Props.C40_kept"
   ],
   "note": ""
  },
  {
   "property": "C41",
   "status": "proved",
   "theorems": [
    "Verif.Props.C41_injective",
    "Verif.Props.C41_sorted",
    "Verif.Props.C41_sorted_limit",
    "Verif.Props.C41_files",
    "Verif.Props.C41_latest"
   ],
   "note": "Distinct names for distinct variables and saves; sorted by save below 100000; C41_sorted_limit shows the order breaks there."
  },
  {
   "property": "C42",
   "status": "proved",
   "theorems": [
    "Verif.Props.C42_schedule",
    "Verif.Props.C42_constant"
   ],
   "note": ""
  },
  {
   "property": "C43",
   "status": "partial",
   "theorems": [
    "Verif.Props.C43_crash_partial",
    "Verif.Props.C43_resume_partial",
    "Verif.Props.C43_default_partial",
    "Verif.Props.C43_extra_checkpoint",
    "Verif.Props.C43_truncation_witness",
    "Verif.Props.C43_missing_file"
   ],
   "note": "False in general: the time since the last save is truncated to a whole number (C43_truncation_witness), a checkpoint follows the first resumed update (C43_extra_checkpoint), and a missing output file restarts the save counter. Proved for whole times since the last save, in particular for the default checkpoint interval and any stopping point."
  },
  {
   "property": "C44",
   "status": "partial",
   "theorems": [
    "Verif.Props.C44_lost",
    "Verif.Props.C44_lost_resume",
    "Verif.Props.C44_crash_partial"
   ],
   "note": "False: the checkpoint is written in place, a stop while it is written leaves none (C44_lost, for every folder). Proved for every other stopping point of every run."
  },
  {
   "property": "C45",
   "status": "partial",
   "theorems": [
    "Verif.Props.C45_one_crash_partial",
    "Verif.Props.C45_complete",
    "Verif.Props.C45_resumes_partial",
    "Verif.Props.C45_lost_rename",
    "Verif.Props.C45_lost_copy",
    "Verif.Props.C45_refused",
    "Verif.Props.C45_start"
   ],
   "note": "Proved for any number of complete resumes and one interrupted at any point. Resuming again after an interrupted resume can lose all records (C45_lost_rename, C45_lost_copy)."
  },
  {
   "property": "C46",
   "status": "proved",
   "theorems": [
    "Verif.Props.C46_accepted",
    "Verif.Props.C46_finalized",
    "Verif.Props.C46_calls"
   ],
   "note": "Life cycle for every sequence of calls; C46_accepted shows that updates of a model that is not finalized are accepted on well laid-out domains."
  },
  {
   "property": "C47",
   "status": "proved",
   "theorems": [
    "Verif.Props.C47_output_calls",
    "Verif.Props.C47_update",
    "Verif.Props.C47_life",
    "Verif.Props.C47_count",
    "Verif.Props.C47_order",
    "Verif.Props.C47_nested",
    "Verif.Props.C47_parallel_resume_witness",
    "Verif.Props.C47_parallel",
    "Verif.Props.C47_deprecated",
    "Verif.Props.C47_names"
   ],
   "note": "For updates and the life of a model. C47_parallel_resume_witness: a resumed parallel job loads its checkpoint a second time without the hook."
  },
  {
   "property": "C48",
   "status": "proved",
   "theorems": [
    "Verif.Props.C48_precedence",
    "Verif.Props.C48_rejected",
    "Verif.Props.C48_typed",
    "Verif.Props.C48_null",
    "Verif.Props.C48_defaults",
    "Verif.Props.C48_not_asked",
    "Verif.Props.C48_input",
    "Verif.Props.C48_load",
    "Verif.Props.C48_no_input",
    "Verif.Props.C48_default_input"
   ],
   "note": "An explicit null is rejected for every parameter (C48_null), also where the default is null; an empty file fails (C48_rejected covers which error is raised). C48_defaults gives the value of every default; C48_load ties the input file to the values a model is made from."
  },
  {
   "property": "C49",
   "status": "partial",
   "theorems": [
    "Verif.Props.C49_report_partial",
    "Verif.Props.C49_hidden",
    "Verif.Props.C49_If"
   ],
   "note": "Proved when no Preprocessor key is present and If is not given. Otherwise false: C49_hidden shows unused keys are not reported beside a Preprocessor key, C49_If that If is reported."
  },
  {
   "property": "C50",
   "status": "partial",
   "theorems": [
    "Verif.Props.C50_validate",
    "Verif.Props.C50_dx_rejected",
    "Verif.Props.C50_cells",
    "Verif.Props.C50_inlet_size",
    "Verif.Props.C50_dry",
    "Verif.Props.C50_derived_partial",
    "Verif.Props.C50_zero_division",
    "Verif.Props.C50_negative_step"
   ],
   "note": "Exact characterisation of accepted configurations. Derived quantities are positive for positive velocity, depth, concentration and itermax; accepted configurations outside these ranges divide by zero or give a negative time step (C50_zero_division, C50_negative_step)."
  },
  {
   "property": "C51",
   "status": "partial",
   "theorems": [
    "Verif.Props.C51_inlet_partial",
    "Verif.Props.C51_narrow"
   ],
   "note": "For domains at least 3 cells wide; C51_narrow shows the inlet is narrower than N0 for 2 cells."
  },
  {
   "property": "C52",
   "status": "partial",
   "theorems": [
    "Verif.Props.C52_types",
    "Verif.Props.C52_closed_partial",
    "Verif.Props.C52_open_side",
    "Verif.Props.C52_open_end",
    "Verif.Props.C52_edge"
   ],
   "note": "For domains at least 2 cells long and 5 wide; C52_open_side and C52_open_end show that smaller domains are not closed. C52_edge gives the edge in terms of the real distance."
  },
  {
   "property": "C53",
   "status": "partial",
   "theorems": [
    "Verif.Props.C53_initial_partial",
    "Verif.Props.C53_sea_level"
   ],
   "note": "With sea level zero; C53_sea_level shows the initial stage does not follow a configured sea level."
  },
  {
   "property": "C54",
   "status": "partial",
   "theorems": [
    "Verif.Props.C54_content",
    "Verif.Props.C54_content_figs",
    "Verif.Props.C54_grids",
    "Verif.Props.C54_grids_only",
    "Verif.Props.C54_figs_partial",
    "Verif.Props.C54_figs_other_partial",
    "Verif.Props.C54_velocity_figs",
    "Verif.Props.C54_velocity_error"
   ],
   "note": "Grids in full, with the field each entry stands for (C54_content). Figures: false for velocity, which removes sedflux instead of itself (C54_velocity_figs) or raises an error (C54_velocity_error); proved for the other figures and for histories that do not switch velocity figures off."
  },
  {
   "property": "C55",
   "status": "partial",
   "theorems": [
    "Verif.Props.C55_hb_partial",
    "Verif.Props.C55_hb_zero",
    "Verif.Props.C55_checkpoint",
    "Verif.Props.C55_active_layer"
   ],
   "note": "A basin depth of zero is treated as unset (C55_hb_zero)."
  },
  {
   "property": "C56",
   "status": "partial",
   "theorems": [
    "Verif.Props.C56_supply",
    "Verif.Props.C56_time_step",
    "Verif.Props.C56_read_partial",
    "Verif.Props.C56_conc",
    "Verif.Props.C56_read_at_once",
    "Verif.Props.C56_time_step_lost",
    "Verif.Props.C56_width_partial",
    "Verif.Props.C56_kept",
    "Verif.Props.C56_bedload_stale",
    "Verif.Props.C56_bedload_refreshed",
    "Verif.Props.C56_subsidence_partial",
    "Verif.Props.C56_sigma_stale",
    "Verif.Props.C56_diffusion_stale",
    "Verif.Props.C56_session"
   ],
   "note": "Discharge, sediment supply and time step follow the values for every history of writes and updates; velocity, depth, rates and bed load read back. Not: concentration reads 100 times the written value (C56_conc), a written time step is forgotten by later writes (C56_time_step_lost), subsidence per step keeps the old time step (C56_sigma_stale), velocity thresholds and inlet cells stay those at creation (C56_kept), the sand router keeps the old bed load fraction (C56_bedload_stale), diffusion keeps the old time step (C56_diffusion_stale). C56_session: runs with changing boundary conditions do not fail."
  },
  {
   "property": "C57",
   "status": "proved",
   "theorems": [
    "Verif.Props.C57_accepted",
    "Verif.Props.C57_product",
    "Verif.Props.C57_count"
   ],
   "note": "Every combination exactly once, with the fixed values and its own folder; C57_accepted: every well formed matrix is expanded."
  },
  {
   "property": "C58",
   "status": "partial",
   "theorems": [
    "Verif.Props.C58_distinct",
    "Verif.Props.C58_loaded",
    "Verif.Props.C58_resume_partial",
    "Verif.Props.C58_below",
    "Verif.Props.C58_shared",
    "Verif.Props.C58_paths"
   ],
   "note": "Distinct folders and loaded configurations for new runs in full. With resume_checkpoint the sets may name a common folder (C58_shared); proved when the sets do not name out_dir."
  },
  {
   "property": "C59",
   "status": "partial",
   "theorems": [
    "Verif.Props.C59_set",
    "Verif.Props.C59_matrix",
    "Verif.Props.C59_set_seeds_partial",
    "Verif.Props.C59_members",
    "Verif.Props.C59_repeated",
    "Verif.Props.C59_one",
    "Verif.Props.C59_rejected"
   ],
   "note": "Number, values and seeds of members. Seeds are drawn with replacement, so members can coincide (C59_repeated); distinct members for distinct draws."
  },
  {
   "property": "C60",
   "status": "proved",
   "theorems": [
    "Verif.Props.C60_accepted",
    "Verif.Props.C60_set",
    "Verif.Props.C60_rejected"
   ],
   "note": "Acceptance and rejection of lists of sets."
  },
  {
   "property": "C61",
   "status": "proved",
   "theorems": [
    "Verif.Props.C61_duration",
    "Verif.Props.C61_none",
    "Verif.Props.C61_end",
    "Verif.Props.C61_run",
    "Verif.Props.C61_timesteps",
    "Verif.Props.C61_years",
    "Verif.Props.C61_clock",
    "Verif.Props.C61_model"
   ],
   "note": "Exact arithmetic; for rounded arithmetic see C95. C61_model: for sound settings of the modelled class a job of n timesteps is n updates and a finalize, and raises nothing."
  },
  {
   "property": "C62",
   "status": "partial",
   "theorems": [
    "Verif.Props.C62_combined",
    "Verif.Props.C62_multi_partial",
    "Verif.Props.C62_file_wins",
    "Verif.Props.C62_single_partial",
    "Verif.Props.C62_timesteps_partial",
    "Verif.Props.C62_timesteps_ignored",
    "Verif.Props.C62_cli",
    "Verif.Props.C62_witness"
   ],
   "note": "Proved for jobs made by a set, matrix or ensemble, and for keys the input file does not have. False for a single job: its input file is read again and wins (C62_file_wins, C62_timesteps_ignored, C62_witness), and the options are not passed to the model."
  },
  {
   "property": "C63",
   "status": "partial",
   "theorems": [
    "Verif.Props.C63_job",
    "Verif.Props.C63_serial",
    "Verif.Props.C63_all_partial",
    "Verif.Props.C63_stops",
    "Verif.Props.C63_made_first",
    "Verif.Props.C63_isolated",
    "Verif.Props.C63_ends",
    "Verif.Props.C63_caught"
   ],
   "note": "Every way a started job can end is specified (Ends) and proved. Jobs are all run and finalized if only RuntimeError, NotImplementedError or ValueError are raised; any other exception leaves the job without finalize or report, and later jobs are not started (C63_stops)."
  },
  {
   "property": "C64",
   "status": "partial",
   "theorems": [
    "Verif.Props.C64_limit",
    "Verif.Props.C64_ends",
    "Verif.Props.C64_continues",
    "Verif.Props.C64_all_run",
    "Verif.Props.C64_raised",
    "Verif.Props.C64_reports_partial",
    "Verif.Props.C64_deadlock",
    "Verif.Props.C64_job",
    "Verif.Props.C64_tagged",
    "Verif.Props.C64_model",
    "Verif.Props.C64_processes",
    "Verif.Props.C64_mode",
    "Verif.Props.C64_refused"
   ],
   "note": "Limit, single start and termination for every interleaving. False for the reports: the queue is read only after all processes were joined, so run_jobs never returns if the pipe cannot hold all reports (C64_deadlock); proved for a pipe that can hold them, and C64_model for the modelled class."
  },
  {
   "property": "C65",
   "status": "proved",
   "theorems": [
    "Verif.Props.C65_scale",
    "Verif.Props.C65_rejected",
    "Verif.Props.C65_invertible",
    "Verif.Props.C65_linear",
    "Verif.Props.C65_monotone",
    "Verif.Props.C65_units",
    "Verif.Props.C65_default",
    "Verif.Props.C65_rate",
    "Verif.Props.C65_rate_accepted",
    "Verif.Props.C65_rate_unchecked"
   ],
   "note": "The rate helper does not check the intermittency factor (C65_rate_unchecked)."
  },
  {
   "property": "C66",
   "status": "partial",
   "theorems": [
    "Verif.Props.C66_log",
    "Verif.Props.C66_out",
    "Verif.Props.C66_monotone",
    "Verif.Props.C66_always",
    "Verif.Props.C66_level0_partial",
    "Verif.Props.C66_negative"
   ],
   "note": "False for negative verbosity (C66_negative), which hides the messages of level 0; proved for verbosity at least 0."
  },
  {
   "property": "C67",
   "status": "proved",
   "theorems": [
    "Verif.Props.C67_least",
    "Verif.Props.C67_below",
    "Verif.Props.C67_monotone",
    "Verif.Props.C67_last",
    "Verif.Props.C67_all",
    "Verif.Props.C67_defined"
   ],
   "note": "Stratigraphy surface computation; drawing of the section not modelled."
  },
  {
   "property": "C68",
   "status": "partial",
   "theorems": [
    "Verif.Props.C68_parallel",
    "Verif.Props.C68_serial_start",
    "Verif.Props.C68_single_partial",
    "Verif.Props.C68_parallel_model",
    "Verif.Props.C68_serial_witness"
   ],
   "note": "Parallel jobs in full. False for serial jobs: they share the generator of the process and all are seeded before the first one runs (C68_serial_start, C68_serial_witness); proved for a single serial job."
  },
  {
   "property": "C69",
   "status": "partial",
   "theorems": [
    "Verif.Props.C69_start_flux_partial",
    "Verif.Props.C69_fewer_starts"
   ],
   "note": "False when parcels share a start cell (C69_fewer_starts); proved for distinct start cells."
  },
  {
   "property": "C70",
   "status": "partial",
   "theorems": [
    "Verif.Props.C70_end_partial",
    "Verif.Props.C70_vanish_witness"
   ],
   "note": "False on dry ground (witness); proved where no weight allows staying."
  },
  {
   "property": "C71",
   "status": "proved",
   "theorems": [
    "Verif.Props.C71_water_iteration",
    "Verif.Props.C71_water_routing",
    "Verif.Props.C71_sediment_parcels",
    "Verif.Props.C71_sediment_routing",
    "Verif.Props.C71_update",
    "Verif.Props.C71_run"
   ],
   "note": "Water routing, sediment routing, whole timesteps and runs of any length."
  },
  {
   "property": "C72",
   "status": "proved",
   "theorems": [
    "Verif.Props.C72_surface"
   ],
   "note": ""
  },
  {
   "property": "C73",
   "status": "proved",
   "theorems": [
    "Verif.Props.C73_sand",
    "Verif.Props.C73_mud",
    "Verif.Props.C73_consecutive"
   ],
   "note": ""
  },
  {
   "property": "C74",
   "status": "proved",
   "theorems": [
    "Verif.Props.C74_created",
    "Verif.Props.C74_run",
    "Verif.Props.C74_load",
    "Verif.Props.C74_default",
    "Verif.Props.C74_real"
   ],
   "note": "From configuration values to any number of updates; C74_real over the real numbers with the real square root and powers; C74_load from an input file, C74_default without one."
  },
  {
   "property": "C75",
   "status": "proved",
   "theorems": [
    "Verif.Props.C75_file",
    "Verif.Props.C75_exists",
    "Verif.Props.C75_none",
    "Verif.Props.C75_run"
   ],
   "note": "For all flags and any states of the model at the saves; C75_run for runs. The start time of subsidence is recorded cut to whole seconds."
  },
  {
   "property": "C76",
   "status": "partial",
   "theorems": [
    "Verif.Props.C76_copy_partial",
    "Verif.Props.C76_units_lost",
    "Verif.Props.C76_new_grid"
   ],
   "note": "All contents but units: C76_units_lost shows that the units of every variable are lost, C76_new_grid that a run resumed with a further grid fails at the first save."
  },
  {
   "property": "C77",
   "status": "partial",
   "theorems": [
    "Verif.Props.C77_off_partial",
    "Verif.Props.C77_on_fails",
    "Verif.Props.C77_on_ignored"
   ],
   "note": "Proved for switching off. Switching on fails at the next save if the file has grids (C77_on_fails) and does nothing if it has metadata only (C77_on_ignored)."
  },
  {
   "property": "C78",
   "status": "proved",
   "theorems": [
    "Verif.Props.C78_water",
    "Verif.Props.C78_water_model",
    "Verif.Props.C78_datum",
    "Verif.Props.C78_sediment"
   ],
   "note": "C78_water is for the weights of one cell, C78_water_model for the array that the water routing uses. For sediment the depth is the one that the router holds."
  },
  {
   "property": "C79",
   "status": "proved",
   "theorems": [
    "Verif.Props.C79_water",
    "Verif.Props.C79_water_count",
    "Verif.Props.C79_sediment",
    "Verif.Props.C79_sediment_count",
    "Verif.Props.C79_water_model",
    "Verif.Props.C79_sand_then_mud",
    "Verif.Props.C79_route_count",
    "Verif.Props.C79_timestep",
    "Verif.Props.C79_run"
   ],
   "note": "Stated with the inductive relation Uses (Spec/Draws): a list of conditions met one after the other by the numbers. Weights are those of C78; directions of parcels that have stopped need no number."
  },
  {
   "property": "C80",
   "status": "proved",
   "theorems": [
    "Verif.Props.C80_water_weights",
    "Verif.Props.C80_sediment_weights",
    "Verif.Props.C80_smooth",
    "Verif.Props.C80_flooding",
    "Verif.Props.C80_surface_walks",
    "Verif.Props.C80_surface",
    "Verif.Props.C80_water_fields",
    "Verif.Props.C80_diffusion",
    "Verif.Props.C80_sediment_step",
    "Verif.Props.C80_end",
    "Verif.Props.C80_choice",
    "Verif.Props.C80_sediment_parcels",
    "Verif.Props.C80_sediment_routing",
    "Verif.Props.C80_timestep",
    "Verif.Props.C80_run",
    "Verif.Props.C80_probability",
    "Verif.Props.C80_no_side",
    "Verif.Props.C80_water_iteration",
    "Verif.Props.C80_water_routing"
   ],
   "note": "Each part of a timestep commutes with the mirror. The random choice goes through directions in a fixed order, so one number does not choose mirrored directions in both basins; the choices are matched instead (Spec.SameChances), and C80_probability says what follows for probabilities. Conditions: those under which no timestep aborts (C71), no edge cell in the first row, a vector norm that does not depend on the sign, numbers above 0 and up to 1."
  },
  {
   "property": "C81",
   "status": "partial",
   "theorems": [
    "Verif.Props.C81_real",
    "Verif.Props.C81_int",
    "Verif.Props.C81_leading_zero",
    "Verif.Props.C81_string",
    "Verif.Props.C81_reads_string",
    "Verif.Props.C81_safe_survives",
    "Verif.Props.C81_plain",
    "Verif.Props.C81_special",
    "Verif.Props.C81_config_partial",
    "Verif.Props.C81_string_iff",
    "Verif.Props.C81_spaces",
    "Verif.Props.C81_strings_lost",
    "Verif.Props.C81_empty_string",
    "Verif.Props.C81_survivors"
   ],
   "note": "Proved for null, truth values, all whole numbers, floats whose text denotes them, and exactly those strings of printable characters that are plain scalars without another meaning (C81_string_iff). False for all other strings: C81_strings_lost (whatever reads the file cannot tell them apart), C81_empty_string, C81_spaces, C81_survivors. Missing from the model: lists, infinities, characters beyond ASCII."
  },
  {
   "property": "C82",
   "status": "partial",
   "theorems": [
    "Verif.Props.C82_weights",
    "Verif.Props.C82_walks",
    "Verif.Props.C82_smooth",
    "Verif.Props.C82_flooding_partial",
    "Verif.Props.C82_surface_partial",
    "Verif.Props.C82_water_iteration_partial",
    "Verif.Props.C82_water_partial",
    "Verif.Props.C82_parcels",
    "Verif.Props.C82_diffusion_partial",
    "Verif.Props.C82_sediment_partial",
    "Verif.Props.C82_sand_fraction",
    "Verif.Props.C82_finalize_partial",
    "Verif.Props.C82_timestep_partial",
    "Verif.Props.C82_run_partial",
    "Verif.Props.C82_run_plain_partial",
    "Verif.Props.C82_flooding_datum",
    "Verif.Props.C82_diffusion_datum"
   ],
   "note": "False in two places: the flooding correction takes elevation 0 for dry and missing neighbours (C82_flooding_datum), the diffusion takes elevation 0 outside (C82_diffusion_datum). Everything else is proved without conditions; a timestep and a run are proved where those two do not matter (LevelFree), and without conditions on what happens if there is neither diffusion nor subsidence and the sea stays high enough (C82_run_plain_partial)."
  },
  {
   "property": "C83",
   "status": "proved",
   "theorems": [
    "Verif.Props.C83_cell",
    "Verif.Props.C83_update",
    "Verif.Props.C83_run",
    "Verif.Props.C83_plain"
   ],
   "note": "The terms are in Spec/Budget and in stepBudget, passGain (Props/Budget). The gain of diffusion is not zero in general, see C29. C83_plain asks for a whole number of sand parcels, see C28."
  },
  {
   "property": "C84",
   "status": "partial",
   "theorems": [
    "Verif.Props.C84_accept",
    "Verif.Props.C84_small_domain",
    "Verif.Props.C84_read",
    "Verif.Props.C84_update",
    "Verif.Props.C84_new",
    "Verif.Props.C84_partial",
    "Verif.Props.C84_named",
    "Verif.Props.C84_velocity_alone",
    "Verif.Props.C84_bedload_alone",
    "Verif.Props.C84_thickness",
    "Verif.Props.C84_depth_alone",
    "Verif.Props.C84_unheard",
    "Verif.Props.C84_cell_size",
    "Verif.Props.C84_cell_size_alone",
    "Verif.Props.C84_steps_alone",
    "Verif.Props.C84_created_heard",
    "Verif.Props.C84_water_parcels",
    "Verif.Props.C84_subsidence_on",
    "Verif.Props.C84_velocity_thresholds"
   ],
   "note": "Proved: which values are accepted, what is read, and C84_partial for sea level and its rise, active layer, smoothing and relaxation, start of subsidence, composition beyond the domain (at once) and slope, iterations, sediment parcels, bed load, beta, lag, alpha, number of steps and, without subsidence, concentration and depth (after both calls). Fails for the rest: C84_cell_size, C84_unheard with C84_created_heard, C84_velocity_thresholds, C84_water_parcels, C84_subsidence_on. The documented examples leave the routers with old values: C84_velocity_alone, C84_bedload_alone. Length and width of the domain are accepted below the cell size, unlike in a configuration (C84_small_domain). Output settings are not modelled as assignable."
  },
  {
   "property": "C85",
   "status": "proved",
   "theorems": [
    "Verif.Props.C85_alone",
    "Verif.Props.C85_repeat",
    "Verif.Props.C85_seeds",
    "Verif.Props.C85_shared"
   ],
   "note": "C85_shared shows why the condition is needed: a second model made in between re-seeds the generator for all."
  },
  {
   "property": "C86",
   "status": "partial",
   "theorems": [
    "Verif.Props.C86_points",
    "Verif.Props.C86_no_pair",
    "Verif.Props.C86_line",
    "Verif.Props.C86_multiline",
    "Verif.Props.C86_list_partial",
    "Verif.Props.C86_list_documented",
    "Verif.Props.C86_pairs_exchanged",
    "Verif.Props.C86_attribute"
   ],
   "note": "Arrays of pairs are drawn with row and column exchanged (C86_pairs_exchanged); of a list of arrays only the last line is returned (C86_list_partial); documented lists of indices or tuples raise (C86_list_documented)."
  },
  {
   "property": "C87",
   "status": "partial",
   "theorems": [
    "Verif.Props.C87_matrix",
    "Verif.Props.C87_set_partial",
    "Verif.Props.C87_order"
   ],
   "note": "Matrices and their ensembles in full. False for sets that list their keys in another order than the first set: their values are put under wrong names (C87_order); proved for sets with one order."
  },
  {
   "property": "C88",
   "status": "partial",
   "theorems": [
    "Verif.Props.C88_refused",
    "Verif.Props.C88_multi_partial",
    "Verif.Props.C88_single",
    "Verif.Props.C88_unchanged_partial",
    "Verif.Props.C88_seeds_stay"
   ],
   "note": "Proved for several jobs, and for the dictionary unless there are an ensemble and a matrix. A single job always raises when run (C88_single); with an ensemble the seeds stay in the matrix and the dictionary is refused from then on (C88_seeds_stay)."
  },
  {
   "property": "C89",
   "status": "partial",
   "theorems": [
    "Verif.Props.C89_once_partial",
    "Verif.Props.C89_others",
    "Verif.Props.C89_twice"
   ],
   "note": "Proved unless another model is made in the same folder within the same second (C89_twice) or a folder has the name of this logger followed by a dot. C89_others: no foreign messages without the first condition."
  },
  {
   "property": "C90",
   "status": "partial",
   "theorems": [
    "Verif.Props.C90_branch_partial",
    "Verif.Props.C90_figures",
    "Verif.Props.C90_reads",
    "Verif.Props.C90_missing",
    "Verif.Props.C90_mixed"
   ],
   "note": "Proved for a folder without output file and a checkpoint whose time since the last save is a whole number of seconds. An output file already in the folder is taken as if it belonged to the branched run, without regard to clobber_netcdf (C90_mixed)."
  },
  {
   "property": "C91",
   "status": "partial",
   "theorems": [
    "Verif.Props.C91_centre",
    "Verif.Props.C91_inlet",
    "Verif.Props.C91_midpoint",
    "Verif.Props.C91_edges",
    "Verif.Props.C91_edges_partial",
    "Verif.Props.C91_twins_partial"
   ],
   "note": "False: the centre column is half a column or a column left of the middle (C91_centre), and every created basin that has any sea has a cell of sea whose mirror image is edge (C91_edges). C91_inlet is the exact position of the inlet for all widths. True: the edge is symmetric about the centre column (C91_edges_partial), and a run is as likely as the mirrored run in the mirrored basin (C91_twins_partial)."
  },
  {
   "property": "C92",
   "status": "partial",
   "theorems": [
    "Verif.Props.C92_timestep_shape",
    "Verif.Props.C92_run_shape",
    "Verif.Props.C92_basin",
    "Verif.Props.C92_water_weights",
    "Verif.Props.C92_water_walks",
    "Verif.Props.C92_surface_walks",
    "Verif.Props.C92_water_fields",
    "Verif.Props.C92_surface",
    "Verif.Props.C92_water_iteration",
    "Verif.Props.C92_water",
    "Verif.Props.C92_volume",
    "Verif.Props.C92_sediment_weights",
    "Verif.Props.C92_parcels",
    "Verif.Props.C92_diffusion",
    "Verif.Props.C92_sediment",
    "Verif.Props.C92_end",
    "Verif.Props.C92_timestep",
    "Verif.Props.C92_run",
    "Verif.Props.C92_run_partial",
    "Verif.Props.C92_created",
    "Verif.Props.C92_model",
    "Verif.Props.C92_slope",
    "Verif.Props.C92_mud_threshold"
   ],
   "note": "Proved for all factors but for the composition of the bed: bed, surface, depth, sea level, velocities, volumes and time (C92_basin, C92_run_shape); with the composition for basins of the same size (C92_run, C92_model). For other sizes mud counts as a deposit from a millionth of a cubic meter per cell, so that small cells keep their composition where large ones change it (C92_mud_threshold); C92_run_partial has the condition that no deposit is between. With a slope the pull of gravity is compared to the velocity, so velocities matter then (C92_slope)."
  },
  {
   "property": "C93",
   "status": "proved",
   "theorems": [
    "Verif.Props.C93_rounded_water",
    "Verif.Props.C93_rounded_sediment",
    "Verif.Props.C93_rounded_end",
    "Verif.Props.C93_rounded_timestep",
    "Verif.Props.C93_rounded_run",
    "Verif.Props.C93_rounded_model",
    "Verif.Props.C93_water",
    "Verif.Props.C93_sediment",
    "Verif.Props.C93_end",
    "Verif.Props.C93_timestep",
    "Verif.Props.C93_run",
    "Verif.Props.C93_model"
   ],
   "note": "C93_water to C93_model in exact, C93_rounded_* in rounded arithmetic."
  },
  {
   "property": "C94",
   "status": "proved",
   "theorems": [
    "Verif.Props.C94_session",
    "Verif.Props.C94_run",
    "Verif.Props.C94_records",
    "Verif.Props.C94_finer",
    "Verif.Props.C94_checkpoints"
   ],
   "note": ""
  },
  {
   "property": "C95",
   "status": "partial",
   "theorems": [
    "Verif.Props.C95_drift",
    "Verif.Props.C95_loop",
    "Verif.Props.C95_endless",
    "Verif.Props.C95_timesteps_partial",
    "Verif.Props.C95_exact_partial",
    "Verif.Props.C95_whole_partial",
    "Verif.Props.C95_default",
    "Verif.Props.C95_one_more"
   ],
   "note": "False: with an inlet velocity of 1.5 m/s every job of 10 timesteps makes 11 updates (C95_one_more). True: n or n + 1 updates if 2 (n + 1)^2 u is at most 1 (C95_timesteps_partial), exactly n if no multiple of the time step is rounded (C95_exact_partial, C95_whole_partial), as for the defaults (C95_default); the drift of the clock is bounded (C95_drift)."
  },
  {
   "property": "C96",
   "status": "partial",
   "theorems": [
    "Verif.Props.C96_saves",
    "Verif.Props.C96_checkpoints",
    "Verif.Props.C96_interval_partial",
    "Verif.Props.C96_one_late",
    "Verif.Props.C96_fewer"
   ],
   "note": "False: with an inlet velocity of 2 m/s and 0.3 percent of sediment, an interval of 12 timesteps gives a record every 13 (C96_one_late), so a run of 156 updates has 13 records instead of 14 (C96_fewer). True: the records are evenly spaced (C96_saves, C96_checkpoints), every k or k + 1 updates (C96_interval_partial)."
  },
  {
   "property": "C97",
   "status": "partial",
   "theorems": [
    "Verif.Props.C97_water",
    "Verif.Props.C97_sediment",
    "Verif.Props.C97_interval",
    "Verif.Props.C97_pick_total",
    "Verif.Props.C97_positive_partial",
    "Verif.Props.C97_sums",
    "Verif.Props.C97_absorbed",
    "Verif.Props.C97_witness"
   ],
   "note": "Proved but for the last part: a positive weight that is lost in the rounded sum of those before it is never chosen (C97_absorbed, C97_witness). C97_water and C97_sediment are about one cell, given weights toward the neighbours, depths and modifications. Underflow and overflow are not modelled."
  },
  {
   "property": "C98",
   "status": "partial",
   "theorems": [
    "Verif.Props.C98_steps",
    "Verif.Props.C98_sand",
    "Verif.Props.C98_mass",
    "Verif.Props.C98_mud_partial",
    "Verif.Props.C98_counts_partial",
    "Verif.Props.C98_mud_negative",
    "Verif.Props.C98_vanishing",
    "Verif.Props.C98_missing_parcel",
    "Verif.Props.C98_routing"
   ],
   "note": "Two parts are false: a mud parcel can carry a negative volume of the size of a rounding error (C98_mud_negative, bounded in C98_mud_partial), and the numbers of parcels can add to less (C98_missing_parcel, C98_counts_partial). C98_vanishing shows that the rounding errors in C98_mass include whole parcels that leave no trace on the bed. Powers are arbitrary monotone functions; underflow and overflow are not modelled."
  },
  {
   "property": "C99",
   "status": "proved",
   "theorems": [
    "Verif.Props.C99_jobs",
    "Verif.Props.C99_first_error",
    "Verif.Props.C99_wrong_type",
    "Verif.Props.C99_records",
    "Verif.Props.C99_matrix",
    "Verif.Props.C99_ensemble",
    "Verif.Props.C99_set",
    "Verif.Props.C99_one_job",
    "Verif.Props.C99_serial",
    "Verif.Props.C99_processes"
   ],
   "note": "C99_matrix, C99_set and C99_ensemble put the preprocessor, the model class and the jobs together; C99_jobs and C99_processes are for any list of files. Several serial jobs share one generator, see C68; C99_serial is for one. Jobs that resume are not covered; a negative seed counts as zero in the model."
  },
  {
   "property": "C100",
   "status": "proved",
   "theorems": [
    "Verif.Props.C100_discharge",
    "Verif.Props.C100_shares",
    "Verif.Props.C100_half_share",
    "Verif.Props.C100_shares_mono",
    "Verif.Props.C100_shares_pos",
    "Verif.Props.C100_saturated",
    "Verif.Props.C100_ground",
    "Verif.Props.C100_iteration_fields",
    "Verif.Props.C100_fields",
    "Verif.Props.C100_iteration_stored",
    "Verif.Props.C100_stored",
    "Verif.Props.C100_ready",
    "Verif.Props.C100_column_inexact",
    "Verif.Props.C100_weights",
    "Verif.Props.C100_water_iteration",
    "Verif.Props.C100_water_routing",
    "Verif.Props.C100_step_kinds",
    "Verif.Props.C100_terminates",
    "Verif.Props.C100_finished_stays",
    "Verif.Props.C100_record",
    "Verif.Props.C100_routed_walks"
   ],
   "note": "The steps of the free surface computation are rounded as written; the theorems say of its result only that the surface is a number of its precision and not below the sea. Bed plus depth is not exactly the surface (C100_column_inexact). Powers and the length of a vector are arbitrary functions; underflow and overflow are not modelled."
  },
  {
   "property": "C101",
   "status": "proved",
   "theorems": [
    "Verif.Props.C101_sediment_routing",
    "Verif.Props.C101_fields",
    "Verif.Props.C101_subsidence",
    "Verif.Props.C101_update",
    "Verif.Props.C101_run",
    "Verif.Props.C101_clock",
    "Verif.Props.C101_stored",
    "Verif.Props.C101_steps",
    "Verif.Props.C101_fractions",
    "Verif.Props.C101_untouched",
    "Verif.Props.C101_land",
    "Verif.Props.C101_composition",
    "Verif.Props.C101_example",
    "Verif.Props.C101_inlet_inexact"
   ],
   "note": "Put together from C98 and C100; diffusion, subsidence, composition, clock and sea level are modelled in Model/FloatTimestep. At the inlet bed plus depth is the surface up to one rounding only (C101_inlet_inexact). C101_fractions and C101_steps need that 1 is a number of the fields. Underflow and overflow are not modelled."
  },
  {
   "property": "C102",
   "status": "partial",
   "theorems": [
    "Verif.Props.C102_chain_partial",
    "Verif.Props.C102_saves",
    "Verif.Props.C102_checkpoints",
    "Verif.Props.C102_resume_partial",
    "Verif.Props.C102_default_partial",
    "Verif.Props.C102_example",
    "Verif.Props.C102_states",
    "Verif.Props.C102_accepted",
    "Verif.Props.C102_clock",
    "Verif.Props.C102_model_partial",
    "Verif.Props.C102_parallel_partial"
   ],
   "note": "Proved: states, acceptance, clock, saves and checkpoints. Partial: the number of updates of a job is n or n+1 (false as n, C95_one_more); a resume needs a whole number of seconds since the last save in the checkpoint (C43_truncation_witness) and later checkpoints may come at other times (C43_extra_checkpoint). In the default setting, where checkpoints come with saves, the resume is exact (C102_default_partial). With timesteps of whole seconds any number of resumes is exact, from whatever checkpoints are left (C102_chain_partial)."
  },
  {
   "property": "C103",
   "status": "proved",
   "theorems": [
    "Verif.Props.C103_update",
    "Verif.Props.C103_run",
    "Verif.Props.C103_falling",
    "Verif.Props.C103_rising",
    "Verif.Props.C103_undiffused",
    "Verif.Props.C103_start",
    "Verif.Props.C103_created",
    "Verif.Props.C103_example",
    "Verif.Props.C103_unstable_witness"
   ],
   "note": "The condition on diffusion is that of C30 for the sand flux of each timestep; without it a hole can turn into a hill (C103_unstable_witness). The bound is generous (1350 m for the default domain, C103_example) because parcels that return to their path are moved and may still count for the surface, so that a step can be as long as the domain. The bound from below is C110."
  },
  {
   "property": "C104",
   "status": "proved",
   "theorems": [
    "Verif.Props.C104_update",
    "Verif.Props.C104_run",
    "Verif.Props.C104_created",
    "Verif.Props.C104_threshold"
   ],
   "note": "Model/Defined writes the functions of a timestep once more with every division and power checked. Exact arithmetic: a denominator that underflows is outside the model. Divisions by literals are not checked; creation has its own checks (C50). The condition on the threshold is needed: C104_threshold."
  },
  {
   "property": "C105",
   "status": "proved",
   "theorems": [
    "Verif.Props.C105_routing",
    "Verif.Props.C105_update",
    "Verif.Props.C105_run",
    "Verif.Props.C105_exact",
    "Verif.Props.C105_plain"
   ],
   "note": "Volumes are measured with the area of a cell as the routers compute it (dx rounded, squared, rounded). The error is a sum over what the run did; it is not bounded by parameters alone."
  },
  {
   "property": "C106",
   "status": "proved",
   "theorems": [
    "Verif.Props.C106_update",
    "Verif.Props.C106_run",
    "Verif.Props.C106_nonneg",
    "Verif.Props.C106_created",
    "Verif.Props.C106_threshold"
   ],
   "note": "Model/FloatDefined writes the rounded functions once more with every division and power checked at the rounded numbers. Underflow is outside the model: a quotient of positive numbers stays positive. Creation is in exact arithmetic; C106_created allows any initial fields that are not negative."
  },
  {
   "property": "C107",
   "status": "proved",
   "theorems": [
    "Verif.Props.C107_types",
    "Verif.Props.C107_cells",
    "Verif.Props.C107_cells_same",
    "Verif.Props.C107_cells_whole",
    "Verif.Props.C107_derived",
    "Verif.Props.C107_created",
    "Verif.Props.C107_initial",
    "Verif.Props.C107_run",
    "Verif.Props.C107_passes",
    "Verif.Props.C107_default",
    "Verif.Props.C107_types_real",
    "Verif.Props.C107_passes_tie",
    "Verif.Props.C107_cells_tie"
   ],
   "note": "Square roots and powers are those of the oracle, rounded. Halfway cases are decided by rounding: 22.5 passes become 23 where exact arithmetic makes 22 (C107_passes_tie), 1.5 m in cells of 0.2 m are 8 cells where the quotient of the two doubles is nearest to 7 (C107_cells_tie)."
  },
  {
   "property": "C108",
   "status": "partial",
   "theorems": [
    "Verif.Props.C108_schedule_unique",
    "Verif.Props.C108_fields",
    "Verif.Props.C108_saves",
    "Verif.Props.C108_figures_partial",
    "Verif.Props.C108_checkpoints",
    "Verif.Props.C108_ckpt_assigned",
    "Verif.Props.C108_ckpt_none",
    "Verif.Props.C108_ckpt_stale",
    "Verif.Props.C108_without_effect",
    "Verif.Props.C108_folder",
    "Verif.Props.C108_update_ok",
    "Verif.Props.C108_no_file",
    "Verif.Props.C108_succeeds_partial"
   ],
   "note": "False as claimed for checkpoint_dt, which stays what it was at creation when save_dt is assigned (C108_ckpt_stale), for save_metadata switched on in a model made without output file (C108_no_file), and for velocity figures switched off (C54_velocity_error); proved without these."
  },
  {
   "property": "C109",
   "status": "partial",
   "theorems": [
    "Verif.Props.C109_saved_partial",
    "Verif.Props.C109_nothing",
    "Verif.Props.C109_metadata_only",
    "Verif.Props.C109_resumed",
    "Verif.Props.C109_resumed_without_file",
    "Verif.Props.C109_resumed_figures",
    "Verif.Props.C109_standard",
    "Verif.Props.C109_bad_dimension",
    "Verif.Props.C109_bad_figure"
   ],
   "note": "Proved for new models with at least one built-in grid switched on. False otherwise: without built-in grids and metadata, as in the documented example, no file is made (C109_nothing); with metadata only the added grids stay empty (C109_metadata_only); after a resume the hook is not called and nothing it added is saved any more (C109_resumed, C109_resumed_figures)."
  },
  {
   "property": "C110",
   "status": "proved",
   "theorems": [
    "Verif.Props.C110_discharge",
    "Verif.Props.C110_update",
    "Verif.Props.C110_run",
    "Verif.Props.C110_steady",
    "Verif.Props.C110_flow",
    "Verif.Props.C110_undiffused",
    "Verif.Props.C110_start",
    "Verif.Props.C110_created",
    "Verif.Props.C110_always",
    "Verif.Props.C110_between",
    "Verif.Props.C110_length",
    "Verif.Props.C110_example",
    "Verif.Props.C110_unstable_witness"
   ],
   "note": "The condition on diffusion bounds the share of its height that a bed gives away in the passes of one timestep, because the speed is not computed anew between sand and mud; without it diffusion alone can dig (C110_unstable_witness). The bound by the parcels alone (C110_always) is far from what runs show, 27 km for the default domain, since nothing keeps all parcels from crossing one cell in all their steps; with an observed greatest discharge it is of the order of channel depths, 24 m for 20 m2/s (C110_example). Exact arithmetic."
  },
  {
   "property": "C111",
   "status": "proved",
   "theorems": [
    "Verif.Props.C111_choice",
    "Verif.Props.C111_starts",
    "Verif.Props.C111_run",
    "Verif.Props.C111_meaning",
    "Verif.Props.C111_finite",
    "Verif.Props.C111_mean",
    "Verif.Props.C111_ensemble",
    "Verif.Props.C111_frequency",
    "Verif.Props.C111_created"
   ],
   "note": "Measure theory of Mathlib; exact arithmetic over the reals, square roots and powers are the real ones (C111_created). Numbers are taken from (0, 1]; the generator of the program is not proved to be independent or uniform, this is the hypothesis RandomNumbers (met by a product measure, numbers_exist). That the seeds of an ensemble give runs with numbers of their own is part of the hypothesis."
  },
  {
   "property": "C112",
   "status": "proved",
   "theorems": [
    "Verif.Props.C112_quiet",
    "Verif.Props.C112_quiet_run",
    "Verif.Props.C112_fitting",
    "Verif.Props.C112_between",
    "Verif.Props.C112_compared",
    "Verif.Props.C112_safe",
    "Verif.Props.C112_calls",
    "Verif.Props.C112_traced",
    "Verif.Props.C112_late_witness"
   ],
   "note": "Exact arithmetic. A hook or own method is any function from models to models or errors. Not modelled: hooks that change the size of the arrays or of the inlet, that write into the record of walks before run_water_iteration, or hooks of creation and output (C47, C109). The restriction to changes before finalize_timestep cannot be left out (C112_late_witness)."
  },
  {
   "property": "C113",
   "status": "partial",
   "theorems": [
    "Verif.Props.C113_loaded_twice",
    "Verif.Props.C113_refused",
    "Verif.Props.C113_missing",
    "Verif.Props.C113_resumed_partial",
    "Verif.Props.C113_started",
    "Verif.Props.C113_series_partial",
    "Verif.Props.C113_end_time",
    "Verif.Props.C113_serial_start",
    "Verif.Props.C113_serial_witness",
    "Verif.Props.C113_left_partial",
    "Verif.Props.C113_second_resume"
   ],
   "note": "Partial: for sets of serial jobs it fails, since all jobs are made before the first one runs, so the first goes on with the random numbers of the last checkpoint (C113_serial_start, C113_serial_witness); and the time since the last save must be a whole number in the checkpoint (C43_truncation_witness). One serial job alone is covered. In C113_series_partial the checkpoint is that of the end of the job before; in C113_left_partial it is whatever file the jobs before left, with timesteps of whole seconds. With other timesteps a second resume is not exact (C113_second_resume)."
  },
  {
   "property": "C114",
   "status": "proved",
   "theorems": [
    "Verif.Props.C114_product",
    "Verif.Props.C114_water_law",
    "Verif.Props.C114_sediment_law",
    "Verif.Props.C114_possible",
    "Verif.Props.C114_created",
    "Verif.Props.C114_water",
    "Verif.Props.C114_sediment",
    "Verif.Props.C114_run"
   ],
   "note": "Exact arithmetic; probabilities over the reals, generators are hypotheses as in C111. That paths give back the numbers that made them (C114_water, C114_sediment) needs an inlet whose columns are different, which that of a created model is (created_inlet). For whole runs the decisions are sufficient for the fields; the converse is not claimed there."
  },
  {
   "property": "C115",
   "status": "proved",
   "theorems": [
    "Verif.Props.C115_run",
    "Verif.Props.C115_transfer",
    "Verif.Props.C115_water_starts",
    "Verif.Props.C115_sediment_starts",
    "Verif.Props.C115_ones",
    "Verif.Props.C115_unit",
    "Verif.Props.C115_water_only",
    "Verif.Props.C115_sediment_only",
    "Verif.Props.C115_mud_last",
    "Verif.Props.C115_water_law",
    "Verif.Props.C115_sediment_law",
    "Verif.Props.C115_balance"
   ],
   "note": "Exact arithmetic. Own weights are functions of parameters and fields, usable in all states with depths that are not negative (UsableRule); rules that draw random numbers or read attributes of their own are not modelled. For weights with total zero the code divides zero by zero; not covered."
  },
  {
   "property": "C116",
   "status": "proved",
   "theorems": [
    "Verif.Props.C116_transparent",
    "Verif.Props.C116_off",
    "Verif.Props.C116_trees",
    "Verif.Props.C116_thrown",
    "Verif.Props.C116_pass",
    "Verif.Props.C116_held",
    "Verif.Props.C116_safe",
    "Verif.Props.C116_bedload",
    "Verif.Props.C116_capacity",
    "Verif.Props.C116_bedload_safe",
    "Verif.Props.C116_balance_witness"
   ],
   "note": "Exact arithmetic. Saved variables, figures and messages of the classes are not modelled. Tree throw does not keep the volume of sediment (C116_balance_witness), which the documentation does not promise. C116_bedload needs t1 <= t2 and a timestep that is not negative."
  },
  {
   "property": "C117",
   "status": "proved",
   "theorems": [
    "Verif.Props.C117_bounds",
    "Verif.Props.C117_interp",
    "Verif.Props.C117_run",
    "Verif.Props.C117_ends",
    "Verif.Props.C117_zero",
    "Verif.Props.C117_subsidence"
   ],
   "note": "Exact arithmetic. Times of the series increase strictly (C117_interp; C117_bounds needs no order). That routers and subsidence do not follow is the behaviour of the code (C84_velocity_alone, C117_subsidence), while the documentation speaks of updated boundary conditions."
  },
  {
   "property": "C118",
   "status": "proved",
   "theorems": [
    "Verif.Props.C118_rounded_update",
    "Verif.Props.C118_rounded_run",
    "Verif.Props.C118_rounded_reach",
    "Verif.Props.C118_rounded_out_of_reach",
    "Verif.Props.C118_update",
    "Verif.Props.C118_run",
    "Verif.Props.C118_reach",
    "Verif.Props.C118_out_of_reach"
   ],
   "note": "In exact arithmetic, and in rounded arithmetic to the last digit (C118_rounded_update, C118_rounded_run, C118_rounded_reach, C118_rounded_out_of_reach). The reach leaves out the last two rows, where a parcel that leaves upstream at the inlet acts by a negative row index (C27_upstream_witness). For water, cells that no parcel visits are covered by C20_unvisited."
  },
  {
   "property": "C119",
   "status": "proved",
   "theorems": [
    "Verif.Props.C119_shape",
    "Verif.Props.C119_tilted",
    "Verif.Props.C119_centred",
    "Verif.Props.C119_same_runs",
    "Verif.Props.C119_alone",
    "Verif.Props.C119_parallel",
    "Verif.Props.C119_serial_parallel",
    "Verif.Props.C119_resumed_alone",
    "Verif.Props.C119_resumed_parallel",
    "Verif.Props.C119_resumed_twice",
    "Verif.Props.C119_first_paths",
    "Verif.Props.C119_run"
   ],
   "note": "Exact arithmetic (np.arange with exact quotients). The theorems on jobs hold for any change of fields at the end of the constructor; C119_resumed_parallel for those that change the bed only."
  },
  {
   "property": "C120",
   "status": "proved",
   "theorems": [
    "Verif.Props.C120_region",
    "Verif.Props.C120_create",
    "Verif.Props.C120_sigma",
    "Verif.Props.C120_run",
    "Verif.Props.C120_shown",
    "Verif.Props.C120_angle_witness"
   ],
   "note": "Exact arithmetic; square root, arctangent and pi are functions with the laws AnglesOk, which hold for the real ones (realAnglesOk). C120_angle_witness shows that the region is wider than the documentation says."
  },
  {
   "property": "C121",
   "status": "proved",
   "theorems": [
    "Verif.Props.C121_made",
    "Verif.Props.C121_serial",
    "Verif.Props.C121_members",
    "Verif.Props.C121_fresh"
   ],
   "note": "Folders and models as in C113. C121_members compares two jobs of one set; the models differ in the seed that is recorded only."
  },
  {
   "property": "C122",
   "status": "proved",
   "theorems": [
    "Verif.Props.C122_run",
    "Verif.Props.C122_small",
    "Verif.Props.C122_last",
    "Verif.Props.C122_rises",
    "Verif.Props.C122_same",
    "Verif.Props.C122_sand",
    "Verif.Props.C122_volume"
   ],
   "note": "Exact arithmetic; the exponential function and pi are given, positive where needed. Output is that of C116."
  },
  {
   "property": "C123",
   "status": "proved",
   "theorems": [
    "Verif.Props.C123_safe",
    "Verif.Props.C123_names",
    "Verif.Props.C123_clock",
    "Verif.Props.C123_rounds",
    "Verif.Props.C123_first",
    "Verif.Props.C123_parts"
   ],
   "note": "Exact arithmetic; output of update and the warnings of old names are not part of it, nor are calls of the parts of a water iteration (see C130)."
  },
  {
   "property": "C124",
   "status": "proved",
   "theorems": [
    "Verif.Props.C124_runs",
    "Verif.Props.C124_resume",
    "Verif.Props.C124_again",
    "Verif.Props.C124_bedload",
    "Verif.Props.C124_not_kept",
    "Verif.Props.C124_plain",
    "Verif.Props.C124_trees_lost",
    "Verif.Props.C124_trees_differ",
    "Verif.Props.C124_series",
    "Verif.Props.C124_trees_witness"
   ],
   "note": "Exact arithmetic; saves and records are not part of it (see C43). What a class may use at each step is spelled out in Spec/CustomResume: attributes of an update that are not kept may be used only after the update has set them. C124_trees_lost, C124_trees_differ and C124_trees_witness show the documented class that does not resume."
  },
  {
   "property": "C125",
   "status": "proved",
   "theorems": [
    "Verif.Props.C125_rounded_mud",
    "Verif.Props.C125_rounded_sand",
    "Verif.Props.C125_rounded_subsidence",
    "Verif.Props.C125_rounded_before",
    "Verif.Props.C125_rounded_weight",
    "Verif.Props.C125_rounded_smoothing",
    "Verif.Props.C125_rounded_first",
    "Verif.Props.C125_rounded_config_mud",
    "Verif.Props.C125_rounded_config_sand",
    "Verif.Props.C125_rounded_config_subsidence",
    "Verif.Props.C125_rounded_config_weight",
    "Verif.Props.C125_rounded_config_before",
    "Verif.Props.C125_rounded_config_first",
    "Verif.Props.C125_mud",
    "Verif.Props.C125_sand",
    "Verif.Props.C125_subsidence",
    "Verif.Props.C125_before",
    "Verif.Props.C125_weight",
    "Verif.Props.C125_smoothing",
    "Verif.Props.C125_first",
    "Verif.Props.C125_config_mud",
    "Verif.Props.C125_config_sand",
    "Verif.Props.C125_config_subsidence",
    "Verif.Props.C125_config_weight",
    "Verif.Props.C125_config_before",
    "Verif.Props.C125_config_first"
   ],
   "note": "Proved in exact and (C125_rounded_*) in rounded arithmetic, where only the number of passes of the diffusion is kept; what is written to the output file about the settings themselves differs, of course. C125_mud to C125_first are about settings of a model, one list per run so that settings may also be assigned between timesteps; C125_config_* are about configurations."
  },
  {
   "property": "C126",
   "status": "proved",
   "theorems": [
    "Verif.Props.C126_rounded_entered",
    "Verif.Props.C126_rounded_share",
    "Verif.Props.C126_rounded_count",
    "Verif.Props.C126_rounded_supply",
    "Verif.Props.C126_rounded_witness",
    "Verif.Props.C126_entered",
    "Verif.Props.C126_step",
    "Verif.Props.C126_supply",
    "Verif.Props.C126_growth",
    "Verif.Props.C126_documented_step",
    "Verif.Props.C126_default"
   ],
   "note": "Exact arithmetic, and C126_rounded_* in rounded arithmetic: with numbers of p binary digits the counts are never more than configured in total and at most one less, the volumes those of the exact formula up to ten roundings. C126_rounded_witness: with 2000 parcels and f_bedload of 0.8 there are 399 parcels of mud instead of 400. C126_documented_step shows that the time step given in docs/source/info/morphodynamics.rst is not the time step."
  },
  {
   "property": "C127",
   "status": "proved",
   "theorems": [
    "Verif.Props.C127_rounded_alone",
    "Verif.Props.C127_rounded_order",
    "Verif.Props.C127_rounded_exists",
    "Verif.Props.C127_rounded_direction_witness",
    "Verif.Props.C127_alone",
    "Verif.Props.C127_order",
    "Verif.Props.C127_exists",
    "Verif.Props.C127_surface",
    "Verif.Props.C127_iteration"
   ],
   "note": "C127_alone to C127_iteration in exact arithmetic; in rounded arithmetic (C127_rounded_*) paths and discharge are covered, and C127_rounded_direction_witness shows that the direction of the flow does depend on the numbering. Covers iterations that return; in the code a loop found in the cell (1, CTR) would take over px, py of another parcel (the error unbound of the model), which needs an inlet of one row."
  },
  {
   "property": "C128",
   "status": "partial",
   "theorems": [
    "Verif.Props.C128_file",
    "Verif.Props.C128_resume",
    "Verif.Props.C128_records",
    "Verif.Props.C128_run",
    "Verif.Props.C128_default",
    "Verif.Props.C128_times_partial",
    "Verif.Props.C128_same_time"
   ],
   "note": "The times of the records are distinct only in runs that are not too long (C128_times_partial: up to two million timesteps); C128_same_time is a run with two records of the same time. The rest is proved in full (C128_file, C128_records, C128_run, C128_resume)."
  },
  {
   "property": "C129",
   "status": "proved",
   "theorems": [
    "Verif.Props.C129_water_weights",
    "Verif.Props.C129_water_walks",
    "Verif.Props.C129_surface_walks",
    "Verif.Props.C129_water_fields",
    "Verif.Props.C129_water_iteration",
    "Verif.Props.C129_water",
    "Verif.Props.C129_volume",
    "Verif.Props.C129_sediment_weights",
    "Verif.Props.C129_parcels",
    "Verif.Props.C129_diffusion",
    "Verif.Props.C129_sediment",
    "Verif.Props.C129_end",
    "Verif.Props.C129_timestep",
    "Verif.Props.C129_run",
    "Verif.Props.C129_timestep_shape",
    "Verif.Props.C129_run_shape",
    "Verif.Props.C129_created",
    "Verif.Props.C129_model",
    "Verif.Props.C129_basin",
    "Verif.Props.C129_two",
    "Verif.Props.C129_only_two",
    "Verif.Props.C129_factors"
   ],
   "note": "Overflow and underflow are left out, as everywhere in rounded arithmetic. C129_basin: every size, apart from the composition of the bed (see C92_mud_threshold); C129_model: with the composition for basins of the same size. C129_only_two: no other factors are exact."
  },
  {
   "property": "C130",
   "status": "proved",
   "theorems": [
    "Verif.Props.C130_rounded_iteration",
    "Verif.Props.C130_rounded_shape",
    "Verif.Props.C130_rounded_route",
    "Verif.Props.C130_rounded_safe",
    "Verif.Props.C130_rounded_early",
    "Verif.Props.C130_rounded_disqualified",
    "Verif.Props.C130_rounded_uncleared",
    "Verif.Props.C130_rounded_adds",
    "Verif.Props.C130_rounded_settles",
    "Verif.Props.C130_rounded_exact",
    "Verif.Props.C130_iteration",
    "Verif.Props.C130_shape",
    "Verif.Props.C130_route",
    "Verif.Props.C130_safe",
    "Verif.Props.C130_early",
    "Verif.Props.C130_new",
    "Verif.Props.C130_adds",
    "Verif.Props.C130_disqualified",
    "Verif.Props.C130_uncleared",
    "Verif.Props.C130_settles"
   ],
   "note": "Exact arithmetic; C130_rounded_*: in rounded arithmetic, where C130_rounded_adds leaves the sums and C130_rounded_settles the flow aside. C130_early: the water surface without a routing reads outside of an array; C130_safe says that nothing else goes wrong. The number of parcels is not changed between the calls."
  },
  {
   "property": "C131",
   "status": "partial",
   "theorems": [
    "Verif.Props.C131_rounded_fresh_partial",
    "Verif.Props.C131_rounded_groups_partial",
    "Verif.Props.C131_fresh_partial",
    "Verif.Props.C131_groups_partial",
    "Verif.Props.C131_timestep_partial",
    "Verif.Props.C131_not_alone",
    "Verif.Props.C131_stale_witness"
   ],
   "note": "Exact arithmetic, and C131_rounded_* in rounded arithmetic. After the water routing of a timestep the condition on the flow is met (C131_timestep_partial). Missing: parcels that leave upstream (C27_no_threshold_partial says when none does), and flow upstream or sideways in the first row; for the former C131_stale_witness shows that the copy of the depth does not follow. C131_not_alone shows that parcels do see each other."
  }
 ]
}