{
 "claims": [
  {
   "property": "C01",
   "status": "proved",
   "theorems": [
    "PD.Props.C01_roundtrip_via_material",
    "PD.Props.C01_roundtrip_via_microscope",
    "PD.Props.C01_conversion_value"
   ],
   "note": ""
  },
  {
   "property": "C02",
   "status": "proved",
   "theorems": [
    "PD.Props.C02_resize",
    "PD.Props.C02_zoom",
    "PD.Props.C02_size_and_centre_determine",
    "PD.Props.C02_zoom_zoom",
    "PD.Props.C02_shift"
   ],
   "note": ""
  },
  {
   "property": "C03",
   "status": "proved",
   "theorems": [
    "PD.Props.C03_atoms_in_view",
    "PD.Props.C03_mem_iff"
   ],
   "note": ""
  },
  {
   "property": "C04",
   "status": "proved",
   "theorems": [
    "PD.Props.C04_tolerance_exact",
    "PD.Props.C04_tolerance_mono",
    "PD.Props.C04_agrees_with_material"
   ],
   "note": ""
  },
  {
   "property": "C05",
   "status": "proved",
   "theorems": [
    "PD.Props.C05_single_silicon_forever",
    "PD.Props.C05_positions_never_change"
   ],
   "note": ""
  },
  {
   "property": "C06",
   "status": "proved",
   "theorems": [
    "PD.Props.C06_moves_to_neighbours"
   ],
   "note": ""
  },
  {
   "property": "C07",
   "status": "proved",
   "theorems": [
    "PD.Props.C07_times_within_dwell",
    "PD.Props.C07_no_dwell_no_change",
    "PD.Props.C07_terminates",
    "PD.Props.C07_zero_rate",
    "PD.Props.C07_zero_draws_never_end"
   ],
   "note": ""
  },
  {
   "property": "C08",
   "status": "proved",
   "theorems": [
    "PD.Props.C08_reset_centres_silicon"
   ],
   "note": ""
  },
  {
   "property": "C09",
   "status": "proved",
   "theorems": [
    "PD.Props.C09_silicon_in_safe_area",
    "PD.Props.C09_centred_by_reset",
    "PD.Props.C09_centred_by_move"
   ],
   "note": ""
  },
  {
   "property": "C10",
   "status": "proved",
   "theorems": [
    "PD.Props.C10_fov_size_fixed"
   ],
   "note": ""
  },
  {
   "property": "C11",
   "status": "proved",
   "theorems": [
    "PD.Props.C11_reset_time",
    "PD.Props.C11_step_time",
    "PD.Props.C11_clocks_agree"
   ],
   "note": ""
  },
  {
   "property": "C12",
   "status": "proved",
   "theorems": [
    "PD.Props.C12_log_replays"
   ],
   "note": ""
  },
  {
   "property": "C13",
   "status": "proved",
   "theorems": [
    "PD.Props.C13_controls_aimed"
   ],
   "note": ""
  },
  {
   "property": "C14",
   "status": "proved",
   "theorems": [
    "PD.Props.C14_material_before_reset",
    "PD.Props.C14_material_after_reset",
    "PD.Props.C14_simulator_before_reset",
    "PD.Props.C14_simulator_after_reset"
   ],
   "note": ""
  },
  {
   "property": "C15",
   "status": "proved",
   "theorems": [
    "PD.Props.C15_observers_do_not_interfere",
    "PD.Props.C15_detaching"
   ],
   "note": ""
  },
  {
   "property": "C16",
   "status": "proved",
   "theorems": [
    "PD.Props.C16_goal_fixed_in_episode",
    "PD.Props.C16_goal_choice",
    "PD.Props.C16_default_range",
    "PD.Props.C16_goal_fixed"
   ],
   "note": ""
  },
  {
   "property": "C17",
   "status": "proved",
   "theorems": [
    "PD.Props.C17_terminal_iff",
    "PD.Props.C17_default_terminal_iff",
    "PD.Props.C17_no_silicon"
   ],
   "note": ""
  },
  {
   "property": "C18",
   "status": "proved",
   "theorems": [
    "PD.Props.C18_not_solved_at_start"
   ],
   "note": ""
  },
  {
   "property": "C19",
   "status": "proved",
   "theorems": [
    "PD.Props.C19_protocol",
    "PD.Props.C19_new_environment",
    "PD.Props.C19_starting_step_is_reset"
   ],
   "note": "Histories in which an attempt to start an episode raised are excluded by StartsReturn; what happens there is C23."
  },
  {
   "property": "C20",
   "status": "proved",
   "theorems": [
    "PD.Props.C20_sparse",
    "PD.Props.C20_return"
   ],
   "note": ""
  },
  {
   "property": "C21",
   "status": "proved",
   "theorems": [
    "PD.Props.C21_seed_reset_erases_history",
    "PD.Props.C21_seeded_histories"
   ],
   "note": ""
  },
  {
   "property": "C22",
   "status": "proved",
   "theorems": [
    "PD.Props.C22_protocol",
    "PD.Props.C22_at_most_limit",
    "PD.Props.C22_returns_inner",
    "PD.Props.C22_no_limit",
    "PD.Props.C22_created_environment"
   ],
   "note": ""
  },
  {
   "property": "C23",
   "status": "partial",
   "theorems": [
    "PD.Props.C23_never_retried",
    "PD.Props.C23_explicit_reset_partial",
    "PD.Props.C23_failed_reset_not_retried"
   ],
   "note": "False of the code: reset() clears the flag before anything that can raise. C23_never_retried and C23_failed_reset_not_retried prove the negation; what holds is that an explicit reset() starts an episode if it returns."
  },
  {
   "property": "C24",
   "status": "proved",
   "theorems": [
    "PD.Props.C24_one_control_in_view",
    "PD.Props.C24_total",
    "PD.Props.C24_relative_distance"
   ],
   "note": ""
  },
  {
   "property": "C25",
   "status": "proved",
   "theorems": [
    "PD.Props.C25_stays_in_view",
    "PD.Props.C25_reset_in_view",
    "PD.Props.C25_reset_draws",
    "PD.Props.C25_sum_of_moves",
    "PD.Props.C25_move_bounded",
    "PD.Props.C25_environment_reset"
   ],
   "note": ""
  },
  {
   "property": "C26",
   "status": "partial",
   "theorems": [
    "PD.Props.C26_exact_offset_partial",
    "PD.Props.C26_offset_not_bounded",
    "PD.Props.C26_offset_at_most_action"
   ],
   "note": "The bound on the offset is false of the code (max_distance is never used): C26_offset_not_bounded. Exactness of the offset is proved."
  },
  {
   "property": "C27",
   "status": "proved",
   "theorems": [
    "PD.Props.C27_pristine_features",
    "PD.Props.C27_material_features",
    "PD.Props.C27_goal_part_matches_reward",
    "PD.Props.C27_image_features"
   ],
   "note": ""
  },
  {
   "property": "C28",
   "status": "partial",
   "theorems": [
    "PD.Props.C28_features_fail",
    "PD.Props.C28_pristine_features_fail",
    "PD.Props.C28_reward_uses_central_silicon_partial",
    "PD.Props.C28_selection_differs"
   ],
   "note": "False of the code: with two or more silicons the feature constructors raise ValueError, and the adapter picks no centre (C28_features_fail, C28_selection_differs)."
  },
  {
   "property": "C29",
   "status": "proved",
   "theorems": [
    "PD.Props.C29_accounting",
    "PD.Props.C29_few_actions",
    "PD.Props.C29_terminates",
    "PD.Props.C29_loop_never_diverges",
    "PD.Props.C29_generous_limit",
    "PD.Props.C29_environment"
   ],
   "note": ""
  },
  {
   "property": "C30",
   "status": "proved",
   "theorems": [
    "PD.Props.C30_observers_restored"
   ],
   "note": ""
  },
  {
   "property": "C31",
   "status": "partial",
   "theorems": [
    "PD.Props.C31_averages_partial",
    "PD.Props.C31_empty_raises",
    "PD.Props.C31_order_irrelevant"
   ],
   "note": "Averages, rates and order-independence proved for every non-empty list; for the empty list aggregate_results raises ZeroDivisionError (C31_empty_raises)."
  },
  {
   "property": "C32",
   "status": "proved",
   "theorems": [
    "PD.Props.C32_step",
    "PD.Props.C32_along_neighbour",
    "PD.Props.C32_constructor",
    "PD.Props.C32_find_argmax"
   ],
   "note": ""
  },
  {
   "property": "C33",
   "status": "partial",
   "theorems": [
    "PD.Props.C33_rescan",
    "PD.Props.C33_time_steps_partial",
    "PD.Props.C33_material_features_follow",
    "PD.Props.C33_pristine_features_follow",
    "PD.Props.C33_image_features_not_rescanned"
   ],
   "note": "Time-step labels and rescans are proved for every history, for feature constructors that raise SiliconNotFound exactly when no silicon is visible (proved of the pristine and the material-frame ones). False for the image features: they raise ValueError, which step does not catch (C33_image_features_not_rescanned)."
  },
  {
   "property": "C34",
   "status": "partial",
   "theorems": [
    "PD.Props.C34_same_behaviour_partial",
    "PD.Props.C34_lost_silicon_raises",
    "PD.Props.C34_double_count",
    "PD.Props.C34_log_partial",
    "PD.Props.C34_episode_numbers_wrong",
    "PD.Props.C34_flush_twice_duplicates"
   ],
   "note": "False of the code in four ways, each proved: a lost silicon makes the logged agent raise, consecutive goal steps are counted twice, episode records carry other numbers than step records, a second flush duplicates. Proved: same behaviour when the goal asks for at most one step and silicons stay visible; the contents of the first flush after every history."
  },
  {
   "property": "C35",
   "status": "proved",
   "theorems": [
    "PD.Props.C35_distance",
    "PD.Props.C35_angle_between",
    "PD.Props.C35_turns_by_theta",
    "PD.Props.C35_composition",
    "PD.Props.C35_to_axis",
    "PD.Props.C35_arrays"
   ],
   "note": ""
  },
  {
   "property": "C36",
   "status": "proved",
   "theorems": [
    "PD.Props.C36_one_rate_per_neighbour",
    "PD.Props.C36_range_and_order",
    "PD.Props.C36_rigid_motion",
    "PD.Props.C36_permutation"
   ],
   "note": ""
  },
  {
   "property": "C37",
   "status": "partial",
   "theorems": [
    "PD.Props.C37_peak_at_mirror_image",
    "PD.Props.C37_peak_partial",
    "PD.Props.C37_peak_not_towards_neighbour"
   ],
   "note": "The code rotates the peak by minus the neighbour's angle. Proved: maximum ln2/3, reached exactly at 0.85 bond lengths towards the mirror image of the neighbour; the property itself holds for neighbours level with the silicon and is proved false for all others."
  },
  {
   "property": "C38",
   "status": "partial",
   "theorems": [
    "PD.Props.C38_bounds_partial",
    "PD.Props.C38_exceeds_max_rate"
   ],
   "note": "Proved 0 <= rate <= number of components * max_rate, and <= max_rate for one component. The bound by max_rate is proved false for several components (C38_exceeds_max_rate)."
  },
  {
   "property": "C39",
   "status": "proved",
   "theorems": [
    "PD.Props.C39_three_neighbour_swaps",
    "PD.Props.C39_rejects",
    "PD.Props.C39_pristine_swaps",
    "PD.Props.C39_mixture_swaps",
    "PD.Props.C39_mixture_three_swaps"
   ],
   "note": ""
  },
  {
   "property": "C40",
   "status": "proved",
   "theorems": [
    "PD.Props.C40_honeycomb",
    "PD.Props.C40_min_distance",
    "PD.Props.C40_generated",
    "PD.Props.C40_no_isolated_atom"
   ],
   "note": ""
  },
  {
   "property": "C41",
   "status": "proved",
   "theorems": [
    "PD.Props.C41_one_trajectory",
    "PD.Props.C41_trajectories_apart",
    "PD.Props.C41_simulator_controls"
   ],
   "note": ""
  },
  {
   "property": "C42",
   "status": "proved",
   "theorems": [
    "PD.Props.C42_accounting",
    "PD.Props.C42_kept",
    "PD.Props.C42_reasons",
    "PD.Props.C42_raises"
   ],
   "note": ""
  },
  {
   "property": "C43",
   "status": "proved",
   "theorems": [
    "PD.Props.C43_rotations",
    "PD.Props.C43_order",
    "PD.Props.C43_reflection",
    "PD.Props.C43_augment",
    "PD.Props.C43_rejects"
   ],
   "note": ""
  },
  {
   "property": "C44",
   "status": "partial",
   "theorems": [
    "PD.Props.C44_split",
    "PD.Props.C44_no_arrays",
    "PD.Props.C44_bootstrap_partial",
    "PD.Props.C44_bootstrap_raises"
   ],
   "note": "The split and, for other draws, the bootstrap are proved. When the bootstrap draw contains every row (always for a single row) the code raises IndexError: C44_bootstrap_raises."
  },
  {
   "property": "C45",
   "status": "proved",
   "theorems": [
    "PD.Props.C45_epoch",
    "PD.Props.C45_small_data"
   ],
   "note": ""
  },
  {
   "property": "C46",
   "status": "proved",
   "theorems": [
    "PD.Props.C46_split_of_total",
    "PD.Props.C46_one_model",
    "PD.Props.C46_predictor"
   ],
   "note": ""
  },
  {
   "property": "C47",
   "status": "proved",
   "theorems": [
    "PD.Props.C47_rate_loss",
    "PD.Props.C47_class_loss",
    "PD.Props.C47_loss_nonneg",
    "PD.Props.C47_reported_rates"
   ],
   "note": ""
  },
  {
   "property": "C48",
   "status": "proved",
   "theorems": [
    "PD.Props.C48_merging",
    "PD.Props.C48_conserved",
    "PD.Props.C48_total"
   ],
   "note": ""
  },
  {
   "property": "C49",
   "status": "partial",
   "theorems": [
    "PD.Props.C49_multiplicity_partial",
    "PD.Props.C49_none_lost_partial",
    "PD.Props.C49_conserved_partial",
    "PD.Props.C49_separated_partial",
    "PD.Props.C49_not_counted_once"
   ],
   "note": "False of the code: a point in several maximal cliques is counted once for each (C49_not_counted_once: three points in a row count four, for every clique routine). Proved instead: how often each point is counted, that none is lost, exactness when closeness is transitive in every round, and separation of the result when it stops early."
  },
  {
   "property": "C50",
   "status": "partial",
   "theorems": [
    "PD.Props.C50_bounded_partial",
    "PD.Props.C50_raises",
    "PD.Props.C50_number",
    "PD.Props.C50_exact_with_noise",
    "PD.Props.C50_exact",
    "PD.Props.C50_not_a_number",
    "PD.Props.C50_no_iterations"
   ],
   "note": "The bound needs at least one iteration and a result that is a number: with a mask the mean of no offsets is nan (C50_not_a_number), and without iterations the initial shift is returned (C50_no_iterations). With the default mask and trimming the result is a number (C50_number); small rigid shifts are recovered exactly (C50_exact)."
  },
  {
   "property": "C51",
   "status": "partial",
   "theorems": [
    "PD.Props.C51_align_remembers",
    "PD.Props.C51_align_none_partial",
    "PD.Props.C51_filter_changes_input",
    "PD.Props.C51_filter_partial",
    "PD.Props.C51_naive_merge_changes_input",
    "PD.Props.C51_naive_merge_partial"
   ],
   "note": "False of the code: naive_merge averages into the caller's first array (C51_naive_merge_changes_input); the default init_shift array of align_latest is shared between calls and changed (C51_align_remembers). Partial theorems say when neither happens. The filtering aligner with naive merging changes the array its first call was given (C51_filter_changes_input)."
  },
  {
   "property": "C52",
   "status": "proved",
   "theorems": [
    "PD.Props.C52_propagated",
    "PD.Props.C52_total"
   ],
   "note": ""
  },
  {
   "property": "C53",
   "status": "proved",
   "theorems": [
    "PD.Props.C53_two_colouring",
    "PD.Props.C53_grid"
   ],
   "note": ""
  },
  {
   "property": "C54",
   "status": "partial",
   "theorems": [
    "PD.Props.C54_shape",
    "PD.Props.C54_raises",
    "PD.Props.C54_unchanged",
    "PD.Props.C54_shift",
    "PD.Props.C54_disjoint_partial",
    "PD.Props.C54_not_square"
   ],
   "note": "Shape, identity and whole-pixel shifts are proved for every image size. Only padding for disjoint fields of view is proved for square ones; for others it is false (C54_not_square), because x scales are used for rows. It raises when the new field of view is so large that the resized image has no pixels (C54_raises says when it does not)."
  },
  {
   "property": "C55",
   "status": "partial",
   "theorems": [
    "PD.Props.C55_filter_bounded",
    "PD.Props.C55_filter_recent",
    "PD.Props.C55_failed_first",
    "PD.Props.C55_no_history",
    "PD.Props.C55_accumulated_partial",
    "PD.Props.C55_accumulate_exceeds",
    "PD.Props.C55_image_history",
    "PD.Props.C55_image_stack",
    "PD.Props.C55_image_reset",
    "PD.Props.C55_image_first"
   ],
   "note": "Proved for the image aligner in full, and for the filtering aligner with a history length of at least one that does not accumulate merged grids. False otherwise: a history length of zero or less still keeps one frame (C55_no_history), an accumulating aligner exceeds its history when merging leaves too few atoms to classify (C55_accumulate_exceeds; C55_accumulated_partial covers runs without exceptions), and a failed first call leaves an aligner on which all calls raise until a reset (C55_failed_first)."
  },
  {
   "property": "C56",
   "status": "proved",
   "theorems": [
    "PD.Props.C56_only_moved",
    "PD.Props.C56_last_round",
    "PD.Props.C56_no_rounds"
   ],
   "note": ""
  },
  {
   "property": "C57",
   "status": "partial",
   "theorems": [
    "PD.Props.C57_accumulated",
    "PD.Props.C57_applied_partial",
    "PD.Props.C57_label_lost",
    "PD.Props.C57_wrong_number",
    "PD.Props.C57_successive"
   ],
   "note": "The label image of an observation is lost (C57_label_lost); everything else is as stated."
  },
  {
   "property": "C58",
   "status": "partial",
   "theorems": [
    "PD.Props.C58_kept_partial",
    "PD.Props.C58_precision",
    "PD.Props.C58_second_trip",
    "PD.Props.C58_writable",
    "PD.Props.C58_none_becomes_zero"
   ],
   "note": "Everything survives except that a control without voltage or current is read back with 0 (C58_none_becomes_zero); the second trip is exact for all objects. Numbers beyond the float32 range are not represented."
  },
  {
   "property": "C59",
   "status": "partial",
   "theorems": [
    "PD.Props.C59_kept_partial",
    "PD.Props.C59_label_lost",
    "PD.Props.C59_label_missing"
   ],
   "note": "False of the code: a label image without an image is lost, an image without a label image makes to_proto raise. Proved when each label image is present exactly when its image is."
  },
  {
   "property": "C60",
   "status": "partial",
   "theorems": [
    "PD.Props.C60_kept_partial",
    "PD.Props.C60_fraction_lost",
    "PD.Props.C60_witness",
    "PD.Props.C60_labeled"
   ],
   "note": "False of the code: from_proto reads the drift into an int32 array. Proved for the jitter and for whole-number drifts."
  },
  {
   "property": "C61",
   "status": "partial",
   "theorems": [
    "PD.Props.C61_sound",
    "PD.Props.C61_complete",
    "PD.Props.C61_reflexive_partial",
    "PD.Props.C61_not_reflexive",
    "PD.Props.C61_empty",
    "PD.Props.C61_sizes",
    "PD.Props.C61_symmetric_partial",
    "PD.Props.C61_transitive_partial",
    "PD.Props.C61_not_symmetric",
    "PD.Props.C61_not_transitive",
    "PD.Props.C61_hash_order",
    "PD.Props.C61_hash_differs"
   ],
   "note": "False of the code: equality is not reflexive (coincident atoms, empty grids), symmetric or transitive and equal grids can have different hashes, all with witnesses. Proved: reflexive for distinct positions, symmetric for atoms more than 0.002 apart, two equalities keep atoms within 0.002, the hash ignores the order."
  },
  {
   "property": "C62",
   "status": "partial",
   "theorems": [
    "PD.Props.C62_roundtrip",
    "PD.Props.C62_raw",
    "PD.Props.C62_trajectories",
    "PD.Props.C62_rejects",
    "PD.Props.C62_interrupted",
    "PD.Props.C62_directory_unreadable",
    "PD.Props.C62_several",
    "PD.Props.C62_single_file_partial"
   ],
   "note": "False of the pipeline: it lists *.recordio files, each of which read_records rejects (C62_directory_unreadable). Reading and writing record files, and the pipeline on a single file, are proved."
  },
  {
   "property": "C63",
   "status": "partial",
   "theorems": [
    "PD.Props.C63_mask_partial",
    "PD.Props.C63_not_square"
   ],
   "note": "Proved for every square size and atomic numbers 1..255. Refuted for every size that is not square (C63_not_square): IndexError as soon as there is an atom."
  },
  {
   "property": "C64",
   "status": "proved",
   "theorems": [
    "PD.Props.C64_jitter",
    "PD.Props.C64_negative_rate"
   ],
   "note": ""
  },
  {
   "property": "C65",
   "status": "partial",
   "theorems": [
    "PD.Props.C65_aligner",
    "PD.Props.C65_backed",
    "PD.Props.C65_wide_lost",
    "PD.Props.C65_tall_misplaced",
    "PD.Props.C65_detector_partial",
    "PD.Props.C65_detector_one_kind",
    "PD.Props.C65_detector_phantom"
   ],
   "note": "Proved for the aligner's detector (numbers, margins, each atom backed by connected pixels of its class). Refuted for images that are not square (C65_wide_lost, C65_tall_misplaced) and for the stand-alone detector: ValueError when only one kind is found, phantom atoms at (0, 1) for contours without area, and no margin."
  },
  {
   "property": "C66",
   "status": "proved",
   "theorems": [
    "PD.Props.C66_lookup",
    "PD.Props.C66_other_tables"
   ],
   "note": ""
  },
  {
   "property": "C67",
   "status": "partial",
   "theorems": [
    "PD.Props.C67_time_stamp_partial",
    "PD.Props.C67_shape_partial",
    "PD.Props.C67_hundred"
   ],
   "note": "Proved: seconds below 60, stamp within half a hundredth, MM:SS:CC shape below 100 minutes outside the last 5 ms of a second. Refuted (C67_hundred): in the last 5 ms of every second the hundredths are 100, without carry."
  },
  {
   "property": "C68",
   "status": "proved",
   "theorems": [
    "PD.Props.C68_frames",
    "PD.Props.C68_stamps_increase",
    "PD.Props.C68_simulator",
    "PD.Props.C68_drawable",
    "PD.Props.C68_no_controls"
   ],
   "note": "Frames, contents, time stamps and totals for every log, and for logs of simulators. C68_no_controls shows that the single frame of a log without controls cannot be drawn."
  },
  {
   "property": "C69",
   "status": "proved",
   "theorems": [
    "PD.Props.C69_features_defined",
    "PD.Props.C69_reset_returns",
    "PD.Props.C69_protocol"
   ],
   "note": ""
  },
  {
   "property": "C70",
   "status": "partial",
   "theorems": [
    "PD.Props.C70_default_raises",
    "PD.Props.C70_ensemble_raises",
    "PD.Props.C70_raw_outputs_partial",
    "PD.Props.C70_not_split"
   ],
   "note": "False of the code: the default configuration and ensembles of more than one model always raise (C70_default_raises, C70_ensemble_raises), and a single model's raw outputs are returned instead of the split of the total (C70_not_split). What is returned, and in which order, is proved."
  },
  {
   "property": "C71",
   "status": "partial",
   "theorems": [
    "PD.Props.C71_example_partial",
    "PD.Props.C71_probability",
    "PD.Props.C71_rates_not_of_position"
   ],
   "note": "False of the code: turning an example moves its rates the wrong way around (C71_rates_not_of_position, any turn whose double is not a full turn). Label, time, range of the rates and the case without turn are proved."
  },
  {
   "property": "C72",
   "status": "proved",
   "theorems": [
    "PD.Props.C72_jump_process",
    "PD.Props.C72_deterministic"
   ],
   "note": ""
  },
  {
   "property": "C73",
   "status": "proved",
   "theorems": [
    "PD.Props.C73_consistent",
    "PD.Props.C73_first"
   ],
   "note": ""
  },
  {
   "property": "C74",
   "status": "proved",
   "theorems": [
    "PD.Props.C74_independent"
   ],
   "note": ""
  },
  {
   "property": "C75",
   "status": "proved",
   "theorems": [
    "PD.Props.C75_pixel_intensity",
    "PD.Props.C75_place",
    "PD.Props.C75_range",
    "PD.Props.C75_empty_view"
   ],
   "note": ""
  },
  {
   "property": "C76",
   "status": "proved",
   "theorems": [
    "PD.Props.C76_one_pixel",
    "PD.Props.C76_agree"
   ],
   "note": "For square images, as the claim says; C63_not_square and C65_wide_lost show what happens otherwise."
  },
  {
   "property": "C77",
   "status": "partial",
   "theorems": [
    "PD.Props.C77_empty_view",
    "PD.Props.C77_atoms_partial",
    "PD.Props.C77_simulator"
   ],
   "note": "Proved up to the jitter stage for views with an atom (C77_atoms_partial; the later stages are in C109). Refuted for views without atoms (C77_empty_view): ValueError."
  },
  {
   "property": "C78",
   "status": "partial",
   "theorems": [
    "PD.Props.C78_round_partial",
    "PD.Props.C78_not_round"
   ],
   "note": "Proved for square fields of view; C78_not_round shows it holds for no other."
  },
  {
   "property": "C79",
   "status": "partial",
   "theorems": [
    "PD.Props.C79_some_moment_partial",
    "PD.Props.C79_unloaded_raises",
    "PD.Props.C79_saved_partial",
    "PD.Props.C79_stale",
    "PD.Props.C79_first_prediction_sticks",
    "PD.Props.C79_stale_witness"
   ],
   "note": "Returned predictions are those of a network the predictor had at some earlier moment; they are the current ones after saving, until the next training or other load (C79_saved_partial). In general they are not: C79_stale, C79_first_prediction_sticks. Without loading nothing is predicted where tf.Module instances are not callable."
  },
  {
   "property": "C80",
   "status": "partial",
   "theorems": [
    "PD.Props.C80_round_trip_partial",
    "PD.Props.C80_nothing_else_touched",
    "PD.Props.C80_state_kept",
    "PD.Props.C80_state_not_restored",
    "PD.Props.C80_steps_share_a_model",
    "PD.Props.C80_ensemble_half_saved",
    "PD.Props.C80_fixed_context"
   ],
   "note": "Parameters, configuration and predictions survive for every later history sparing the directory, and nothing else is touched. The network state is not saved, and a second step in the directory replaces the model of the first: C80_state_not_restored, C80_steps_share_a_model."
  },
  {
   "property": "C81",
   "status": "partial",
   "theorems": [
    "PD.Props.C81_uninterrupted_partial",
    "PD.Props.C81_completed_partial",
    "PD.Props.C81_nothing_skipped_partial",
    "PD.Props.C81_epoch_repeated",
    "PD.Props.C81_one_epoch_lost",
    "PD.Props.C81_no_progress"
   ],
   "note": "Uninterrupted training applies each epoch once, and after crashes no epoch is skipped and training completes with the configured epochs plus repetitions. The epoch of the restored checkpoint is applied again, and runs of one epoch never progress: C81_epoch_repeated, C81_one_epoch_lost, C81_no_progress."
  },
  {
   "property": "C82",
   "status": "partial",
   "theorems": [
    "PD.Props.C82_detection",
    "PD.Props.C82_alignment_first_pixel",
    "PD.Props.C82_alignment_wrong",
    "PD.Props.C82_alignment_partial"
   ],
   "note": "Proved for the atom detector. For the aligner false: the accuracy compares with the label of the first pixel of the batch (C82_alignment_first_pixel, C82_alignment_wrong); right only for batches with one label."
  },
  {
   "property": "C83",
   "status": "proved",
   "theorems": [
    "PD.Props.C83_labels",
    "PD.Props.C83_one_hot",
    "PD.Props.C83_other_elements"
   ],
   "note": "Up to the resizing of masks. Other elements are mislabelled (C83_other_elements), which the property leaves out."
  },
  {
   "property": "C84",
   "status": "partial",
   "theorems": [
    "PD.Props.C84_scaled_partial",
    "PD.Props.C84_position_differs",
    "PD.Props.C84_numbering_differs"
   ],
   "note": "For equidistant neighbours the numbering agrees and positions differ by the factor 1.42; positions agree only with the beam on the silicon (C84_position_differs), and numbering can differ for unequal distances (C84_numbering_differs)."
  },
  {
   "property": "C85",
   "status": "proved",
   "theorems": [
    "PD.Props.C85_members",
    "PD.Props.C85_no_context",
    "PD.Props.C85_rejects"
   ],
   "note": "Whenever data come out (C85_members gives conditions under which they do). Without any context, or when a bootstrap draws every example, nothing comes out: C85_no_context, C85_rejects."
  },
  {
   "property": "C86",
   "status": "proved",
   "theorems": [
    "PD.Props.C86_rows",
    "PD.Props.C86_dwell_kept",
    "PD.Props.C86_accepted",
    "PD.Props.C86_missing_raises"
   ],
   "note": ""
  },
  {
   "property": "C87",
   "status": "partial",
   "theorems": [
    "PD.Props.C87_converted_partial",
    "PD.Props.C87_dopants",
    "PD.Props.C87_short_lost",
    "PD.Props.C87_channels_raise",
    "PD.Props.C87_no_dopant_raises",
    "PD.Props.C87_control_frame",
    "PD.Props.C87_size_of_first"
   ],
   "note": "Proved for convertible data sets. False in general: data sets of up to three frames lose everything, stacks with channels and shots without dopant raise, later frames get the size of the first, and controls are in the material frame."
  },
  {
   "property": "C88",
   "status": "partial",
   "theorems": [
    "PD.Props.C88_kept_apart_partial",
    "PD.Props.C88_suffix_lost",
    "PD.Props.C88_overwritten",
    "PD.Props.C88_collisions"
   ],
   "note": "Proved for plain names (no dots, capitals or dashes). False in general: what follows the last dot is lost, so run.2 overwrites run.1; dashes, capitals collide."
  },
  {
   "property": "C89",
   "status": "partial",
   "theorems": [
    "PD.Props.C89_round_trip_partial",
    "PD.Props.C89_clean",
    "PD.Props.C89_collision"
   ],
   "note": "Proved when no name contains dummy_slash or dummy_tilde. False otherwise: a/b and adummy_slashb become one."
  },
  {
   "property": "C90",
   "status": "partial",
   "theorems": [
    "PD.Props.C90_carbon_partial",
    "PD.Props.C90_silicon",
    "PD.Props.C90_doubt_lost",
    "PD.Props.C90_phantom",
    "PD.Props.C90_displaced"
   ],
   "note": "Proved for the carbon layer, with an exact characterisation of the silicon layer. False for silicon: the bits of the probabilities are combined, so away from carbon only probability exactly 1 counts, near carbon exactly probability 0 counts, and the surroundings of carbon are displaced."
  },
  {
   "property": "C91",
   "status": "partial",
   "theorems": [
    "PD.Props.C91_aligner_partial",
    "PD.Props.C91_detector_unloadable",
    "PD.Props.C91_first_stays",
    "PD.Props.C91_failure_sticks",
    "PD.Props.C91_interruption_sticks",
    "PD.Props.C91_detector_failure_sticks",
    "PD.Props.C91_reload",
    "PD.Props.C91_other_model"
   ],
   "note": "Proved for the aligner where nothing was unpacked before; with reload, characterised. False with history: the first archive, even a failed one, stays; an aligner not yet used gets the model of a later one. False for the detector's archive always."
  },
  {
   "property": "C92",
   "status": "proved",
   "theorems": [
    "PD.Props.C92_scores",
    "PD.Props.C92_aligner_scores",
    "PD.Props.C92_aligner_drift",
    "PD.Props.C92_local",
    "PD.Props.C92_aligner_local"
   ],
   "note": "For n + 1 depths: multiples of 2^n, reach 5·2^n - 4 and 4·2^n - 3; n = 4 in the code."
  },
  {
   "property": "C93",
   "status": "proved",
   "theorems": [
    "PD.Props.C93_alignment",
    "PD.Props.C93_same_size",
    "PD.Props.C93_drift",
    "PD.Props.C93_detection",
    "PD.Props.C93_time"
   ],
   "note": "Images and masks of the same stored size; resizing is by nearest pixels as in the code."
  },
  {
   "property": "C94",
   "status": "proved",
   "theorems": [
    "PD.Props.C94_origin",
    "PD.Props.C94_told"
   ],
   "note": "k-means itself is any function of the features; exact real numbers."
  },
  {
   "property": "C95",
   "status": "proved",
   "theorems": [
    "PD.Props.C95_rigid"
   ],
   "note": "Exact real numbers; the clusterer is any function of the features."
  },
  {
   "property": "C96",
   "status": "partial",
   "theorems": [
    "PD.Props.C96_fit_rows",
    "PD.Props.C96_fit_about",
    "PD.Props.C96_sublattices_partial",
    "PD.Props.C96_fails"
   ],
   "note": "Proved for bonds whose directions do not cross the negative x axis. Refuted for bonds along it: C96_fails gives grids for which no two centres separate the sub-lattices. How k-means finds its centres is not modelled."
  },
  {
   "property": "C97",
   "status": "partial",
   "theorems": [
    "PD.Props.C97_rejects",
    "PD.Props.C97_schedule",
    "PD.Props.C97_positive_partial",
    "PD.Props.C97_idle"
   ],
   "note": "The rate is shown to be positive until a fifth of an epoch before the end. C97_idle refutes the rest: decay_steps is meant by optax to include the warmup, which is subtracted once too often, and the last fifth of an epoch has no effect."
  },
  {
   "property": "C98",
   "status": "partial",
   "theorems": [
    "PD.Props.C98_masked_partial",
    "PD.Props.C98_defined",
    "PD.Props.C98_perfect",
    "PD.Props.C98_padding_scales",
    "PD.Props.C98_error_counts_padding"
   ],
   "note": "Labels and predictions of padding are shown not to enter the loss. Refuted: more padding shrinks the local loss (C98_padding_scales), the reported local error counts padding (C98_error_counts_padding), and a single time step gives no loss (C98_defined). The predictions themselves are arbitrary."
  },
  {
   "property": "C99",
   "status": "proved",
   "theorems": [
    "PD.Props.C99_never_fails",
    "PD.Props.C99_returns",
    "PD.Props.C99_rates_defined",
    "PD.Props.C99_long_dwell_raises"
   ],
   "note": "Loops have a number of rounds in the model; C99_never_fails allows that they run out, and C99_returns excludes it when every waiting time is at least a microsecond, which a real exponential draw is only with high probability. C99_rates_defined shows the assumption on rates of the rate functions of the package. C99_long_dwell_raises shows that the bound of an hour is needed. C134 removes the assumption for almost all random streams."
  },
  {
   "property": "C100",
   "status": "proved",
   "theorems": [
    "PD.Props.C100_sampled",
    "PD.Props.C100_rates",
    "PD.Props.C100_saved",
    "PD.Props.C100_every_mixture"
   ],
   "note": "If every weight is drawn as exactly zero, the weights become NaN; C100_sampled lists that case. The rate bound is the number of components times the maximal rate (see C38)."
  },
  {
   "property": "C101",
   "status": "partial",
   "theorems": [
    "PD.Props.C101_tolerance_partial",
    "PD.Props.C101_not_transitive",
    "PD.Props.C101_equal_rates_differ"
   ],
   "note": "C101_tolerance_partial: equal iff as many parameters, each within a thousandth; reflexive and symmetric. Transitivity is refuted by C101_not_transitive and equal rates by C101_equal_rates_differ."
  },
  {
   "property": "C102",
   "status": "partial",
   "theorems": [
    "PD.Props.C102_detector_uninterrupted_partial",
    "PD.Props.C102_aligner_uninterrupted_partial",
    "PD.Props.C102_detector_partial",
    "PD.Props.C102_aligner_partial",
    "PD.Props.C102_graph_best_is_worst",
    "PD.Props.C102_no_epochs",
    "PD.Props.C102_repeated_epoch_lost"
   ],
   "note": "C102_detector_uninterrupted_partial and C102_aligner_uninterrupted_partial: best of all epochs without interruption; C102_detector_partial and C102_aligner_partial: with interruptions, best of the epochs saved with metrics. Refuted: graph aligner (C102_graph_best_is_worst), epochs repeated after an interruption (C102_repeated_epoch_lost). Without epochs packing fails (C102_no_epochs)."
  },
  {
   "property": "C103",
   "status": "proved",
   "theorems": [
    "PD.Props.C103_features_as_declared",
    "PD.Props.C103_adapters",
    "PD.Props.C103_names",
    "PD.Props.C103_as_named",
    "PD.Props.C103_reach",
    "PD.Props.C103_training_plays",
    "PD.Props.C103_evaluation_plays",
    "PD.Props.C103_evaluation_completes",
    "PD.Props.C103_unknown_names"
   ],
   "note": "Assumes, like C99, that no waiting time drawn is below a microsecond (otherwise a control's loop need not end). Trained agents are not modelled. C134 removes this assumption for almost all random streams."
  },
  {
   "property": "C104",
   "status": "partial",
   "theorems": [
    "PD.Props.C104_random_partial",
    "PD.Props.C104_afresh",
    "PD.Props.C104_greedy_short_partial",
    "PD.Props.C104_greedy_out_of_bounds",
    "PD.Props.C104_which"
   ],
   "note": "C104_random_partial (all adapters) and C104_greedy_short_partial. Refuted for the other four greedy experiments: C104_greedy_out_of_bounds with C104_which; the size is right."
  },
  {
   "property": "C105",
   "status": "proved",
   "theorems": [
    "PD.Props.C105_along_a_bond"
   ],
   "note": "The agent's noise has standard deviation zero in these experiments, and a draw with deviation zero is assumed to be zero."
  },
  {
   "property": "C106",
   "status": "partial",
   "theorems": [
    "PD.Props.C106_order_partial",
    "PD.Props.C106_places",
    "PD.Props.C106_messages_partial",
    "PD.Props.C106_blind",
    "PD.Props.C106_overflow"
   ],
   "note": "Order: proved if the neighbour list is long enough and is rebuilt. Places: proved always. Refuted for short lists (C106_overflow): pairs are dropped silently. If jax_md's update does nothing when no point moved, which is how its source reads (its version is not pinned), the predictions do not depend on the positions at all (C106_blind): the list is created with the positions it is then updated with."
  },
  {
   "property": "C107",
   "status": "partial",
   "theorems": [
    "PD.Props.C107_loss",
    "PD.Props.C107_run",
    "PD.Props.C107_step",
    "PD.Props.C107_fails",
    "PD.Props.C107_contexts",
    "PD.Props.C107_predictions_partial",
    "PD.Props.C107_modes_differ"
   ],
   "note": "The loss, the course of training and the contexts: proved. That loss zero means equal predictions is proved without normalisation and dropout, and refuted with normalisation, which is the default (C107_modes_differ): the student is judged in training mode, where a batch is normalised with its own statistics."
  },
  {
   "property": "C108",
   "status": "proved",
   "theorems": [
    "PD.Props.C108_running",
    "PD.Props.C108_range",
    "PD.Props.C108_standardised",
    "PD.Props.C108_modes_agree",
    "PD.Props.C108_constant"
   ],
   "note": "haiku's BatchNorm and ExponentialMovingAverage are modelled from their documentation and source as known; the version is not pinned."
  },
  {
   "property": "C109",
   "status": "partial",
   "theorems": [
    "PD.Props.C109_parameters",
    "PD.Props.C109_image_partial",
    "PD.Props.C109_no_flips",
    "PD.Props.C109_no_electrons",
    "PD.Props.C109_contrast",
    "PD.Props.C109_simulator"
   ],
   "note": "Proved: ranges, no error, size, contrast, and completeness if an electron was counted and the uniform noise is not zero everywhere. Refuted without that: C109_no_electrons. What skimage's equalisation makes of nan is left open; skimage's functions are modelled from their documentation and source as known."
  },
  {
   "property": "C110",
   "status": "proved",
   "theorems": [
    "PD.Props.C110_robust",
    "PD.Props.C110_similar",
    "PD.Props.C110_order",
    "PD.Props.C110_defined",
    "PD.Props.C110_lattice",
    "PD.Props.C110_generated"
   ],
   "note": "scipy's trim_mean is modelled from its documentation and source as known."
  },
  {
   "property": "C111",
   "status": "partial",
   "theorems": [
    "PD.Props.C111_loads_partial",
    "PD.Props.C111_kept",
    "PD.Props.C111_retried",
    "PD.Props.C111_interruption_sticks",
    "PD.Props.C111_misnamed"
   ],
   "note": "Holds unless unpacking was interrupted: then the partial directory is taken for the agent by every later call, which raises for good or gives an agent without the other files (C111_interruption_sticks)."
  },
  {
   "property": "C112",
   "status": "partial",
   "theorems": [
    "PD.Props.C112_no_leak",
    "PD.Props.C112_own_data",
    "PD.Props.C112_reports",
    "PD.Props.C112_objective_partial",
    "PD.Props.C112_weights_ignored",
    "PD.Props.C112_step",
    "PD.Props.C112_one_dropout",
    "PD.Props.C112_held_out",
    "PD.Props.C112_completes",
    "PD.Props.C112_train_completes"
   ],
   "note": "The reported loss is the minimised one for weights of one (the defaults); for other weights it is not (C112_weights_ignored). All batches of an epoch drop out units by the same key (C112_one_dropout); dropout is off by default."
  },
  {
   "property": "C113",
   "status": "partial",
   "theorems": [
    "PD.Props.C113_raster",
    "PD.Props.C113_vector",
    "PD.Props.C113_place",
    "PD.Props.C113_arc",
    "PD.Props.C113_predictor",
    "PD.Props.C113_refuses_partial",
    "PD.Props.C113_arc_refuses_partial",
    "PD.Props.C113_mixture",
    "PD.Props.C113_two_silicons"
   ],
   "note": "All of it is proved except that a sheet with several silicon atoms raises: it is drawn, with the rates of one silicon about the place of another (C113_two_silicons). The vector plot needs the neighbours 0.01 apart."
  },
  {
   "property": "C114",
   "status": "partial",
   "theorems": [
    "PD.Props.C114_voted_partial",
    "PD.Props.C114_unseen_state",
    "PD.Props.C114_accuracies",
    "PD.Props.C114_forest_completes",
    "PD.Props.C114_forest_partial",
    "PD.Props.C114_svm",
    "PD.Props.C114_refused",
    "PD.Props.C114_mixed",
    "PD.Props.C114_network_partial",
    "PD.Props.C114_unsaved",
    "PD.Props.C114_no_context"
   ],
   "note": "Proved: forests whose members all saw all four states give the three mean probabilities (C114_forest_partial), three voted rates are always right (C114_voted_partial), and a single rate network with a current or voltage is saved with the medians and predicts at them when loaded without its configuration (C114_network_partial). The rest is false: a member that misses a state (C114_unseen_state, C114_mixed), svm (C114_svm), sklearn_mlp (C114_refused), the classification network and undistilled ensembles (C114_unsaved), a rate network without contexts (C114_no_context), loading with the default arguments (second part of C114_network_partial). That k-nearest-neighbour and Gaussian-process fits complete is not stated."
  },
  {
   "property": "C115",
   "status": "partial",
   "theorems": [
    "PD.Props.C115_picture_partial",
    "PD.Props.C115_marks",
    "PD.Props.C115_not_square",
    "PD.Props.C115_few_points",
    "PD.Props.C115_unseen_state"
   ],
   "note": "Proved for at least four points, and a square number of points when there are fixed contexts (all calls of the training script have 300*300). Otherwise it raises: C115_not_square, C115_few_points. Votes with a member that missed a state are never pictured (C115_unseen_state)."
  },
  {
   "property": "C116",
   "status": "proved",
   "theorems": [
    "PD.Props.C116_written",
    "PD.Props.C116_exception_writes_nothing",
    "PD.Props.C116_exception_passed_on",
    "PD.Props.C116_lost_silicon_loses_log"
   ],
   "note": "Blocks without flushes of the caller's own (flushing twice duplicates records, C34). Losing the log on an exception is what the comment in the code asks for; that a lost silicon is such an exception is C34_lost_silicon_raises."
  },
  {
   "property": "C117",
   "status": "partial",
   "theorems": [
    "PD.Props.C117_after_reset_partial",
    "PD.Props.C117_after_step",
    "PD.Props.C117_only_first",
    "PD.Props.C117_new_environment"
   ],
   "note": "Holds after resets and starting steps (C117_after_reset_partial). After every other step rendering raises IndexError (C117_after_step, C117_only_first). Pixels, marker sizes and colours are matplotlib's and not modelled."
  },
  {
   "property": "C118",
   "status": "proved",
   "theorems": [
    "PD.Props.C118_two_views",
    "PD.Props.C118_all_atoms",
    "PD.Props.C118_drawn"
   ],
   "note": "Atoms that are neither carbon nor silicon are not drawn. Which frames a video has is C68. Pixels, marker sizes and colours are matplotlib's and not modelled."
  },
  {
   "property": "C119",
   "status": "partial",
   "theorems": [
    "PD.Props.C119_pictures_partial",
    "PD.Props.C119_other_learners",
    "PD.Props.C119_relative",
    "PD.Props.C119_no_dwell_times"
   ],
   "note": "Proved for rate networks, absolute working directories or `.`, and non-negative dwell times of which one is positive (C119_pictures_partial). Fails for other learners, other relative working directories and data without dwell times. Paths with `..` and files in place of directories are not modelled."
  },
  {
   "property": "C120",
   "status": "partial",
   "theorems": [
    "PD.Props.C120_never_trains",
    "PD.Props.C120_type_error",
    "PD.Props.C120_nothing_kept_partial"
   ],
   "note": "Holds only if no transition is kept (C120_nothing_kept_partial). Otherwise the first kept one ends the script with TypeError."
  },
  {
   "property": "C121",
   "status": "proved",
   "theorems": [
    "PD.Props.C121_all",
    "PD.Props.C121_first_bad"
   ],
   "note": "The order of a directory is that of iterdir. Another child of the directory, for example a README, makes loading fail."
  },
  {
   "property": "C122",
   "status": "proved",
   "theorems": [
    "PD.Props.C122_simulated_data",
    "PD.Props.C122_generated_sheets",
    "PD.Props.C122_graphene"
   ],
   "note": "Exact arithmetic. Assumes each step starts where the sheet looks like graphene around the silicon and ends at most 5.5 Å away (so the silicon stays in the next view), and the alignment flag is set; C122_generated_sheets shows the first for the inner atoms of generated sheets. Without the flag the controls are those of the previous step."
  },
  {
   "property": "C123",
   "status": "proved",
   "theorems": [
    "PD.Props.C123_disc",
    "PD.Props.C123_start",
    "PD.Props.C123_data",
    "PD.Props.C123_short"
   ],
   "note": "Exact arithmetic. The radius is what the proof needs, not the best possible."
  },
  {
   "property": "C124",
   "status": "partial",
   "theorems": [
    "PD.Props.C124_converts_partial",
    "PD.Props.C124_source_unreadable",
    "PD.Props.C124_target_rejected",
    "PD.Props.C124_unlabelled",
    "PD.Props.C124_simulator_images",
    "PD.Props.C124_simulator_controls"
   ],
   "note": "Proved if every observation has a label image exactly when it has an image, the controls say voltage and current, and an observation holds the controls after it (C124_converts_partial); unreadable sources and bad targets in general. Fails for images without label images and, as to controls, for simulated experiments."
  },
  {
   "property": "C125",
   "status": "partial",
   "theorems": [
    "PD.Props.C125_direct",
    "PD.Props.C125_moves",
    "PD.Props.C125_ten_moves",
    "PD.Props.C125_nine_moves",
    "PD.Props.C125_relative",
    "PD.Props.C125_material_partial",
    "PD.Props.C125_material_short",
    "PD.Props.C125_material_neighbour_missed"
   ],
   "note": "Proved for the direct, the delta and the silicon-relative adapter. The adapter that aims in angstroms inherits the bounds [-1, 1] and ignores the maximal distance: its declared actions reach one angstrom per axis (C125_material_partial) and no farther (C125_material_short), so that with the default distance of one bond a neighbour of the silicon is missed (C125_material_neighbour_missed)."
  },
  {
   "property": "C126",
   "status": "partial",
   "theorems": [
    "PD.Props.C126_expressible",
    "PD.Props.C126_truth_partial",
    "PD.Props.C126_training_partial",
    "PD.Props.C126_rare"
   ],
   "note": "Proved if the silicon leaves within the exposure with a probability of at least 3 in a million. False for rarer departures: the loss takes the probability of a transition as at least one in a million, and where the true one is at most that, every smaller total rate does better (C126_rare). The label is that of the first transition; several transitions within one exposure are not described by the loss."
  },
  {
   "property": "C127",
   "status": "proved",
   "theorems": [
    "PD.Props.C127_history",
    "PD.Props.C127_stays",
    "PD.Props.C127_leaves",
    "PD.Props.C127_controls"
   ],
   "note": "A perfect generator is one with real-valued draws and a state that is fresh after each draw (structure Fair); it is shown to exist as a sequence of independent exponential numbers. numpy's generators only approximate it. The labels 0 and k+1 of an exposure have the probabilities assumed in C126 (C127_stays, C127_leaves)."
  },
  {
   "property": "C128",
   "status": "proved",
   "theorems": [
    "PD.Props.C128_ends",
    "PD.Props.C128_many",
    "PD.Props.C128_step",
    "PD.Props.C128_episode"
   ],
   "note": "This removes the assumption of C07_terminates and C99_returns that no draw is shorter than a microsecond. The number of rounds needed depends on the draws, so the statement is about every large enough number of rounds of the model's loop; the loop of the program has no such number. A control of an hour or more raises if all rates are zero (C99_long_dwell_raises)."
  },
  {
   "property": "C129",
   "status": "partial",
   "theorems": [
    "PD.Props.C129_stays_partial",
    "PD.Props.C129_moves_partial",
    "PD.Props.C129_elsewhere",
    "PD.Props.C129_back_and_forth"
   ],
   "note": "Proved up to the square of the probability of a transition (stays, moves, elsewhere). Not exactly true: going away and back looks like staying (C129_back_and_forth)."
  },
  {
   "property": "C130",
   "status": "proved",
   "theorems": [
    "PD.Props.C130_connected",
    "PD.Props.C130_unstuck",
    "PD.Props.C130_reached"
   ],
   "note": "Connectedness, the bounds on the rates and the bound on the probability."
  },
  {
   "property": "C131",
   "status": "proved",
   "theorems": [
    "PD.Props.C131_episodes_end"
   ],
   "note": "Tail bound, bound on the mean number of steps and almost sure end. If images are rendered, drawing one is assumed to leave a fresh generator, independent of the image (Spec.FairImages, met by noisyCfg)."
  },
  {
   "property": "C132",
   "status": "proved",
   "theorems": [
    "PD.Props.C132_starts",
    "PD.Props.C132_goals",
    "PD.Props.C132_beams",
    "PD.Props.C132_actions"
   ],
   "note": "The generator is a perfect one (Spec.FairDraws). The goal's law assumes that drawing the image parameters leaves the generator as random as it was, which sampleImageParameters_preserves shows for the code's sampler. Starts are described by sets of angles strictly between 0 and 360°, the rest having probability zero."
  },
  {
   "property": "C133",
   "status": "proved",
   "theorems": [
    "PD.Props.C133_return",
    "PD.Props.C133_step_limit",
    "PD.Props.C133_evaluation",
    "PD.Props.C133_sooner"
   ],
   "note": ""
  },
  {
   "property": "C134",
   "status": "proved",
   "theorems": [
    "PD.Props.C134_streams",
    "PD.Props.C134_calls",
    "PD.Props.C134_experiments",
    "PD.Props.C134_evaluation"
   ],
   "note": "`C134_calls`, `C134_experiments`, `C134_evaluation` need `Patient` generators; `C134_streams` shows that almost all rows of independent numbers are. That seeds lead to such states is assumed (seeding is deterministic)."
  },
  {
   "property": "C135",
   "status": "proved",
   "theorems": [
    "PD.Props.C135_controls",
    "PD.Props.C135_data",
    "PD.Props.C135_trained",
    "PD.Props.C135_end_to_end"
   ],
   "note": "Assumes, as C123, steps that start within 0.71 n - 6.39 Å of the origin of an n-column sheet and move the silicon at most 5.5 Å, and draws that leave an example for testing. Since the contexts do not vary, C108_constant applies to them: they have no influence in training, and any other value is magnified in predictions."
  },
  {
   "property": "C136",
   "status": "partial",
   "theorems": [
    "PD.Props.C136_accepted_partial",
    "PD.Props.C136_newer_numpy",
    "PD.Props.C136_refused",
    "PD.Props.C136_mixture_fails"
   ],
   "note": "Proved for rates of type float32 (all single silicon predictors) and for numpy 1. False for mixtures of Gaussians with numpy 2 (C136_newer_numpy, C136_mixture_fails). The project does not pin numpy. Overflow is not modelled."
  },
  {
   "property": "C137",
   "status": "partial",
   "theorems": [
    "PD.Props.C137_dwell_partial",
    "PD.Props.C137_refused"
   ],
   "note": "Proved for numpy 1 and for actions of type float64. False for actions of type float32 with numpy 2, where TypeError is raised (C137_refused)."
  },
  {
   "property": "C138",
   "status": "proved",
   "theorems": [
    "PD.Props.C138_gap",
    "PD.Props.C138_sheet",
    "PD.Props.C138_moves",
    "PD.Props.C138_float32"
   ],
   "note": "The order of the three neighbours may change. C138_moves speaks of the calls of rate functions that do not raise."
  },
  {
   "property": "C139",
   "status": "proved",
   "theorems": [
    "PD.Props.C139_convert",
    "PD.Props.C139_seen",
    "PD.Props.C139_round_trip",
    "PD.Props.C139_beam",
    "PD.Props.C139_beyond"
   ],
   "note": "Overflow is not modelled; the bounds on errors assume a largest coordinate of at least 2^-900. A beam position of 1 can be converted to a point beyond the corner by a rounding error (C139_beyond)."
  },
  {
   "property": "C140",
   "status": "proved",
   "theorems": [
    "PD.Props.C140_ends",
    "PD.Props.C140_goals"
   ],
   "note": "Overflow is not modelled. For atoms between 48 and 52 A from the silicon nothing is claimed."
  },
  {
   "property": "C141",
   "status": "proved",
   "theorems": [
    "PD.Props.C141_rows",
    "PD.Props.C141_sheet",
    "PD.Props.C141_start"
   ],
   "note": "Overflow is not modelled. The bounds on sums, sines and cosines are assumptions on numpy; adding in order and rounding the exact values are shown to meet them."
  },
  {
   "property": "C142",
   "status": "proved",
   "theorems": [
    "PD.Props.C142_point",
    "PD.Props.C142_files"
   ],
   "note": "Assumes the record stays in the part of the sheet where every atom has its neighbours (as in C123), moves of at most 5.5 A per step, controls aimed into the field of view and a cutoff of at least twice the error (default 0.71 A). The arithmetic of making data points is exact here; only the positions carry errors."
  },
  {
   "property": "C143",
   "status": "proved",
   "theorems": [
    "PD.Props.C143_point",
    "PD.Props.C143_files"
   ],
   "note": "Assumes of the libraries: arctan2 within 2^-50 up to full turns and at most 4 in size, sine and cosine as in C139, sums as in C141, neighbour searches that are right up to 0.001 A^2 in squared distances for coordinates up to 65536 A (sklearn computes these from scalar products). The cutoff must be at least twice the error plus 0.00001 A (default 0.71 A)."
  },
  {
   "property": "C144",
   "status": "proved",
   "theorems": [
    "PD.Props.C144_seen",
    "PD.Props.C144_reset",
    "PD.Props.C144_step",
    "PD.Props.C144_files"
   ],
   "note": "The random generator and the rate function are as in the exact model: what they return is any number the assumptions allow. A rate so small that its inverse overflows is not made infinite, which makes no difference since waiting times are clipped to an hour."
  },
  {
   "property": "C145",
   "status": "partial",
   "theorems": [
    "PD.Props.C145_exposure",
    "PD.Props.C145_nothing",
    "PD.Props.C145_wait",
    "PD.Props.C145_step",
    "PD.Props.C145_returns_partial",
    "PD.Props.C145_mixture_raises"
   ],
   "note": "Not true of steps with numpy 2 and float64 rates, which `GaussianMixtureRateFunction` has: a control can raise ValueError (C145_mixture_raises). Assumed of the generator's choice, besides the ranges: an index of positive probability is drawn also if the probabilities do not sum to one exactly, since numpy divides by the last cumulative sum. Total rates between 0 and 2^-100 are covered by the claims on waiting times and on returning only if the rates are float32 numbers."
  },
  {
   "property": "C146",
   "status": "proved",
   "theorems": [
    "PD.Props.C146_rates",
    "PD.Props.C146_bonds",
    "PD.Props.C146_returns",
    "PD.Props.C146_odds",
    "PD.Props.C146_moves"
   ],
   "note": "A step that does not end counts as not raising: the model's loop has a bound on its rounds, and C146_returns says that the bound is not reached when it is 3.6 billion and waiting times are at least a microsecond. For the human prior with rounding see C148; mixtures are not covered with rounding."
  },
  {
   "property": "C147",
   "status": "partial",
   "theorems": [
    "PD.Props.C147_goal",
    "PD.Props.C147_ends",
    "PD.Props.C147_beam",
    "PD.Props.C147_kept",
    "PD.Props.C147_starts",
    "PD.Props.C147_no_goal",
    "PD.Props.C147_reset",
    "PD.Props.C147_plays_partial",
    "PD.Props.C147_refused"
   ],
   "note": "Fails for steps with numpy 2, float32 actions and a dwell time that is part of the action: every action is refused (C147_refused, from C137). C147_plays_partial excludes this, and steps on rates that numpy 2 refuses (C136); a step that does not end is excluded if waiting times are at least a microsecond. The rounding of the discount and of features is not modelled."
  },
  {
   "property": "C148",
   "status": "proved",
   "theorems": [
    "PD.Props.C148_exact",
    "PD.Props.C148_rates",
    "PD.Props.C148_far",
    "PD.Props.C148_returns",
    "PD.Props.C148_odds",
    "PD.Props.C148_plays"
   ],
   "note": "A step that does not end counts as not raising, as in C146. Only the default attributes are covered. Assumed of scipy: a relative error of 10^-9 and an absolute error of 10^-60 for the density with covariance 0.1. That a control of an hour or longer raises ValueError when the beam is far away is as in the code: the probabilities are then 0/0."
  },
  {
   "property": "C149",
   "status": "partial",
   "theorems": [
    "PD.Props.C149_run",
    "PD.Props.C149_consecutive",
    "PD.Props.C149_amount_partial",
    "PD.Props.C149_other_batch",
    "PD.Props.C149_graph_eighth",
    "PD.Props.C149_even",
    "PD.Props.C149_beginning",
    "PD.Props.C149_never_seen"
   ],
   "note": "C149_amount_partial: true of the image aligner, of the detector with batches of 128 and of graph alignment with batches of 16. The other two programs do not hand the configured batch size to the data set: by default an epoch of graph alignment uses an eighth of the examples (C149_graph_eighth; other sizes: C149_other_batch). After an interruption the data set begins anew (C149_run from any checkpoints); with a fixed seed a program that is always stopped after a few epochs never sees most of the data (C149_beginning, C149_never_seen). Without a seed every run has an order of its own. Modelled for one process; how grain shuffles is any order."
  },
  {
   "property": "C150",
   "status": "proved",
   "theorems": [
    "PD.Props.C150_features",
    "PD.Props.C150_choice",
    "PD.Props.C150_beam",
    "PD.Props.C150_begins",
    "PD.Props.C150_returns",
    "PD.Props.C150_refused",
    "PD.Props.C150_single",
    "PD.Props.C150_length"
   ],
   "note": "Features, greedy agent and environment together, with rounding. The agent's argmax and offset are arrays of type float64, as the default is."
  },
  {
   "property": "C151",
   "status": "proved",
   "theorems": [
    "PD.Props.C151_nearer",
    "PD.Props.C151_way",
    "PD.Props.C151_arrives",
    "PD.Props.C151_aim"
   ],
   "note": "What the silicon does under the beam is chance; the theorem is about the plays in which it goes where it is aimed at, or stays."
  },
  {
   "property": "C152",
   "status": "proved",
   "theorems": [
    "PD.Props.C152_aimed",
    "PD.Props.C152_five_seconds",
    "PD.Props.C152_arrives",
    "PD.Props.C152_half"
   ],
   "note": "With exact numbers. The first statement is about the first move; the beam stays where it is, and the silicon may move again before the time is up, which is what the second one takes into account."
  },
  {
   "property": "C153",
   "status": "proved",
   "theorems": [
    "PD.Props.C153_centred",
    "PD.Props.C153_too_small",
    "PD.Props.C153_neighbours"
   ],
   "note": "With exact numbers. The in-place matrix product by which the code turns the sheet needs numpy 1.25 or later."
  },
  {
   "property": "C154",
   "status": "proved",
   "theorems": [
    "PD.Props.C154_stays",
    "PD.Props.C154_first",
    "PD.Props.C154_cut",
    "PD.Props.C154_simple"
   ],
   "note": "With exact numbers. The half microsecond is due to the rounding of waiting times to microseconds. Only the first move is compared, within one step of the simulator."
  },
  {
   "property": "C155",
   "status": "proved",
   "theorems": [
    "PD.Props.C155_follows",
    "PD.Props.C155_plan"
   ],
   "note": "With exact numbers. The bound counts only the histories that make one move for each control; `applyControls` is the loop over the controls of one step of the simulator, with enough fuel."
  },
  {
   "property": "C156",
   "status": "proved",
   "theorems": [
    "PD.Props.C156_starts",
    "PD.Props.C156_led",
    "PD.Props.C156_reaches"
   ],
   "note": "With exact numbers, without images: rendering an image draws from the random generator, and how is not specified. The sheet is as laid out by the code up to a thousandth of an Å."
  },
  {
   "property": "C157",
   "status": "proved",
   "theorems": [
    "PD.Props.C157_wins",
    "PD.Props.C157_half"
   ],
   "note": "With exact numbers. The probability is over the state of the generator after the reset, as after `seed`. The player is one who knows the sheet; that the greedy agent aims like that is C151."
  },
  {
   "property": "C158",
   "status": "proved",
   "theorems": [
    "PD.Props.C158_wins",
    "PD.Props.C158_on_neighbour"
   ],
   "note": "With exact numbers. The probability is over the state of the generator after the reset, as after `seed`. It is a lower bound for the runs in which every move succeeds at once."
  },
  {
   "property": "C159",
   "status": "proved",
   "theorems": [
    "PD.Props.C159_wins",
    "PD.Props.C159_training"
   ],
   "note": "With exact numbers. The probability is over the state of the generator after the reset, as after `seed`. For actions in the material frame the declared range of 1 Å is shorter than a bond; C157 and C158 are about actions beyond it."
  },
  {
   "property": "C160",
   "status": "proved",
   "theorems": [
    "PD.Props.C160_examples",
    "PD.Props.C160_even",
    "PD.Props.C160_rejected",
    "PD.Props.C160_state"
   ],
   "note": "How JAX cuts an array by a NamedSharding, and when it raises, is modelled from its documentation."
  },
  {
   "property": "C161",
   "status": "proved",
   "theorems": [
    "PD.Props.C161_chosen",
    "PD.Props.C161_average",
    "PD.Props.C161_refused"
   ],
   "note": "Haiku's two levels of dictionaries are modelled as a list of named arrays; the optimiser's state is not. That JAX moves an index outside to the nearest row is part of the model."
  },
  {
   "property": "C162",
   "status": "proved",
   "theorems": [
    "PD.Props.C162_within",
    "PD.Props.C162_training"
   ],
   "note": "With exact numbers, as C159."
  }
 ]
}