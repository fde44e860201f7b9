{
 "claims": [
  {
   "property": "C01",
   "status": "proved",
   "theorems": [
    "Verif.Geo.C01_geo_local_geo",
    "Verif.Geo.C01_scale"
   ],
   "note": "Geo to local to geo round trip"
  },
  {
   "property": "C02",
   "status": "proved",
   "theorems": [
    "Verif.Geo.C02_local_geo_local",
    "Verif.Geo.C02_bound_is_needed"
   ],
   "note": "Local to geo to local round trip"
  },
  {
   "property": "C03",
   "status": "proved",
   "theorems": [
    "Verif.Geo.C03_normalize",
    "Verif.Geo.C03_single_step_fails",
    "Verif.Geo.C03_fixes_valid"
   ],
   "note": "C03_normalize states the exact range: the code adds or subtracts 360 only once, so the documented range is reached exactly for inputs in (-540, 540]; C03_single_step_fails is the deviation from the documented range."
  },
  {
   "property": "C04",
   "status": "proved",
   "theorems": [
    "Verif.Geometry.C04_segment_distance",
    "Verif.Geometry.C04_degenerate",
    "Verif.Geometry.C04_line_distance"
   ],
   "note": "Segment distance is the true minimum"
  },
  {
   "property": "C05",
   "status": "proved",
   "theorems": [
    "Verif.Geometry.C05_projection",
    "Verif.Geometry.C05_projection_degenerate"
   ],
   "note": "Projection is the foot of the perpendicular"
  },
  {
   "property": "C06",
   "status": "proved",
   "theorems": [
    "Verif.Geometry.C06_intersection_sound",
    "Verif.Geometry.C06_intersection_complete",
    "Verif.Geometry.C06_nan_means_disjoint"
   ],
   "note": "Segment intersection point is sound and complete"
  },
  {
   "property": "C07",
   "status": "proved",
   "theorems": [
    "Verif.Geometry.C07_check_sound",
    "Verif.Geometry.C07_check_complete",
    "Verif.Geometry.C07_axis_parallel_never",
    "Verif.Geometry.C07_exact",
    "Verif.Geometry.C07_complete_fails",
    "Verif.Geometry.C07_area"
   ],
   "note": "C07_exact characterises the answer: proper crossing and no axis-parallel segment. C07_axis_parallel_never and C07_complete_fails are the deviation: axis-parallel crossings are missed."
  },
  {
   "property": "C08",
   "status": "proved",
   "theorems": [
    "Verif.NavGraph.C08_projection",
    "Verif.NavGraph.C08_projection_exact"
   ],
   "note": "Graph projection returns a nearest graph point"
  },
  {
   "property": "C09",
   "status": "proved",
   "theorems": [
    "Verif.Geometry.C09_pointOnLine_complete",
    "Verif.Geometry.C09_pointOnLine_sound",
    "Verif.Geometry.C09_ray",
    "Verif.Geometry.C09_ray_end"
   ],
   "note": "Point-on-segment and ray tests"
  },
  {
   "property": "C10",
   "status": "proved",
   "theorems": [
    "Verif.NavGraph.C10_vertices",
    "Verif.NavGraph.C10_addVertex",
    "Verif.NavGraph.C10_edges",
    "Verif.NavGraph.C10_edges_have_ends",
    "Verif.NavGraph.C10_addEdge_throws"
   ],
   "note": "Graph integrity"
  },
  {
   "property": "C11",
   "status": "proved",
   "theorems": [
    "Verif.NavGraph.C11_convert",
    "Verif.NavGraph.C11_convert_history"
   ],
   "note": "Graph conversion is an isomorphism"
  },
  {
   "property": "C12",
   "status": "proved",
   "theorems": [
    "Verif.Levels.C12_lookup",
    "Verif.Levels.C12_first_wins",
    "Verif.Levels.C12_addGeoLevel"
   ],
   "note": "Level lookup"
  },
  {
   "property": "C13",
   "status": "proved",
   "theorems": [
    "Verif.Levels.C13_find",
    "Verif.Levels.C13_two_step_lookup",
    "Verif.Levels.C13_duplicate_ids_throw"
   ],
   "note": "For unique level ids; C13_duplicate_ids_throw shows what fails without."
  },
  {
   "property": "C14",
   "status": "proved",
   "theorems": [
    "Verif.Levels.C14_first_transmitter_wins",
    "Verif.Levels.C14_level_measurements"
   ],
   "note": "Transmitters of a level and level measurement filter"
  },
  {
   "property": "C15",
   "status": "proved",
   "theorems": [
    "Verif.Levels.C15_radiomap"
   ],
   "note": "Radiomap index"
  },
  {
   "property": "C16",
   "status": "proved",
   "theorems": [
    "Verif.Radio.C16_admission",
    "Verif.Radio.C16_other_messages"
   ],
   "note": "Signal admission"
  },
  {
   "property": "C17",
   "status": "proved",
   "theorems": [
    "Verif.Radio.C17_average"
   ],
   "note": "Averaging window contents"
  },
  {
   "property": "C18",
   "status": "proved",
   "theorems": [
    "Verif.Radio.C18_closed_gate",
    "Verif.Radio.C18_first_extraction",
    "Verif.Radio.C18_spacing"
   ],
   "note": "For a non-negative shift and non-zero time stamps (zero is the code's 'no measurement yet' sentinel)."
  },
  {
   "property": "C19",
   "status": "proved",
   "theorems": [
    "Verif.Radio.C19_retention",
    "Verif.Radio.C19_nothing_invented"
   ],
   "note": "Window retention"
  },
  {
   "property": "C20",
   "status": "proved",
   "theorems": [
    "Verif.Radio.C20_range"
   ],
   "note": "Averaged signals stay in the admitted range"
  },
  {
   "property": "C21",
   "status": "proved",
   "theorems": [
    "Verif.Radio.C21_closest"
   ],
   "note": "Closest access points"
  },
  {
   "property": "C22",
   "status": "proved",
   "theorems": [
    "Verif.Radio.C22_distance",
    "Verif.Radio.C22_monotone"
   ],
   "note": "For unique level ids and non-zero slope B."
  },
  {
   "property": "C23",
   "status": "proved",
   "theorems": [
    "Verif.Radio.C23_window",
    "Verif.Radio.C23_milliseconds"
   ],
   "note": "Window configuration"
  },
  {
   "property": "C24",
   "status": "proved",
   "theorems": [
    "Verif.LevelEst.C24_detected",
    "Verif.LevelEst.C24_first",
    "Verif.LevelEst.C24_change",
    "Verif.LevelEst.C24_five",
    "Verif.LevelEst.C24_hold"
   ],
   "note": "Level history hysteresis"
  },
  {
   "property": "C25",
   "status": "proved",
   "theorems": [
    "Verif.LevelEst.C25_buffers"
   ],
   "note": "Barometer buffers"
  },
  {
   "property": "C26",
   "status": "proved",
   "theorems": [
    "Verif.LevelEst.C26_hold",
    "Verif.LevelEst.C26_choice",
    "Verif.LevelEst.C26_ratio"
   ],
   "note": "Barometer level hold"
  },
  {
   "property": "C27",
   "status": "proved",
   "theorems": [
    "Verif.LevelEst.C27_detected",
    "Verif.LevelEst.C27_some_level"
   ],
   "note": "Level by transmitters"
  },
  {
   "property": "C28",
   "status": "proved",
   "theorems": [
    "Verif.Knn.C28_score",
    "Verif.Knn.C28_best_rp",
    "Verif.Knn.C28_level",
    "Verif.Knn.C28_empty_iff",
    "Verif.Knn.C28_empty_best"
   ],
   "note": "Level by radiomap"
  },
  {
   "property": "C29",
   "status": "proved",
   "theorems": [
    "Verif.Knn.C29_lower_bound",
    "Verif.Knn.C29_weights"
   ],
   "note": "KNN weights are positive"
  },
  {
   "property": "C30",
   "status": "proved",
   "theorems": [
    "Verif.Knn.C30_in_triangle",
    "Verif.Knn.C30_no_triangle"
   ],
   "note": "Triangle position is a convex combination"
  },
  {
   "property": "C31",
   "status": "proved",
   "theorems": [
    "Verif.Knn.C31_always_origin",
    "Verif.Knn.C31_not_intended"
   ],
   "note": "The intended claim is false of the code: the function returns the origin for every input (C31_always_origin), refuted by C31_not_intended."
  },
  {
   "property": "C32",
   "status": "proved",
   "theorems": [
    "Verif.Knn.C32_status",
    "Verif.Knn.C32_history"
   ],
   "note": "KNN estimator status discipline"
  },
  {
   "property": "C33",
   "status": "proved",
   "theorems": [
    "Verif.Estim.C33_zone",
    "Verif.Estim.C33_params"
   ],
   "note": "Zone estimator picks the strongest transmitter"
  },
  {
   "property": "C34",
   "status": "proved",
   "theorems": [
    "Verif.Estim.C34_buffer",
    "Verif.Estim.C34_accept",
    "Verif.Estim.C34_zero_window"
   ],
   "note": "Sigma filter"
  },
  {
   "property": "C35",
   "status": "proved",
   "theorems": [
    "Verif.Estim.C35_filtered",
    "Verif.Estim.C35_filtered_coarse",
    "Verif.Estim.C35_max_deviation_unused",
    "Verif.Estim.C35_output",
    "Verif.Estim.C35_empty",
    "Verif.Estim.C35_reported",
    "Verif.Estim.C35_defined"
   ],
   "note": "Outdoor estimator output"
  },
  {
   "property": "C36",
   "status": "proved",
   "theorems": [
    "Verif.Post.C36_result",
    "Verif.Post.C36_empty",
    "Verif.Post.C36_options",
    "Verif.Post.C36_choice"
   ],
   "note": "Fusion of indoor and outdoor positions"
  },
  {
   "property": "C37",
   "status": "proved",
   "theorems": [
    "Verif.Post.C37_rejected",
    "Verif.Post.C37_accepted",
    "Verif.Post.C37_first_stop_witness"
   ],
   "note": "Freshness and map bounds of processed positions"
  },
  {
   "property": "C38",
   "status": "proved",
   "theorems": [
    "Verif.Post.C38_box",
    "Verif.Post.C38_box_exact",
    "Verif.Post.C38_outside_witness"
   ],
   "note": "Processed positions stay in the level box"
  },
  {
   "property": "C39",
   "status": "proved",
   "theorems": [
    "Verif.Post.C39_spacing",
    "Verif.Post.C39_near",
    "Verif.Post.C39_hold",
    "Verif.Post.C39_creep_witness"
   ],
   "note": "Stop hold"
  },
  {
   "property": "C40",
   "status": "proved",
   "theorems": [
    "Verif.Post.C40_snap",
    "Verif.Post.C40_snap_exact",
    "Verif.Post.C40_reported"
   ],
   "note": "Graph snap"
  },
  {
   "property": "C41",
   "status": "proved",
   "theorems": [
    "Verif.Smooth.C41_gain",
    "Verif.Smooth.C41_gain_setting",
    "Verif.Smooth.C41_gain_accuracy",
    "Verif.Smooth.C41_not_newer",
    "Verif.Smooth.C41_smooth",
    "Verif.Smooth.C41_deviation",
    "Verif.Smooth.C41_state",
    "Verif.Smooth.C41_reset",
    "Verif.Smooth.C41_reset_prediction",
    "Verif.Smooth.C41_speed"
   ],
   "note": "Alpha-beta smoother behaviour"
  },
  {
   "property": "C42",
   "status": "proved",
   "theorems": [
    "Verif.Smooth.C42_rate",
    "Verif.Smooth.C42_converges"
   ],
   "note": "Alpha-beta smoother convergence"
  },
  {
   "property": "C43",
   "status": "proved",
   "theorems": [
    "Verif.Smooth.C43_level_change",
    "Verif.Smooth.C43_first",
    "Verif.Smooth.C43_segment",
    "Verif.Smooth.C43_out_of_order_witness"
   ],
   "note": "Time smoother interpolates only"
  },
  {
   "property": "C44",
   "status": "proved",
   "theorems": [
    "Verif.Smooth.C44_exact",
    "Verif.Smooth.C44_regular",
    "Verif.Smooth.C44_positive_definite",
    "Verif.Smooth.C44_two",
    "Verif.Smooth.C44_rotation_witness"
   ],
   "note": "Linear solver"
  },
  {
   "property": "C45",
   "status": "proved",
   "theorems": [
    "Verif.Smooth.C45_optimal",
    "Verif.Smooth.C45_line"
   ],
   "note": "Least squares fit is optimal"
  },
  {
   "property": "C46",
   "status": "proved",
   "theorems": [
    "Verif.Smooth.C46_interpolates",
    "Verif.Smooth.C46_single",
    "Verif.Smooth.C46_empty"
   ],
   "note": "Lagrange prediction interpolates"
  },
  {
   "property": "C47",
   "status": "proved",
   "theorems": [
    "Verif.Smooth.C47_paired",
    "Verif.Smooth.C47_window",
    "Verif.Smooth.C47_negative_interval"
   ],
   "note": "Fit window"
  },
  {
   "property": "C48",
   "status": "proved",
   "theorems": [
    "Verif.Triang.C48_output",
    "Verif.Triang.C48_corners",
    "Verif.Triang.C48_insertion"
   ],
   "note": "Triangulation output uses only the given points"
  },
  {
   "property": "C49",
   "status": "proved",
   "theorems": [
    "Verif.Triang.C49_circumcircle",
    "Verif.Triang.C49_degenerate",
    "Verif.Triang.C49_order"
   ],
   "note": "Circumcircle test"
  },
  {
   "property": "C50",
   "status": "proved",
   "theorems": [
    "Verif.Trilat.C50_intersect",
    "Verif.Trilat.C50_maximal"
   ],
   "note": "Sphere intersection filter"
  },
  {
   "property": "C51",
   "status": "proved",
   "theorems": [
    "Verif.Trilat.C51_altitude_wrong",
    "Verif.Trilat.C51_answer",
    "Verif.Trilat.C51_four",
    "Verif.Trilat.C51_equation",
    "Verif.Trilat.C51_solution"
   ],
   "note": "Altitude needs four spheres"
  },
  {
   "property": "C52",
   "status": "proved",
   "theorems": [
    "Verif.Pedo.C52_count",
    "Verif.Pedo.C52_spacing",
    "Verif.Pedo.C52_one_per_call"
   ],
   "note": "Pedometer step spacing"
  },
  {
   "property": "C53",
   "status": "proved",
   "theorems": [
    "Verif.Pedo.C53_safe",
    "Verif.Pedo.C53_windows",
    "Verif.Pedo.C53_unordered_grows"
   ],
   "note": "Pedometer buffers and memory safety"
  },
  {
   "property": "C54",
   "status": "proved",
   "theorems": [
    "Verif.Fusion.C54_terminates",
    "Verif.Fusion.C54_unique",
    "Verif.Fusion.C54_range",
    "Verif.Fusion.C54_canonical"
   ],
   "note": "Angle normalisation"
  },
  {
   "property": "C55",
   "status": "proved",
   "theorems": [
    "Verif.Fusion.C55_unit"
   ],
   "note": "Orientation stays a unit quaternion"
  },
  {
   "property": "C56",
   "status": "proved",
   "theorems": [
    "Verif.Fusion.C56_magnetometer"
   ],
   "note": "Magnetometer only before the first gyroscope sample"
  },
  {
   "property": "C57",
   "status": "proved",
   "theorems": [
    "Verif.Fusion.C57_device",
    "Verif.Fusion.C57_calculated"
   ],
   "note": "Device azimuth lifetime"
  },
  {
   "property": "C58",
   "status": "proved",
   "theorems": [
    "Verif.Fusion.C58_displacement",
    "Verif.Fusion.C58_monotone"
   ],
   "note": "Step counter and displacement"
  },
  {
   "property": "C59",
   "status": "proved",
   "theorems": [
    "Verif.Fusion.C59_gain",
    "Verif.Fusion.C59_between"
   ],
   "note": "Low pass filter"
  },
  {
   "property": "C60",
   "status": "proved",
   "theorems": [
    "Verif.Likelihood.C60_weights",
    "Verif.Likelihood.C60_nearer",
    "Verif.Likelihood.C60_far",
    "Verif.Likelihood.C60_throws"
   ],
   "note": "Likelihood weights"
  },
  {
   "property": "C61",
   "status": "proved",
   "theorems": [
    "Verif.Nav.C61_count",
    "Verif.Nav.C61_order",
    "Verif.Nav.C61_dropped"
   ],
   "note": "navigate output count and order"
  },
  {
   "property": "C62",
   "status": "proved",
   "theorems": [
    "Verif.Nav.C62_batching",
    "Verif.Nav.C62_unordered"
   ],
   "note": "Batching does not matter for ordered input"
  },
  {
   "property": "C63",
   "status": "proved",
   "theorems": [
    "Verif.Nav.C63_outputs"
   ],
   "note": "Status discipline of navigate"
  },
  {
   "property": "C64",
   "status": "proved",
   "theorems": [
    "Verif.Nav.C64_stale",
    "Verif.Nav.C64_never_lost"
   ],
   "note": "Lost level should be reported"
  },
  {
   "property": "C65",
   "status": "proved",
   "theorems": [
    "Verif.Nav.C65_silence",
    "Verif.Nav.C65_fresh",
    "Verif.Nav.C65_debug"
   ],
   "note": "No signal timeout"
  },
  {
   "property": "C66",
   "status": "proved",
   "theorems": [
    "Verif.Nav.C66_no_expiry",
    "Verif.Nav.C66_expiry"
   ],
   "note": "GNSS fixes expire"
  },
  {
   "property": "C67",
   "status": "proved",
   "theorems": [
    "Verif.Nav.C67_logic",
    "Verif.Nav.C67_change",
    "Verif.Nav.C67_carry",
    "Verif.Nav.C67_plain",
    "Verif.Nav.C67_reachable",
    "Verif.Nav.C67_dead"
   ],
   "note": "Heading state is never read uninitialised"
  },
  {
   "property": "C68",
   "status": "proved",
   "theorems": [
    "Verif.Standalone.C68_call",
    "Verif.Standalone.C68_hull",
    "Verif.Standalone.C68_deterministic",
    "Verif.Standalone.C68_history",
    "Verif.Standalone.C68_again",
    "Verif.Standalone.C68_duplicates"
   ],
   "note": "Standalone trilateration"
  },
  {
   "property": "C69",
   "status": "proved",
   "theorems": [
    "Verif.Standalone.C69_nearest",
    "Verif.Standalone.C69_precision",
    "Verif.Standalone.C69_refines",
    "Verif.Standalone.C69_gain",
    "Verif.Standalone.C69_smooth",
    "Verif.Standalone.C69_converges",
    "Verif.Standalone.C69_first"
   ],
   "note": "Standalone nearest transmitter estimator and smoother"
  },
  {
   "property": "C70",
   "status": "proved",
   "theorems": [
    "Verif.Standalone.C70_report",
    "Verif.Standalone.C70_clock",
    "Verif.Standalone.C70_entries",
    "Verif.Standalone.C70_late",
    "Verif.Standalone.C70_settings"
   ],
   "note": "Standalone preprocessor"
  },
  {
   "property": "C71",
   "status": "proved",
   "theorems": [
    "Verif.MapLoad.C71_distance",
    "Verif.MapLoad.C71_merge",
    "Verif.MapLoad.C71_total",
    "Verif.MapLoad.C71_lines",
    "Verif.MapLoad.C71_edges",
    "Verif.MapLoad.C71_vertices",
    "Verif.MapLoad.C71_connected",
    "Verif.MapLoad.C71_duplicates"
   ],
   "note": "The original wish 'no two vertices at one point' is false of the code: C71_duplicates shows that every line with unmerged ends creates two vertices at one point."
  },
  {
   "property": "C72",
   "status": "proved",
   "theorems": [
    "Verif.Levels.C72_barriers",
    "Verif.Levels.C72_index_in_range",
    "Verif.Levels.C72_geo_level"
   ],
   "note": "Path barrier test"
  },
  {
   "property": "C73",
   "status": "proved",
   "theorems": [
    "Verif.Levels.C73_local_box"
   ],
   "note": "Local bounding box"
  },
  {
   "property": "C74",
   "status": "proved",
   "theorems": [
    "Verif.Knn.C74_bias_invariance",
    "Verif.Knn.C74_abs_mode_biased"
   ],
   "note": "KNN difference mode cancels a device bias"
  },
  {
   "property": "C75",
   "status": "proved",
   "theorems": [
    "Verif.Knn.C75_dichotomy",
    "Verif.Knn.C75_hull",
    "Verif.Knn.C75_origin",
    "Verif.Knn.C75_triangulated",
    "Verif.Knn.C75_sides",
    "Verif.Knn.C75_square",
    "Verif.Knn.C75_origin_witness",
    "Verif.Knn.C75_example"
   ],
   "note": "C75_hull and C75_origin together settle every OK answer for signal levels within 1000 dB: inside a triangle if a corner has three matches, else the origin (the deviation, with witness C75_origin_witness). C75_dichotomy is the version without the bound."
  },
  {
   "property": "C76",
   "status": "proved",
   "theorems": [
    "Verif.Smooth.C76_output",
    "Verif.Smooth.C76_reset",
    "Verif.Smooth.C76_diverges_witness"
   ],
   "note": "Least squares smoother"
  },
  {
   "property": "C77",
   "status": "proved",
   "theorems": [
    "Verif.Pedo.C77_detect",
    "Verif.Pedo.C77_other"
   ],
   "note": "Step detection rule"
  },
  {
   "property": "C78",
   "status": "proved",
   "theorems": [
    "Verif.Fusion.C78_uninitialised"
   ],
   "note": "Uninitialised low-pass state is never observable"
  },
  {
   "property": "C79",
   "status": "proved",
   "theorems": [
    "Verif.Nav.C79_loaded",
    "Verif.Nav.C79_total"
   ],
   "note": "navigate is total"
  },
  {
   "property": "C80",
   "status": "proved",
   "theorems": [
    "Verif.Nav.C80_orientation"
   ],
   "note": "Reported orientation"
  },
  {
   "property": "C81",
   "status": "proved",
   "theorems": [
    "Verif.Nav.C81_no_action"
   ],
   "note": "The no-action threshold has no effect"
  },
  {
   "property": "C82",
   "status": "proved",
   "theorems": [
    "Verif.Nav.C82_observable",
    "Verif.Nav.C82_other_memory",
    "Verif.Nav.C82_well_started"
   ],
   "note": "Uninitialised memory"
  },
  {
   "property": "C83",
   "status": "proved",
   "theorems": [
    "Verif.Likelihood.C83_centre",
    "Verif.Likelihood.C83_weight",
    "Verif.Likelihood.C83_sufficient"
   ],
   "note": "Sampling centre of the radiomap likelihood"
  },
  {
   "property": "C84",
   "status": "proved",
   "theorems": [
    "Verif.Likelihood.C84_area",
    "Verif.Likelihood.C84_throws"
   ],
   "note": "Intersection area of distance circles"
  },
  {
   "property": "C85",
   "status": "proved",
   "theorems": [
    "Verif.MapLoad.C85_levels",
    "Verif.MapLoad.C85_content",
    "Verif.MapLoad.C85_area",
    "Verif.MapLoad.C85_total",
    "Verif.MapLoad.C85_transmitter"
   ],
   "note": "Map loading: levels and their content"
  },
  {
   "property": "C86",
   "status": "proved",
   "theorems": [
    "Verif.MapLoad.C86_statistics",
    "Verif.MapLoad.C86_range",
    "Verif.MapLoad.C86_fingerprints"
   ],
   "note": "Map loading: fingerprint statistics"
  },
  {
   "property": "C87",
   "status": "proved",
   "theorems": [
    "Verif.JsonIn.C87_log",
    "Verif.JsonIn.C87_lines",
    "Verif.JsonIn.C87_eddystone",
    "Verif.JsonIn.C87_unknown_type",
    "Verif.JsonIn.C87_short_vector",
    "Verif.JsonIn.C87_wraps"
   ],
   "note": "Deviations proved: C87_eddystone, C87_unknown_type, C87_short_vector."
  },
  {
   "property": "C88",
   "status": "proved",
   "theorems": [
    "Verif.JsonIn.C88_set",
    "Verif.JsonIn.C88_default",
    "Verif.JsonIn.C88_total",
    "Verif.JsonIn.C88_unknown",
    "Verif.JsonIn.C88_names_ignored"
   ],
   "note": "C88_set and C88_default are exhaustive; deviation from the header: C88_names_ignored."
  },
  {
   "property": "C89",
   "status": "proved",
   "theorems": [
    "Verif.JsonIn.C89_code",
    "Verif.JsonIn.C89_file",
    "Verif.JsonIn.C89_missing",
    "Verif.JsonIn.C89_missing_common",
    "Verif.JsonIn.C89_empty"
   ],
   "note": "Settings files: error code and settings of the levels"
  },
  {
   "property": "C90",
   "status": "proved",
   "theorems": [
    "Verif.Fusion.C90_step",
    "Verif.Fusion.C90_first",
    "Verif.Fusion.C90_flat",
    "Verif.Fusion.C90_turn"
   ],
   "note": "The gyroscope turns the heading by rate times time"
  },
  {
   "property": "C91",
   "status": "proved",
   "theorems": [
    "Verif.Fusion.C91_turn",
    "Verif.Fusion.C91_cosine",
    "Verif.Fusion.C91_geometric",
    "Verif.Fusion.C91_rate",
    "Verif.Fusion.C91_converges",
    "Verif.Fusion.C91_stuck"
   ],
   "note": "The accelerometer corrects the tilt"
  },
  {
   "property": "C92",
   "status": "proved",
   "theorems": [
    "Verif.Fusion.C92_step",
    "Verif.Fusion.C92_rate",
    "Verif.Fusion.C92_north"
   ],
   "note": "The magnetometer turns the initial orientation towards north"
  },
  {
   "property": "C93",
   "status": "proved",
   "theorems": [
    "Verif.Fusion.C93_azimuth",
    "Verif.Fusion.C93_drift",
    "Verif.Fusion.C93_flat"
   ],
   "note": "The magnetic azimuth is tilt compensated and free of drift"
  },
  {
   "property": "C94",
   "status": "proved",
   "theorems": [
    "Verif.Nav.C94_zone",
    "Verif.Nav.C94_first_window",
    "Verif.Nav.C94_strongest_unique",
    "Verif.Nav.C94_example"
   ],
   "note": "What a client with beacon zones answers"
  },
  {
   "property": "C95",
   "status": "proved",
   "theorems": [
    "Verif.Triang.C95_delaunay",
    "Verif.Triang.C95_once",
    "Verif.Triang.C95_overlap",
    "Verif.Triang.C95_complete",
    "Verif.Triang.C95_disjoint",
    "Verif.Triang.C95_corridor",
    "Verif.Triang.C95_unique",
    "Verif.Triang.C95_order"
   ],
   "note": "The triangulation of the reference points is the Delaunay triangulation"
  },
  {
   "property": "C96",
   "status": "proved",
   "theorems": [
    "Verif.Post.C96_chain",
    "Verif.Post.C96_warmup"
   ],
   "note": "The post-processor is its smoothers in series"
  },
  {
   "property": "C97",
   "status": "proved",
   "theorems": [
    "Verif.Fusion.C97_range",
    "Verif.Fusion.C97_angles",
    "Verif.Fusion.C97_vertical",
    "Verif.Fusion.C97_vertical_witness"
   ],
   "note": "Roll, pitch and yaw describe the orientation"
  },
  {
   "property": "C98",
   "status": "proved",
   "theorems": [
    "Verif.Vec.C98_products",
    "Verif.Vec.C98_cross",
    "Verif.Vec.C98_linear",
    "Verif.Vec.C98_normalized",
    "Verif.Vec.C98_equal",
    "Verif.Vec.C98_not_transitive",
    "Verif.Vec.C98_null"
   ],
   "note": "Vector arithmetic obeys the laws of three-dimensional space"
  },
  {
   "property": "C99",
   "status": "proved",
   "theorems": [
    "Verif.Nav.C99_sensors",
    "Verif.Nav.C99_foreign",
    "Verif.Nav.C99_again"
   ],
   "note": "Sensor and radio messages do not leak into each other"
  },
  {
   "property": "C100",
   "status": "proved",
   "theorems": [
    "Verif.Nav.C100_client",
    "Verif.Pedo.C100_turned"
   ],
   "note": "Steps do not depend on how the device is held"
  },
  {
   "property": "C101",
   "status": "proved",
   "theorems": [
    "Verif.Nav.C101_altitude",
    "Verif.Nav.C101_other",
    "Verif.Nav.C101_four",
    "Verif.Nav.C101_window",
    "Verif.Nav.C101_ranging",
    "Verif.Nav.C101_altitude_wrong"
   ],
   "note": "Reported altitude"
  },
  {
   "property": "C102",
   "status": "proved",
   "theorems": [
    "Verif.Pedo.C102_grouping",
    "Verif.Pedo.C102_versions",
    "Verif.Pedo.C102_missed",
    "Verif.Pedo.C102_start"
   ],
   "note": "Grouping of pedometer samples does not matter"
  },
  {
   "property": "C103",
   "status": "proved",
   "theorems": [
    "Verif.Standalone.Cf.C103_same",
    "Verif.Standalone.Cf.C103_default",
    "Verif.Standalone.Cf.C103_range"
   ],
   "note": "The stand-alone complementary filter is the library's"
  },
  {
   "property": "C104",
   "status": "proved",
   "theorems": [
    "Verif.Standalone.Cf.C104_turn",
    "Verif.Standalone.Cf.C104_bound",
    "Verif.Standalone.Cf.C104_off",
    "Verif.Standalone.Cf.C104_windup"
   ],
   "note": "The integral gain adds the accumulated error to the rate"
  },
  {
   "property": "C105",
   "status": "proved",
   "theorems": [
    "Verif.Tool.C105_batches",
    "Verif.Tool.C105_batch_size",
    "Verif.Tool.C105_lines",
    "Verif.Tool.C105_endless",
    "Verif.Tool.C105_late",
    "Verif.Tool.C105_restart"
   ],
   "note": "A replayed log gives the same output for every batch size"
  },
  {
   "property": "C106",
   "status": "proved",
   "theorems": [
    "Verif.Tool.C106_finishes"
   ],
   "note": "With good files the replay program finishes"
  },
  {
   "property": "C107",
   "status": "proved",
   "theorems": [
    "Verif.Tool.C107_track"
   ],
   "note": "The printed dead-reckoning track moves at most once"
  },
  {
   "property": "C108",
   "status": "proved",
   "theorems": [
    "Verif.Standalone.C108_lines",
    "Verif.Standalone.C108_prefix",
    "Verif.Standalone.C108_moved",
    "Verif.Standalone.C108_collinear",
    "Verif.Standalone.C108_first",
    "Verif.Standalone.C108_stale"
   ],
   "note": "The stand-alone positioning program: what the output file says"
  },
  {
   "property": "C109",
   "status": "proved",
   "theorems": [
    "Verif.Pedo.C109_count",
    "Verif.Pedo.C109_prints",
    "Verif.Pedo.C109_prefix",
    "Verif.Pedo.C109_turned",
    "Verif.Pedo.C109_mean"
   ],
   "note": "The stand-alone step counter: the printed number"
  },
  {
   "property": "C110",
   "status": "proved",
   "theorems": [
    "Verif.Fusion.C110_accel",
    "Verif.Fusion.C110_pull",
    "Verif.Fusion.C110_gyro",
    "Verif.Fusion.C110_rest",
    "Verif.Fusion.C110_small",
    "Verif.Fusion.C110_noise",
    "Verif.Fusion.C110_angles",
    "Verif.Standalone.Cf.C110_program",
    "Verif.Standalone.Cf.C110_verdict"
   ],
   "note": "The tilt of a device at rest, with sensors that err"
  },
  {
   "property": "C111",
   "status": "proved",
   "theorems": [
    "Verif.Fp.C111_exact",
    "Verif.Fp.C111_unit",
    "Verif.Fp.C111_gyro",
    "Verif.Fp.C111_world"
   ],
   "note": "Rounding errors of the orientation filter"
  },
  {
   "property": "C112",
   "status": "proved",
   "theorems": [
    "Verif.Fp.C112_accel",
    "Verif.Fp.C112_pull",
    "Verif.Fp.C112_gyro",
    "Verif.Fp.C112_rest",
    "Verif.Fp.C112_small",
    "Verif.Fp.C112_program"
   ],
   "note": "The tilt of a device at rest, with rounding errors"
  },
  {
   "property": "C113",
   "status": "proved",
   "theorems": [
    "Verif.Nav.C113_example",
    "Verif.Nav.C113_place",
    "Verif.Nav.C113_before",
    "Verif.Nav.C113_cases",
    "Verif.Nav.C113_in_box"
   ],
   "note": "What a client with fingerprints answers"
  },
  {
   "property": "C114",
   "status": "proved",
   "theorems": [
    "Verif.Fusion.C114_rates",
    "Verif.Fusion.C114_moving",
    "Verif.Fusion.C114_small",
    "Verif.Standalone.Cf.C114_swing",
    "Verif.Standalone.Cf.C114_program"
   ],
   "note": "The tilt of a device that moves, with sensors that err"
  },
  {
   "property": "C115",
   "status": "proved",
   "theorems": [
    "Verif.Checked.C115_constructor",
    "Verif.Checked.C115_run",
    "Verif.Checked.C115_client",
    "Verif.Checked.C115_uninitialised",
    "Verif.Checked.C115_pole",
    "Verif.Checked.C115_slope",
    "Verif.Checked.C115_zone",
    "Verif.Checked.C115_clock_set_back"
   ],
   "note": "The arithmetic of the client is defined"
  },
  {
   "property": "C116",
   "status": "proved",
   "theorems": [
    "Verif.Shift.C116_same_memory",
    "Verif.Shift.C116_shift",
    "Verif.Shift.C116_start"
   ],
   "note": "Only time differences matter"
  },
  {
   "property": "C117",
   "status": "proved",
   "theorems": [
    "Verif.Inertial.C117_turn",
    "Verif.Inertial.C117_place",
    "Verif.Inertial.C117_orientation"
   ],
   "note": "Inertial sensors do not move the place"
  },
  {
   "property": "C118",
   "status": "proved",
   "theorems": [
    "Verif.Floors.C118_floors",
    "Verif.Floors.C118_unique",
    "Verif.Floors.C118_five",
    "Verif.Floors.C118_change",
    "Verif.Floors.C118_example"
   ],
   "note": "What a client with beacon zones on several floors answers"
  },
  {
   "property": "C119",
   "status": "proved",
   "theorems": [
    "Verif.Prints.C119_example",
    "Verif.Prints.C119_place",
    "Verif.Prints.C119_before",
    "Verif.Prints.C119_cases"
   ],
   "note": "Floor in use and place for any number of floors; the reported floor is the one of the last place."
  },
  {
   "property": "C120",
   "status": "proved",
   "theorems": [
    "Verif.Outdoor.C120_fix",
    "Verif.Outdoor.C120_none",
    "Verif.Outdoor.C120_cases",
    "Verif.Outdoor.C120_repeated"
   ],
   "note": "What a client answers that hears no transmitter"
  },
  {
   "property": "C121",
   "status": "proved",
   "theorems": [
    "Verif.Footprint.C121_constant",
    "Verif.Footprint.C121_silent_sensors",
    "Verif.Footprint.C121_standing",
    "Verif.Footprint.C121_stroll",
    "Verif.Footprint.C121_signals",
    "Verif.Footprint.C121_samples",
    "Verif.Footprint.C121_others"
   ],
   "note": "How much a client keeps"
  },
  {
   "property": "C122",
   "status": "proved",
   "theorems": [
    "Verif.Smooth.C122_near",
    "Verif.Smooth.C122_converges",
    "Verif.Smooth.C122_diverges",
    "Verif.Smooth.C122_figures"
   ],
   "note": "The alpha-beta smoother with irregular intervals and inexact measurements"
  },
  {
   "property": "C123",
   "status": "proved",
   "theorems": [
    "Verif.Track.C123_example",
    "Verif.Track.C123_answer",
    "Verif.Track.C123_first_window",
    "Verif.Track.C123_fix_unique",
    "Verif.Track.C123_default",
    "Verif.Track.C123_settles",
    "Verif.Track.C123_settles_default"
   ],
   "note": "What a client with the default settings answers on one floor"
  },
  {
   "property": "C124",
   "status": "proved",
   "theorems": [
    "Verif.Track.C124_example",
    "Verif.Track.C124_answer",
    "Verif.Track.C124_new_fix",
    "Verif.Track.C124_no_fix",
    "Verif.Track.C124_arrive",
    "Verif.Track.C124_one_floor"
   ],
   "note": "What a client with the default settings answers in a building"
  },
  {
   "property": "C125",
   "status": "proved",
   "theorems": [
    "Verif.Grow.C125_rebuilt",
    "Verif.Grow.C125_total",
    "Verif.Grow.C125_outputs",
    "Verif.Grow.C125_states",
    "Verif.Grow.C125_no_states",
    "Verif.Grow.C125_fingerprints_throw",
    "Verif.Grow.C125_example"
   ],
   "note": "Floors added to the map after the client was made"
  },
  {
   "property": "C126",
   "status": "proved",
   "theorems": [
    "Verif.Standalone.C126_verdict",
    "Verif.Standalone.C126_any_input",
    "Verif.Standalone.C126_scenario"
   ],
   "note": "What the test program of the standalone trilateration tells"
  },
  {
   "property": "C127",
   "status": "proved",
   "theorems": [
    "Verif.Pressure.C127_never_found",
    "Verif.Pressure.C127_found_without",
    "Verif.Pressure.C127_idle",
    "Verif.Pressure.C127_no_sensor",
    "Verif.Pressure.C127_answers",
    "Verif.Pressure.C127_unique",
    "Verif.Pressure.C127_held",
    "Verif.Pressure.C127_stuck"
   ],
   "note": "What a client with the barometer switched on answers"
  },
  {
   "property": "C128",
   "status": "proved",
   "theorems": [
    "Verif.Fp.C128_local_geo_local",
    "Verif.Fp.C128_to_geo",
    "Verif.Fp.C128_to_local",
    "Verif.Fp.C128_geo_local_geo",
    "Verif.Fp.C128_normalize"
   ],
   "note": "Rounding errors of the geographic conversions"
  },
  {
   "property": "C129",
   "status": "proved",
   "theorems": [
    "Verif.Bias.C129_same_answers",
    "Verif.Bias.C129_floor_by_fingerprints",
    "Verif.Bias.C129_floor_by_transmitters"
   ],
   "note": "A receiver that reads every signal by the same amount too strong or too weak"
  },
  {
   "property": "C130",
   "status": "proved",
   "theorems": [
    "Verif.Same.C130_same_answers",
    "Verif.Same.C130_never_read",
    "Verif.Same.C130_algorithms",
    "Verif.Same.C130_without_gps"
   ],
   "note": "Which settings matter"
  },
  {
   "property": "C131",
   "status": "proved",
   "theorems": [
    "Verif.Unread.C131_same_answers",
    "Verif.Unread.C131_ranging"
   ],
   "note": "What of a message matters"
  },
  {
   "property": "C132",
   "status": "proved",
   "theorems": [
    "Verif.Trail.C132_example",
    "Verif.Trail.C132_settles_example",
    "Verif.Trail.C132_answer",
    "Verif.Trail.C132_before",
    "Verif.Trail.C132_default",
    "Verif.Trail.C132_place_unique",
    "Verif.Trail.C132_fixes_unique",
    "Verif.Trail.C132_settles"
   ],
   "note": "What a client with fingerprints and the default smoothing answers"
  },
  {
   "property": "C133",
   "status": "proved",
   "theorems": [
    "Verif.Mixed.C133_example",
    "Verif.Mixed.C133_answer",
    "Verif.Mixed.C133_away",
    "Verif.Mixed.C133_still"
   ],
   "note": "What a client answers that hears transmitters and satellites"
  },
  {
   "property": "C134",
   "status": "proved",
   "theorems": [
    "Verif.Project.C134_example",
    "Verif.Project.C134_projection",
    "Verif.Project.C134_near",
    "Verif.Project.C134_one_floor"
   ],
   "note": "What the projection onto the graph changes"
  },
  {
   "property": "C135",
   "status": "proved",
   "theorems": [
    "Verif.Stand.C135_renewed",
    "Verif.Stand.C135_held",
    "Verif.Stand.C135_silent_witness",
    "Verif.Stand.C135_near",
    "Verif.Stand.C135_spacing",
    "Verif.Stand.C135_hold",
    "Verif.Stand.C135_nothing"
   ],
   "note": "What a client shows while its user stands still"
  },
  {
   "property": "C136",
   "status": "proved",
   "theorems": [
    "Verif.Stand.C136_answer",
    "Verif.Stand.C136_session"
   ],
   "note": "What a client with zones answers that detects stops"
  },
  {
   "property": "C137",
   "status": "proved",
   "theorems": [
    "Verif.Fp.C137_nearest",
    "Verif.Fp.C137_exact",
    "Verif.Fp.C137_creep_witness",
    "Verif.Fp.C137_creep",
    "Verif.Fp.C137_rest",
    "Verif.Fp.C137_centimetres"
   ],
   "note": "Whole centimetres in floating point"
  },
  {
   "property": "C138",
   "status": "proved",
   "theorems": [
    "Verif.Fp.C138_exact",
    "Verif.Fp.C138_fraction_witness",
    "Verif.Fp.C138_zone"
   ],
   "note": "Rounding does not change the strongest transmitter"
  },
  {
   "property": "C139",
   "status": "proved",
   "theorems": [
    "Verif.Fp.C139_milliseconds",
    "Verif.Fp.C139_eighths",
    "Verif.Fp.C139_stop",
    "Verif.Fp.C139_witness"
   ],
   "note": "Times of the settings in whole milliseconds"
  },
  {
   "property": "C140",
   "status": "proved",
   "theorems": [
    "Verif.Fp.C140_answer",
    "Verif.Fp.C140_exact"
   ],
   "note": "What a zone client answers in floating point"
  },
  {
   "property": "C141",
   "status": "proved",
   "theorems": [
    "Verif.Order.C141_transmitters",
    "Verif.Order.C141_floors",
    "Verif.Order.C141_tie"
   ],
   "note": "The order of the map"
  },
  {
   "property": "C142",
   "status": "proved",
   "theorems": [
    "Verif.East.C142_map",
    "Verif.East.C142_east",
    "Verif.East.C142_north"
   ],
   "note": "The same building further east"
  },
  {
   "property": "C143",
   "status": "proved",
   "theorems": [
    "Verif.East.C143_box",
    "Verif.East.C143_places",
    "Verif.East.C143_outline",
    "Verif.East.C143_fix",
    "Verif.East.C143_step"
   ],
   "note": "A building across the antimeridian"
  },
  {
   "property": "C144",
   "status": "proved",
   "theorems": [
    "Verif.Nan.C144_lost",
    "Verif.Nan.C144_harmless",
    "Verif.Nan.C144_numbers"
   ],
   "note": "One reading that is not a number spoils the orientation for good"
  },
  {
   "property": "C145",
   "status": "proved",
   "theorems": [
    "Verif.Nan.C145_ignored",
    "Verif.Nan.C145_taken",
    "Verif.Nan.C145_filter",
    "Verif.Nan.C145_numbers"
   ],
   "note": "Satellite fixes that are not numbers"
  },
  {
   "property": "C146",
   "status": "proved",
   "theorems": [
    "Verif.Nan.C146_frozen",
    "Verif.Nan.C146_forgotten",
    "Verif.Nan.C146_stuck",
    "Verif.Nan.C146_numbers",
    "Verif.Nan.C146_lift"
   ],
   "note": "A pressure that is not a number"
  },
  {
   "property": "C147",
   "status": "proved",
   "theorems": [
    "Verif.Nan.Walk.C147_blind",
    "Verif.Nan.Walk.C147_numbers",
    "Verif.Nan.Walk.C147_length",
    "Verif.Nan.Walk.C147_missed"
   ],
   "note": "An accelerometer sample that is not a number"
  },
  {
   "property": "C148",
   "status": "proved",
   "theorems": [
    "Verif.Nan.Ab.C148_off",
    "Verif.Nan.Ab.C148_answer",
    "Verif.Nan.Ab.C148_back",
    "Verif.Nan.Ab.C148_soon",
    "Verif.Nan.Ab.C148_numbers",
    "Verif.Nan.Ab.C148_example"
   ],
   "note": "A place that is not a number switches the smoothing off"
  },
  {
   "property": "C149",
   "status": "proved",
   "theorems": [
    "Verif.Nan.Hold.C149_stuck",
    "Verif.Nan.Hold.C149_told",
    "Verif.Nan.Hold.C149_back",
    "Verif.Nan.Hold.C149_start",
    "Verif.Nan.Hold.C149_numbers",
    "Verif.Nan.Hold.C149_example"
   ],
   "note": "A place that is not a number while the user stands"
  },
  {
   "property": "C150",
   "status": "proved",
   "theorems": [
    "Verif.Nan.Rd.C150_refused",
    "Verif.Nan.Rd.C150_taken",
    "Verif.Nan.Rd.C150_poison",
    "Verif.Nan.Rd.C150_sort",
    "Verif.Nan.Rd.C150_sort_numbers",
    "Verif.Nan.Rd.C150_only",
    "Verif.Nan.Rd.C150_example",
    "Verif.Nan.Rd.C150_numbers"
   ],
   "note": "Radio readings that are not numbers"
  },
  {
   "property": "C151",
   "status": "proved",
   "theorems": [
    "Verif.Smooth.C151_start",
    "Verif.Smooth.C151_floor",
    "Verif.Smooth.C151_back",
    "Verif.Smooth.C151_works",
    "Verif.Smooth.C151_example"
   ],
   "note": "Two places of one time switch the least squares smoother off"
  },
  {
   "property": "C152",
   "status": "proved",
   "theorems": [
    "Verif.Unheard.C152_unheard",
    "Verif.Unheard.C152_plan",
    "Verif.Unheard.C152_example"
   ],
   "note": "Transmitters that are not heard do not matter"
  },
  {
   "property": "C153",
   "status": "proved",
   "theorems": [
    "Verif.Label.C153_labels",
    "Verif.Label.C153_plan",
    "Verif.Label.C153_start",
    "Verif.Label.C153_example"
   ],
   "note": "The names of the floors are labels"
  },
  {
   "property": "C154",
   "status": "proved",
   "theorems": [
    "Verif.RefOrder.C154_client_example",
    "Verif.RefOrder.C154_client",
    "Verif.Knn.C154_floor",
    "Verif.Knn.C154_place",
    "Verif.Knn.C154_example",
    "Verif.Triang.C154_triangles"
   ],
   "note": "The order of the reference points does not matter"
  },
  {
   "property": "C155",
   "status": "proved",
   "theorems": [
    "Verif.Tag.C155_labels",
    "Verif.Tag.C155_plan",
    "Verif.Tag.C155_start",
    "Verif.Tag.C155_sorts",
    "Verif.Tag.C155_example",
    "Verif.Tag.C155_order_matters"
   ],
   "note": "The names of the transmitters are labels"
  },
  {
   "property": "C156",
   "status": "proved",
   "theorems": [
    "Verif.Fp.C156_near",
    "Verif.Fp.C156_regular",
    "Verif.Fp.C156_gain",
    "Verif.Fp.C156_figures"
   ],
   "note": "Rounding errors of the alpha-beta smoother"
  },
  {
   "property": "C157",
   "status": "proved",
   "theorems": [
    "Verif.Smooth.C157_bounded",
    "Verif.Smooth.C157_metres",
    "Verif.Smooth.C157_sharp",
    "Verif.Smooth.C157_unsettled",
    "Verif.Smooth.C157_start"
   ],
   "note": "How far the smoothed place can be from the measured one"
  },
  {
   "property": "C158",
   "status": "proved",
   "theorems": [
    "Verif.Fp.C158_weights",
    "Verif.Fp.C158_place",
    "Verif.Fp.C158_same",
    "Verif.Fp.C158_estimator",
    "Verif.Fp.C158_clear",
    "Verif.Fp.C158_example"
   ],
   "note": "Rounding errors of the position by fingerprints"
  },
  {
   "property": "C159",
   "status": "proved",
   "theorems": [
    "Verif.Fp.C159_kept",
    "Verif.Fp.C159_answer",
    "Verif.Fp.C159_off"
   ],
   "note": "Rounding errors of the time smoother"
  },
  {
   "property": "C160",
   "status": "proved",
   "theorems": [
    "Verif.Fp.C160_stored",
    "Verif.Fp.C160_answer"
   ],
   "note": "Rounding errors of the fusion of indoor and satellite positions"
  },
  {
   "property": "C161",
   "status": "proved",
   "theorems": [
    "Verif.Fp.C161_state",
    "Verif.Fp.C161_answer"
   ],
   "note": "Rounding does not change the floor of the barometer"
  },
  {
   "property": "C162",
   "status": "proved",
   "theorems": [
    "Verif.Fp.C162_near",
    "Verif.Fp.C162_same"
   ],
   "note": "Rounding and the floor by transmitters"
  },
  {
   "property": "C163",
   "status": "proved",
   "theorems": [
    "Verif.Fp.C163_score",
    "Verif.Fp.C163_near",
    "Verif.Fp.C163_same"
   ],
   "note": "Rounding and the floor by fingerprints"
  },
  {
   "property": "C164",
   "status": "proved",
   "theorems": [
    "Verif.Fp.C164_score",
    "Verif.Fp.C164_near",
    "Verif.Fp.C164_same",
    "Verif.Fp.C164_example"
   ],
   "note": "Rounding and the floor by the best reference point"
  }
 ]
}