{
 "claims": [
  {
   "property": "C01",
   "status": "proved",
   "theorems": [
    "Verif.Props.C01_cell_point_cell",
    "Verif.Props.C01_cell_point_cell_n",
    "Verif.Props.C01_fails_for_huge_cells",
    "Verif.Props.C01_map"
   ],
   "note": "f32: resolutions in the range of Spec.Res, cells up to 2^22 from the offset in the stated range; counterexample for huge cells."
  },
  {
   "property": "C02",
   "status": "proved",
   "theorems": [
    "Verif.Props.C02_within_half_cell",
    "Verif.Props.C02_within_half_cell_points",
    "Verif.Props.C02_half_cell_exceeded"
   ],
   "note": "f32 with an explicit error term; counterexample shows that exactly half a cell is exceeded."
  },
  {
   "property": "C03",
   "status": "proved",
   "theorems": [
    "Verif.Props.C03_monotone",
    "Verif.Props.C03_monotone_points"
   ],
   "note": "f32, all non-NaN points (infinite ones included), any finite offset, any positive finite resolution."
  },
  {
   "property": "C04",
   "status": "partial",
   "theorems": [
    "Verif.Props.C04_boundary_partial",
    "Verif.Props.C04_negative_boundary"
   ],
   "note": "The tie rule is proved where the quotient is exact; it is false for negative cells (C04_negative_boundary)."
  },
  {
   "property": "C05",
   "status": "proved",
   "theorems": [
    "Verif.Props.C05_constant_resolution",
    "Verif.Props.C05_per_axis",
    "Verif.Props.C05_size_per_axis",
    "Verif.Props.C05_axis_independent"
   ],
   "note": "Any arithmetic."
  },
  {
   "property": "C06",
   "status": "proved",
   "theorems": [
    "Verif.Props.C06_discretized_is_least",
    "Verif.Props.C06_discretized_returns_iff"
   ],
   "note": "Any arithmetic, all machine cell bounds."
  },
  {
   "property": "C07",
   "status": "proved",
   "theorems": [
    "Verif.Props.C07_discretized_idempotent",
    "Verif.Props.C07_discretized_of_aligned",
    "Verif.Props.C07_tile_size_zero_panics"
   ],
   "note": "Any arithmetic."
  },
  {
   "property": "C08",
   "status": "proved",
   "theorems": [
    "Verif.Props.C08_cell_bounds_round_trip",
    "Verif.Props.C08_size",
    "Verif.Props.C08_from_size_cells"
   ],
   "note": "f32 in the working range."
  },
  {
   "property": "C09",
   "status": "proved",
   "theorems": [
    "Verif.Props.C09_bounds_new",
    "Verif.Props.C09_bounds_new_nan",
    "Verif.Props.C09_cell_bounds_new"
   ],
   "note": "All floats including NaN."
  },
  {
   "property": "C10",
   "status": "proved",
   "theorems": [
    "Verif.Props.C10_enclosing_of_empty",
    "Verif.Props.C10_enclosing_is_least",
    "Verif.Props.C10_enclosing_points",
    "Verif.Props.C10_enclosing_not_symmetric"
   ],
   "note": "All ordered f32 boxes; the special case for empty boxes makes it asymmetric (C10_enclosing_not_symmetric)."
  },
  {
   "property": "C11",
   "status": "proved",
   "theorems": [
    "Verif.Props.C11_overlapping_empty_or_intersection",
    "Verif.Props.C11_overlapping_comm",
    "Verif.Props.C11_overlapping_degenerate",
    "Verif.Props.C11_overlapping_is_intersection",
    "Verif.Props.C11_tolerance"
   ],
   "note": "All ordered f32 boxes; the tolerance of relative_eq is exhibited."
  },
  {
   "property": "C12",
   "status": "proved",
   "theorems": [
    "Verif.Props.C12_discretized_contains",
    "Verif.Props.C12_near"
   ],
   "note": "f32, all ordered boxes (infinite ones included), any positive finite resolution; C12_near (on the grid, at most one cell outwards) up to 2^18 cells."
  },
  {
   "property": "C13",
   "status": "proved",
   "theorems": [
    "Verif.Props.C13_points_fromPoints",
    "Verif.Props.C13_numPoints_fromPoints",
    "Verif.Props.C13_numPoints",
    "Verif.Props.C13_fromPoints_points"
   ],
   "note": "Any arithmetic."
  },
  {
   "property": "C14",
   "status": "proved",
   "theorems": [
    "Verif.Props.C14_bounds_contain",
    "Verif.Props.C14_bounds_least",
    "Verif.Props.C14_bounds_ordered",
    "Verif.Props.C14_bounds_include_origin"
   ],
   "note": "All floats; the bounds also include the origin, which the doc comment does not say (C14_bounds_include_origin)."
  },
  {
   "property": "C15",
   "status": "proved",
   "theorems": [
    "Verif.Props.C15_transform_pointwise",
    "Verif.Props.C15_last_row_irrelevant",
    "Verif.Props.C15_transform_affine",
    "Verif.Props.C15_transform_composes",
    "Verif.Props.C15_translation_f32",
    "Verif.Props.C15_identity_infinite"
   ],
   "note": "Pointwise in any arithmetic; affine and composition laws in exact arithmetic; exact translations in f32."
  },
  {
   "property": "C16",
   "status": "proved",
   "theorems": [
    "Verif.Props.C16_same_cell",
    "Verif.Props.C16_empty_ray"
   ],
   "note": "Any arithmetic."
  },
  {
   "property": "C17",
   "status": "proved",
   "theorems": [
    "Verif.Props.C17_connected"
   ],
   "note": "Any arithmetic with the literal laws (f32 included)."
  },
  {
   "property": "C18",
   "status": "proved",
   "theorems": [
    "Verif.Props.C18_end_not_in_ray"
   ],
   "note": "Any arithmetic with the literal laws."
  },
  {
   "property": "C19",
   "status": "proved",
   "theorems": [
    "Verif.Props.C19_shortest",
    "Verif.Props.C19_in_box",
    "Verif.Props.C19_no_return"
   ],
   "note": "Any arithmetic with the literal laws."
  },
  {
   "property": "C20",
   "status": "proved",
   "theorems": [
    "Verif.Props.C20_within_limit",
    "Verif.Props.C20_none"
   ],
   "note": "Any arithmetic with the literal laws; distance as the code computes it."
  },
  {
   "property": "C21",
   "status": "proved",
   "theorems": [
    "Verif.Props.C21_no_limit"
   ],
   "note": "Any arithmetic with the literal laws."
  },
  {
   "property": "C22",
   "status": "partial",
   "theorems": [
    "Verif.Props.C22_exact_returns",
    "Verif.Props.C22_border_missed",
    "Verif.Props.C22_f32_returns",
    "Verif.Props.C22_overflow_hangs",
    "Verif.Props.C22_wide_returns",
    "Verif.Props.C22_tiny_hangs"
   ],
   "note": "f32: proved with a positive range limit, in the working range (Spec.RayRange) and for all coordinates and limits up to 2^30 (C22_wide_returns, Spec.WideRange). Exact arithmetic: proved without a limit, end off the cell borders. Refuted in f32 without a limit (C22_border_missed), and for rays whose squared length overflows even with a limit (C22_overflow_hangs) or with a subnormal component (C22_tiny_hangs)."
  },
  {
   "property": "C23",
   "status": "proved",
   "theorems": [
    "Verif.Props.C23_follows_segment",
    "Verif.Props.C23_reaches_end"
   ],
   "note": "Exact arithmetic, as the property says."
  },
  {
   "property": "C24",
   "status": "proved",
   "theorems": [
    "Verif.Props.C24_stays_between",
    "Verif.Props.C24_reaches_end",
    "Verif.Props.C24_range"
   ],
   "note": "f32 with an explicit margin to the cell borders that grows with the size of the ray."
  },
  {
   "property": "C25",
   "status": "proved",
   "theorems": [
    "Verif.Props.C25_axis_aligned"
   ],
   "note": "f32 in the working range, no margin needed."
  },
  {
   "property": "C26",
   "status": "partial",
   "theorems": [
    "Verif.Props.C26_nan_walks_down",
    "Verif.Props.C26_inf_walks_down",
    "Verif.Props.C26_inf_hangs",
    "Verif.Props.C26_returns_partial"
   ],
   "note": "The property is false: general theorems say how the caster hangs or walks away from the ray (C26_inf_hangs, C26_nan_walks_down, C26_inf_walks_down). True part: it returns with a limit when NaN or the last axis is involved."
  },
  {
   "property": "C27",
   "status": "proved",
   "theorems": [
    "Verif.Props.C27_disjoint",
    "Verif.Props.castRays_nodup"
   ],
   "note": "Any arithmetic."
  },
  {
   "property": "C28",
   "status": "proved",
   "theorems": [
    "Verif.Props.C28_occupied",
    "Verif.Props.C28_free",
    "Verif.Props.C28_returns_iff"
   ],
   "note": "Any arithmetic."
  },
  {
   "property": "C29",
   "status": "proved",
   "theorems": [
    "Verif.Props.C29_order_irrelevant"
   ],
   "note": "Any arithmetic."
  },
  {
   "property": "C30",
   "status": "proved",
   "theorems": [
    "Verif.Props.C30_new",
    "Verif.Props.C30_from_ndarray",
    "Verif.Props.C30_from_ndarray_2",
    "Verif.Props.C30_from_ndarray_3",
    "Verif.Props.C30_new_size",
    "Verif.Props.C30_new_returns_iff",
    "Verif.Props.C30_new_total",
    "Verif.Props.C30_default"
   ],
   "note": "get/set semantics in any arithmetic; sizes in f32."
  },
  {
   "property": "C31",
   "status": "proved",
   "theorems": [
    "Verif.Props.C31_get",
    "Verif.Props.C31_set",
    "Verif.Props.C31_get_set",
    "Verif.Props.C31_set_comm"
   ],
   "note": "Any arithmetic, all machine cells."
  },
  {
   "property": "C32",
   "status": "proved",
   "theorems": [
    "Verif.Props.C32_values_kept",
    "Verif.Props.C32_values_kept_always",
    "Verif.Props.C32_default_placed",
    "Verif.Props.C32_new_placed",
    "Verif.Props.C32_set_placed",
    "Verif.Props.C32_world_position",
    "Verif.Props.C32_unaligned_map_panics"
   ],
   "note": "f32 working range (Spec.Placed, Spec.Request); counterexample: a map whose bounds are not on the grid panics on expansion."
  },
  {
   "property": "C33",
   "status": "proved",
   "theorems": [
    "Verif.Props.C33_new_cells_default"
   ],
   "note": "f32 working range."
  },
  {
   "property": "C34",
   "status": "proved",
   "theorems": [
    "Verif.Props.C34_not_larger",
    "Verif.Props.C34_covers"
   ],
   "note": "f32 working range."
  },
  {
   "property": "C35",
   "status": "proved",
   "theorems": [
    "Verif.Props.C35_covered",
    "Verif.Props.C35_idempotent"
   ],
   "note": "f32 working range."
  },
  {
   "property": "C36",
   "status": "proved",
   "theorems": [
    "Verif.Props.C36_set",
    "Verif.Props.C36_expandBounds",
    "Verif.Props.C36_changes"
   ],
   "note": "Any arithmetic."
  },
  {
   "property": "C37",
   "status": "proved",
   "theorems": [
    "Verif.Props.C37_update",
    "Verif.Props.C37_integrate",
    "Verif.Props.C37_history",
    "Verif.Props.C37_from_new",
    "Verif.Props.C37_hit_negative"
   ],
   "note": "All floats, all histories; needs hit >= 0 >= miss (C37_hit_negative)."
  },
  {
   "property": "C38",
   "status": "proved",
   "theorems": [
    "Verif.Props.C38_integrate",
    "Verif.Props.C38_returns_iff",
    "Verif.Props.C38_occupancy_map"
   ],
   "note": "All floats, all maps, clouds and hash orders."
  },
  {
   "property": "C39",
   "status": "proved",
   "theorems": [
    "Verif.Props.C39_order_irrelevant"
   ],
   "note": "All floats."
  },
  {
   "property": "C40",
   "status": "proved",
   "theorems": [
    "Verif.Props.C40_tracked",
    "Verif.Props.C40_untracked",
    "Verif.Props.C40_session"
   ],
   "note": "All floats."
  },
  {
   "property": "C41",
   "status": "proved",
   "theorems": [
    "Verif.Props.C41_step",
    "Verif.Props.C41_history",
    "Verif.Props.C41_from_new",
    "Verif.Props.C41_occupancy_map"
   ],
   "note": "f32 working range, all histories."
  },
  {
   "property": "C42",
   "status": "proved",
   "theorems": [
    "Verif.Props.C42_direction",
    "Verif.Props.C42_occupied",
    "Verif.Props.C42_integrate",
    "Verif.Props.C42_default_saturates",
    "Verif.Props.C42_default_model"
   ],
   "note": "All in-range floats; the counts use the log-odds stated in the tests of math.rs."
  },
  {
   "property": "C43",
   "status": "proved",
   "theorems": [
    "Verif.Props.C43_occupied",
    "Verif.Props.C43_unknown",
    "Verif.Props.C43_default_unknown"
   ],
   "note": "All floats."
  },
  {
   "property": "C44",
   "status": "partial",
   "theorems": [
    "Verif.Props.C44_decides",
    "Verif.Props.C44_point_beyond_panics",
    "Verif.Props.C44_sensor_beyond_panics",
    "Verif.Props.C44_edge_strip_panics",
    "Verif.Props.C44_sensor_apart_panics",
    "Verif.Props.C44_no_panic_partial",
    "Verif.Props.C44_outside_panics",
    "Verif.Props.C44_edge_panics",
    "Verif.Props.C44_sensor_outside_panics"
   ],
   "note": "The property as stated is false: a point in the upper half of the last cell of a tile panics even inside the map (C44_edge_panics), and so does a sensor outside the map (C44_sensor_outside_panics). Proved in f32 for every scan that keeps the margins of Spec.ClearScan. C44_decides gives the exact condition for scans in the working range (Spec.ScanRange): integrated iff the cells of the points, and of the sensor if it sees another cell, are cells of the expanded map; otherwise an index panic. C44_edge_strip_panics and C44_sensor_apart_panics say it in world coordinates."
  },
  {
   "property": "C45",
   "status": "proved",
   "theorems": [
    "Verif.Props.C45_new"
   ],
   "note": "All floats; ln is a parameter."
  },
  {
   "property": "C46",
   "status": "proved",
   "theorems": [
    "Verif.Props.C46_exact_inverse",
    "Verif.Props.C46_exact_strict",
    "Verif.Props.C46_logodds_monotone",
    "Verif.Props.C46_probability_monotone",
    "Verif.Props.C46_model_conditions"
   ],
   "note": "Exact part over the reals; float part for any monotone ln/exp."
  },
  {
   "property": "C47",
   "status": "proved",
   "theorems": [
    "Verif.Props.C47_signum",
    "Verif.Props.C47_odd",
    "Verif.Props.C47_nan",
    "Verif.Props.C47_vector"
   ],
   "note": "All floats."
  },
  {
   "property": "C48",
   "status": "proved",
   "theorems": [
    "Verif.Props.C48_read",
    "Verif.Props.C48_invalid",
    "Verif.Props.C48_io_error",
    "Verif.Props.C48_total"
   ],
   "note": "All byte sequences; little-endian decoding of the words is a parameter."
  },
  {
   "property": "C49",
   "status": "proved",
   "theorems": [
    "Verif.Props.C49_order_irrelevant",
    "Verif.Props.C49_success",
    "Verif.Props.C49_first_error",
    "Verif.Props.C49_listing_error"
   ],
   "note": "All listings and orders in which the directory is read."
  },
  {
   "property": "C50",
   "status": "proved",
   "theorems": [
    "Verif.Props.C50_fields",
    "Verif.Props.C50_read",
    "Verif.Props.C50_invalid",
    "Verif.Props.C50_success_iff",
    "Verif.Props.C50_rest_ignored"
   ],
   "note": "All texts; f32 parsing is a parameter."
  },
  {
   "property": "C51",
   "status": "proved",
   "theorems": [
    "Verif.Props.C51_poses",
    "Verif.Props.C51_first_error",
    "Verif.Props.C51_order_irrelevant",
    "Verif.Props.C51_offset_exact",
    "Verif.Props.C51_longitude_overstated"
   ],
   "note": "Any arithmetic for the reader; exact arithmetic for the offsets; C51_longitude_overstated: the cosine of the latitude difference is used, not of the latitude."
  },
  {
   "property": "C52",
   "status": "proved",
   "theorems": [
    "Verif.Props.C52_one_worker",
    "Verif.Props.C52_map_exclusive",
    "Verif.Props.C52_no_deadlock",
    "Verif.Props.C52_progress",
    "Verif.Props.C52_worker_panic_freezes",
    "Verif.Props.C52_main_panics",
    "Verif.Props.C52_runs_forever"
   ],
   "note": "Every map, all interleavings; a panicking worker freezes the program (C52_worker_panic_freezes)."
  },
  {
   "property": "C53",
   "status": "proved",
   "theorems": [
    "Verif.Props.C53_cycles",
    "Verif.Props.C53_runs"
   ],
   "note": "Every map, all interleavings."
  },
  {
   "property": "C54",
   "status": "proved",
   "theorems": [
    "Verif.Props.C54_cyclic",
    "Verif.Props.C54_in_order",
    "Verif.Props.C54_empty"
   ],
   "note": "Every map, all interleavings."
  },
  {
   "property": "C55",
   "status": "proved",
   "theorems": [
    "Verif.Props.C55_lowest_first",
    "Verif.Props.C55_occupancy_map",
    "Verif.Props.C55_mirrors",
    "Verif.Props.C55_same_extent",
    "Verif.Props.C55_reindex_refuted"
   ],
   "note": "Every map whose changed cells are complete; for the crate map under the hypothesis that no integration moves the lower corner of the grid, and refuted without it (C55_reindex_refuted). C55_lowest_first: it is met in f32 if the first recording, or the origin, already lies in the lowest tile."
  },
  {
   "property": "C56",
   "status": "proved",
   "theorems": [
    "Verif.Props.C56_limit_cuts",
    "Verif.Props.C56_longer_limit",
    "Verif.Props.C56_longer_limit_f32"
   ],
   "note": "Any arithmetic; C56_longer_limit_f32 in f32."
  },
  {
   "property": "C57",
   "status": "proved",
   "theorems": [
    "Verif.Props.C57_follows_line",
    "Verif.Props.C57_follows_segment",
    "Verif.Props.C57_near_segment",
    "Verif.Props.C57_covers_segment"
   ],
   "note": "f32 working range (Spec.RayRange)."
  },
  {
   "property": "C58",
   "status": "proved",
   "theorems": [
    "Verif.Props.C58_marks",
    "Verif.Props.C58_rest_unchanged"
   ],
   "note": "f32 working range (Spec.Placed, Spec.ClearScan); the tolerance is Spec.scanTol cells."
  },
  {
   "property": "C59",
   "status": "proved",
   "theorems": [
    "Verif.Props.C59_transform_is_rigid",
    "Verif.Props.C59_rigid",
    "Verif.Props.C59_matrix_f32",
    "Verif.Props.C59_transform_f32",
    "Verif.Props.C59_origin_f32",
    "Verif.Props.C59_nan_angle",
    "Verif.Props.C59_marker"
   ],
   "note": "Exact part over the reals; f32 part for any sin and cos within 2^-22 (Spec.AccurateTrig). The formulas of nalgebra are modelled from its documentation."
  },
  {
   "property": "C60",
   "status": "proved",
   "theorems": [
    "Verif.Props.C60_window_iff",
    "Verif.Props.C60_recordings",
    "Verif.Props.C60_same_names",
    "Verif.Props.C60_bad_folder",
    "Verif.Props.C60_names_not_checked",
    "Verif.Props.C60_marker"
   ],
   "note": "All folders; number parsing is a parameter."
  },
  {
   "property": "C61",
   "status": "proved",
   "theorems": [
    "Verif.Props.C61_onto",
    "Verif.Props.C61_one_to_one",
    "Verif.Props.C61_order",
    "Verif.Props.C61_special"
   ],
   "note": "All words."
  },
  {
   "property": "C62",
   "status": "proved",
   "theorems": [
    "Verif.Props.C62_resized",
    "Verif.Props.C62_agrees",
    "Verif.Props.C62_far_refuted",
    "Verif.Props.C62_misaligned_refuted",
    "Verif.Props.C62_tiny_refuted"
   ],
   "note": "f32 working range; counterexamples outside it (C62_far_refuted, C62_misaligned_refuted, C62_tiny_refuted)."
  },
  {
   "property": "C63",
   "status": "proved",
   "theorems": [
    "Verif.Props.C63_grid_map",
    "Verif.Props.C63_occupancy_map",
    "Verif.Props.C63_domain",
    "Verif.Props.C63_clone"
   ],
   "note": "Any arithmetic."
  },
  {
   "property": "C64",
   "status": "proved",
   "theorems": [
    "Verif.Props.C64_bounds",
    "Verif.Props.C64_scan_is_set"
   ],
   "note": "All floats, NaN and infinities included."
  },
  {
   "property": "C65",
   "status": "proved",
   "theorems": [
    "Verif.Props.C65_mirror",
    "Verif.Props.C65_scan",
    "Verif.Props.C65_nan_refuted",
    "Verif.Props.C65_axes_differ"
   ],
   "note": "Every float format with the literal laws, f32 in particular; C65_nan_refuted and C65_axes_differ show the limits."
  },
  {
   "property": "C66",
   "status": "proved",
   "theorems": [
    "Verif.Props.C66_again",
    "Verif.Props.C66_for_ever",
    "Verif.Props.C66_values",
    "Verif.Props.C66_converges",
    "Verif.Props.C66_fixpoint",
    "Verif.Props.C66_default"
   ],
   "note": "f32 working range (Spec.Placed, Spec.CloudInRange). C66_converges and C66_fixpoint under conditions on the noise model that the default model meets (C66_default)."
  },
  {
   "property": "C67",
   "status": "proved",
   "theorems": [
    "Verif.Props.C67_values",
    "Verif.Props.C67_order",
    "Verif.Props.C67_any_order",
    "Verif.Props.C67_fits",
    "Verif.Props.C67_bounds",
    "Verif.Props.C67_then_fits",
    "Verif.Props.C67_mixed_refuted"
   ],
   "note": "Every float format for scans that fit (Spec.Fits); f32 working range for bounds and for fitting."
  },
  {
   "property": "C68",
   "status": "proved",
   "theorems": [
    "Verif.Props.C68_near",
    "Verif.Props.C68_far",
    "Verif.Props.C68_free_in_range",
    "Verif.Props.C68_cut",
    "Verif.Props.C68_reached",
    "Verif.Props.C68_hit_in_range",
    "Verif.Props.C68_scan_hits"
   ],
   "note": "f32 working range (Spec.RayRange); the tolerance is Spec.rangeTol."
  },
  {
   "property": "C69",
   "status": "proved",
   "theorems": [
    "Verif.Props.C69_playback",
    "Verif.Props.C69_values",
    "Verif.Props.C69_map",
    "Verif.Props.C69_screen",
    "Verif.Props.C69_folder"
   ],
   "note": "f32 working range (Spec.Placed, Spec.CloudInRange); C69_screen needs a fixed lower corner of the map (C55_reindex_refuted shows that it fails otherwise)."
  },
  {
   "property": "C70",
   "status": "proved",
   "theorems": [
    "Verif.Props.C70_exact",
    "Verif.Props.C70_observations",
    "Verif.Props.C70_map",
    "Verif.Props.C70_default_near",
    "Verif.Props.C70_default"
   ],
   "note": "Exact part over the reals. f32 part in the working range (Spec.CloudInRange), for models whose parameters are near the log-odds of the probabilities (Spec.NearSensor); the default model is (C70_default_near), for a platform ln as in the tests of the crate (Spec.TestedLn)."
  },
  {
   "property": "C71",
   "status": "proved",
   "theorems": [
    "Verif.Props.C71_recent",
    "Verif.Props.C71_default"
   ],
   "note": "f32; C71_recent for every finite model with hit >= 0 >= miss, C71_default for the default map with a platform ln as in the tests of the crate (Spec.TestedLn)."
  },
  {
   "property": "C72",
   "status": "proved",
   "theorems": [
    "Verif.Props.C72_probability",
    "Verif.Props.C72_logodds",
    "Verif.Props.C72_round_trip",
    "Verif.Props.C72_noise_model",
    "Verif.Props.C72_map"
   ],
   "note": "f32, for every ln and exp with relative error at most 2^-22 (Spec.AccurateLibm); C72_map in the working range (Spec.CloudInRange)."
  },
  {
   "property": "C73",
   "status": "proved",
   "theorems": [
    "Verif.Props.C73_place",
    "Verif.Props.C73_folder",
    "Verif.Props.C73_east_overstated",
    "Verif.Props.C73_points"
   ],
   "note": "f64 and f32, for every parser that rounds decimals correctly, every f64 cos within 2^-50 on |x| <= 4, IEEE f64-to-f32 conversion (Spec.AccurateEnv); C73_points with Spec.AccurateTrig."
  },
  {
   "property": "C74",
   "status": "proved",
   "theorems": [
    "Verif.Props.C74_symmetric",
    "Verif.Props.C74_reflexive",
    "Verif.Props.C74_equal",
    "Verif.Props.C74_absolute",
    "Verif.Props.C74_meaning",
    "Verif.Props.C74_meaning_absolute",
    "Verif.Props.C74_not_transitive"
   ],
   "note": "f32, every dimension; approx 0.3.2 on f32 as documented."
  },
  {
   "property": "C75",
   "status": "proved",
   "theorems": [
    "Verif.Props.C75_near_kept",
    "Verif.Props.C75_limited_scan"
   ],
   "note": "f32, conditions of C44 (Spec.ClearScan) and scanTol <= 1/2; distances from the sensor in the world."
  },
  {
   "property": "C76",
   "status": "proved",
   "theorems": [
    "Verif.Props.C76_decimal",
    "Verif.Props.C76_reads_decimals",
    "Verif.Props.C76_words",
    "Verif.Props.C76_rejects",
    "Verif.Props.C76_read_iff",
    "Verif.Props.C76_stray",
    "Verif.Props.C76_accurate",
    "Verif.Props.C76_nan_spreads"
   ],
   "note": "The parser of the standard library (Rust 1.55 and later), after its documented grammar; C76_nan_spreads assumes that the f64-to-f32 conversion keeps NaN."
  },
  {
   "property": "C77",
   "status": "proved",
   "theorems": [
    "Verif.Props.C77_utf8",
    "Verif.Props.C77_ascii",
    "Verif.Props.C77_not_utf8",
    "Verif.Props.C77_text",
    "Verif.Props.C77_fields",
    "Verif.Props.C77_read_iff"
   ],
   "note": "String::read_to_string as documented; C77_read_iff with the parser of C76."
  },
  {
   "property": "C78",
   "status": "proved",
   "theorems": [
    "Verif.Props.C78_padded",
    "Verif.Props.C78_listing",
    "Verif.Props.C78_clouds",
    "Verif.Props.C78_recordings",
    "Verif.Props.C78_unpadded",
    "Verif.Props.C78_hidden"
   ],
   "note": "Paths of one directory on Unix, compared by the bytes of their names."
  },
  {
   "property": "C79",
   "status": "proved",
   "theorems": [
    "Verif.Props.C79_clouds",
    "Verif.Props.C79_quiet",
    "Verif.Props.C79_lines",
    "Verif.Props.C79_stops",
    "Verif.Props.C79_bad_name",
    "Verif.Props.C79_oxts",
    "Verif.Props.C79_oxts_lines",
    "Verif.Props.C79_oxts_quiet",
    "Verif.Props.C79_oxts_stops",
    "Verif.Props.C79_oxts_bad_name"
   ],
   "note": "Standard output takes every line."
  },
  {
   "property": "C80",
   "status": "proved",
   "theorems": [
    "Verif.Props.C80_scans"
   ],
   "note": "f32 and f64; for every sin and cos within 2^-22 (f32) and cos within 2^-50 (f64), IEEE conversion, Unix paths."
  },
  {
   "property": "C81",
   "status": "proved",
   "theorems": [
    "Verif.Props.C81_hit",
    "Verif.Props.C81_miss",
    "Verif.Props.C81_playback",
    "Verif.Props.C81_visualizer",
    "Verif.Props.C81_hits_real",
    "Verif.Props.C81_passes_real",
    "Verif.Props.C81_folder"
   ],
   "note": "f32 and f64; assumptions of C80, a platform ln as in the tests of the crate (Spec.TestedLn), the default map. Tolerance Spec.rayTol cells for rays of up to K cells per axis in a world of N = M + 101 cells."
  },
  {
   "property": "C82",
   "status": "proved",
   "theorems": [
    "Verif.Props.C82_alive",
    "Verif.Props.C82_visualizer",
    "Verif.Props.C82_plays",
    "Verif.Props.C82_every_run",
    "Verif.Props.C82_folder",
    "Verif.Props.C82_fair"
   ],
   "note": "f32 and f64; assumptions of C81. Margins in Spec.ClearRec and Spec.ClearReal; a scan keeps clear of tile edges if its topmost points do."
  },
  {
   "property": "C83",
   "status": "proved",
   "theorems": [
    "Verif.Props.C83_relaxed",
    "Verif.Props.C83_step",
    "Verif.Props.C83_order",
    "Verif.Props.C83_complete",
    "Verif.Props.C83_execution",
    "Verif.Props.C83_fair"
   ],
   "note": "Any map. View-based operational model of Relaxed loads and stores; a store is visible when executed, not earlier."
  },
  {
   "property": "C84",
   "status": "proved",
   "theorems": [
    "Verif.Props.C84_same_as_exact",
    "Verif.Props.C84_cut",
    "Verif.Props.C84_scan"
   ],
   "note": "f32 working range (Spec.RayRange, Spec.ClearScan) against exact arithmetic; clear segments: Spec.ClearSegment with the tolerances of C57 and C58."
  },
  {
   "property": "C85",
   "status": "proved",
   "theorems": [
    "Verif.Props.C85_wrap",
    "Verif.Props.C85_checked",
    "Verif.Props.C85_cell_bounds",
    "Verif.Props.C85_cast_ray",
    "Verif.Props.C85_cast_rays",
    "Verif.Props.C85_grid_map",
    "Verif.Props.C85_integrate",
    "Verif.Props.C85_no_panic",
    "Verif.Props.C85_worker",
    "Verif.Props.C85_visualizer",
    "Verif.Props.C85_recording",
    "Verif.Props.C85_differs",
    "Verif.Props.C85_differs_ray"
   ],
   "note": "Model/Release.lean takes the treatment of isize results as a parameter; C85_checked shows that with checks it is the rest of the model."
  },
  {
   "property": "C86",
   "status": "proved",
   "theorems": [
    "Verif.Props.C86_moves",
    "Verif.Props.C86_backwards",
    "Verif.Props.C86_not_at_corners"
   ],
   "note": "Both configurations have to be in the working range of C24; no range limit."
  },
  {
   "property": "C87",
   "status": "proved",
   "theorems": [
    "Verif.Props.C87_step",
    "Verif.Props.C87_reach",
    "Verif.Props.C87_runs",
    "Verif.Props.C87_plays"
   ],
   "note": "The other theorems about the visualizer fix one order per recording; by C87 they hold for orders chosen anew each time as far as they speak of map, table and threads."
  },
  {
   "property": "C88",
   "status": "proved",
   "theorems": [
    "Verif.Props.C88_scan",
    "Verif.Props.C88_playback",
    "Verif.Props.C88_visualizer",
    "Verif.Props.C88_screen",
    "Verif.Props.C88_moves"
   ],
   "note": "No index, local cell, bound or step of the ray caster occurs in geoSeen. Points exactly on faces cannot occur: clear segments end inside cells."
  },
  {
   "property": "C89",
   "status": "proved",
   "theorems": [
    "Verif.Props.C89_scan",
    "Verif.Props.C89_folder"
   ],
   "note": "Assumes accurate sin, cos and casts (AccurateTrig, AccurateEnv) and the tested logarithms (TestedLn). The error is (1130 L + 2 S)/2^24 + 2^-18 m for points up to L m from the sensor and sensors up to S m from the start."
  },
  {
   "property": "C90",
   "status": "proved",
   "theorems": [
    "Verif.Props.C90_reach",
    "Verif.Props.C90_runs",
    "Verif.Props.C90_folder"
   ],
   "note": "Assumptions as C89. Relaxed stores become visible when executed, never earlier."
  },
  {
   "property": "C91",
   "status": "proved",
   "theorems": [
    "Verif.Props.C91_work",
    "Verif.Props.C91_decides",
    "Verif.Props.C91_scan",
    "Verif.Props.C91_range",
    "Verif.Props.C91_one_thread",
    "Verif.Props.C91_memory"
   ],
   "note": "The bound on memory counts entries, not bytes; the list of the model's finished workers is not memory of the program (their handles are dropped)."
  },
  {
   "property": "C92",
   "status": "proved",
   "theorems": [
    "Verif.Props.C92_drawn",
    "Verif.Props.C92_measured",
    "Verif.Props.C92_any",
    "Verif.Props.C92_folder"
   ],
   "note": "A drawn point may be outdated (the obstacle gone) or drawn twice under two keys; C92 speaks of where it comes from, not of whether it is still occupied."
  },
  {
   "property": "C93",
   "status": "proved",
   "theorems": [
    "Verif.Props.C93_stays",
    "Verif.Props.C93_heals",
    "Verif.Props.C93_stale",
    "Verif.Props.C93_stuck"
   ],
   "note": "The wrong entries come from the re-indexing when the grid grows downwards (C55_reindex_refuted); an example gives a run in which one appears and heals."
  },
  {
   "property": "C94",
   "status": "proved",
   "theorems": [
    "Verif.Props.C94_unique",
    "Verif.Props.C94_add",
    "Verif.Props.C94_sub",
    "Verif.Props.C94_mul",
    "Verif.Props.C94_div",
    "Verif.Props.C94_sqrt",
    "Verif.Props.C94_convert",
    "Verif.Props.C94_sign",
    "Verif.Props.C94_integral",
    "Verif.Props.C94_to_int",
    "Verif.Props.C94_compare",
    "Verif.Props.C94_min_max",
    "Verif.Props.C94_special",
    "Verif.Props.C94_even_word",
    "Verif.Props.C94_formats"
   ],
   "note": "NaN payloads and signs are not modelled."
  },
  {
   "property": "C95",
   "status": "proved",
   "theorems": [
    "Verif.Props.C95_marker",
    "Verif.Props.C95_table",
    "Verif.Props.C95_still",
    "Verif.Props.C95_frame",
    "Verif.Props.C95_folder"
   ],
   "note": "What kiss3d does with the calls (camera, pixels) is not modelled. The marker is that of the recording after the one being integrated, as the program draws it (C60_marker)."
  },
  {
   "property": "C96",
   "status": "proved",
   "theorems": [
    "Verif.Props.C96_ray",
    "Verif.Props.C96_scan",
    "Verif.Props.C96_new",
    "Verif.Props.C96_integrate",
    "Verif.Props.C96_history",
    "Verif.Props.C96_queries",
    "Verif.Props.C96_three_refuted",
    "Verif.Props.C96_tiny_refuted"
   ],
   "note": "The conditions on size and binary places are sufficient, not necessary; C96_tiny_refuted and C96_three_refuted show that some condition of each kind is needed."
  },
  {
   "property": "C97",
   "status": "proved",
   "theorems": [
    "Verif.Props.C97_ray",
    "Verif.Props.C97_scan",
    "Verif.Props.C97_step",
    "Verif.Props.C97_history",
    "Verif.Props.C97_history_lift",
    "Verif.Props.C97_history_flatten",
    "Verif.Props.C97_new",
    "Verif.Props.C97_queries",
    "Verif.Props.C97_height_refuted"
   ],
   "note": "The conditions on size and binary places are sufficient, not necessary. C97_height_refuted shows that the height has to be that of the cell centres."
  },
  {
   "property": "C98",
   "status": "proved",
   "theorems": [
    "Verif.Props.C98_ray",
    "Verif.Props.C98_panics",
    "Verif.Props.C98_records",
    "Verif.Props.C98_folder",
    "Verif.Props.C98_infinite_expand",
    "Verif.Props.C98_infinite",
    "Verif.Props.C98_stuck",
    "Verif.Props.C98_fair",
    "Verif.Props.C98_visualizer",
    "Verif.Props.C98_freezes"
   ],
   "note": "The panic is a consequence of C44 and of the empty direction of a ray to NaN (C22). The conditions on the sensor and the floor are sufficient, not necessary. Whether a worker panics on r or on an earlier recording is left open in the fair-run part: scans before r are not required to be clear."
  },
  {
   "property": "C99",
   "status": "proved",
   "theorems": [
    "Verif.Props.C99_ray",
    "Verif.Props.C99_returns_iff",
    "Verif.Props.C99_scan",
    "Verif.Props.C99_records",
    "Verif.Props.C99_folder",
    "Verif.Props.C99_stays",
    "Verif.Props.C99_fair",
    "Verif.Props.C99_visualizer",
    "Verif.Props.C99_freezes"
   ],
   "note": "The hang is shown up to 2^62 steps and as not returning for any fuel: below the lowest machine cell the ray would end in an overflow, so what happens after about 2^63 steps is left open. Memory is unlimited; on a machine with a limit the process ends instead of hanging, C101. Records where the only missing coordinates leave no point certainly elsewhere are not covered."
  },
  {
   "property": "C100",
   "status": "proved",
   "theorems": [
    "Verif.Props.C100_rotation",
    "Verif.Props.C100_position",
    "Verif.Props.C100_angle",
    "Verif.Props.C100_place"
   ],
   "note": "A wrong angle while the vehicle is south-west of its start is not covered by the folder theorem: the argument of C98 for a point that is not straight below the sensor does not apply then. For the first record see C102."
  },
  {
   "property": "C101",
   "status": "proved",
   "theorems": [
    "Verif.Props.C101_ray",
    "Verif.Props.C101_returns_iff",
    "Verif.Props.C101_panics",
    "Verif.Props.C101_same",
    "Verif.Props.C101_endless",
    "Verif.Props.C101_folder",
    "Verif.Props.C101_enough_folder",
    "Verif.Props.C101_lost_scan",
    "Verif.Props.C101_lost_visualizer",
    "Verif.Props.C101_lost_ends",
    "Verif.Props.C101_process_ends",
    "Verif.Props.C101_enough"
   ],
   "note": "The limit is on each allocation, not on their sum, and what Vec and HashSet reserve beyond their entries is not counted; the render thread's table of drawn cells and the readers are not limited. In C101_lost_ends and C101_folder a worker may panic instead of the process ending, since recordings before the lost one need not be clear; C101_process_ends has no such case."
  },
  {
   "property": "C102",
   "status": "proved",
   "theorems": [
    "Verif.Props.C102_scan",
    "Verif.Props.C102_shown",
    "Verif.Props.C102_visualizer",
    "Verif.Props.C102_freezes",
    "Verif.Props.C102_folder",
    "Verif.Props.C102_place",
    "Verif.Props.C102_stuck",
    "Verif.Props.C102_fair",
    "Verif.Props.C102_first"
   ],
   "note": "A recording in which nothing lies west or south of the start is not covered for an angle: the first scan then may be taken in again. Which worker panics is not said, since recordings after the first need not be clear."
  },
  {
   "property": "C103",
   "status": "proved",
   "theorems": [
    "Verif.Props.C103_prefix",
    "Verif.Props.C103_nearer",
    "Verif.Props.C103_added",
    "Verif.Props.C103_playback",
    "Verif.Props.C103_not_at_corners"
   ],
   "note": ""
  },
  {
   "property": "C104",
   "status": "proved",
   "theorems": [
    "Verif.Props.C104_scan",
    "Verif.Props.C104_unblocked",
    "Verif.Props.C104_playback",
    "Verif.Props.C104_visualizer",
    "Verif.Props.C104_screen",
    "Verif.Props.C104_moves"
   ],
   "note": ""
  },
  {
   "property": "C105",
   "status": "proved",
   "theorems": [
    "Verif.Props.C105_scan",
    "Verif.Props.C105_folder"
   ],
   "note": ""
  },
  {
   "property": "C106",
   "status": "proved",
   "theorems": [
    "Verif.Props.C106_ray",
    "Verif.Props.C106_no_less",
    "Verif.Props.C106_near_ray",
    "Verif.Props.C106_near_scan",
    "Verif.Props.C106_same_bounds",
    "Verif.Props.C106_playback",
    "Verif.Props.C106_visualizer",
    "Verif.Props.C106_screen"
   ],
   "note": ""
  },
  {
   "property": "C107",
   "status": "proved",
   "theorems": [
    "Verif.Props.C107_rounds",
    "Verif.Props.C107_settles",
    "Verif.Props.C107_one_way",
    "Verif.Props.C107_visualizer",
    "Verif.Props.C107_screen"
   ],
   "note": ""
  },
  {
   "property": "C108",
   "status": "proved",
   "theorems": [
    "Verif.Props.C108_goes_on",
    "Verif.Props.C108_same_scan",
    "Verif.Props.C108_visualizer",
    "Verif.Props.C108_every_run"
   ],
   "note": ""
  },
  {
   "property": "C109",
   "status": "proved",
   "theorems": [
    "Verif.Props.C109_step",
    "Verif.Props.C109_new",
    "Verif.Props.C109_plays",
    "Verif.Props.C109_playback",
    "Verif.Props.C109_same_scan",
    "Verif.Props.C109_visualizer",
    "Verif.Props.C109_screen"
   ],
   "note": ""
  },
  {
   "property": "C110",
   "status": "proved",
   "theorems": [
    "Verif.Props.C110_folder"
   ],
   "note": ""
  },
  {
   "property": "C111",
   "status": "proved",
   "theorems": [
    "Verif.Props.C111_no_less",
    "Verif.Props.C111_untouched",
    "Verif.Props.C111_far_ray",
    "Verif.Props.C111_same_bounds",
    "Verif.Props.C111_playback",
    "Verif.Props.C111_visualizer",
    "Verif.Props.C111_screen"
   ],
   "note": ""
  },
  {
   "property": "C112",
   "status": "proved",
   "theorems": [
    "Verif.Props.C112_ray",
    "Verif.Props.C112_scan",
    "Verif.Props.C112_playback",
    "Verif.Props.C112_visualizer",
    "Verif.Props.C112_screen"
   ],
   "note": ""
  },
  {
   "property": "C113",
   "status": "proved",
   "theorems": [
    "Verif.Props.C113_recordings",
    "Verif.Props.C113_same_records",
    "Verif.Props.C113_folder"
   ],
   "note": ""
  },
  {
   "property": "C114",
   "status": "proved",
   "theorems": [
    "Verif.Props.C114_folder",
    "Verif.Props.C114_two"
   ],
   "note": ""
  },
  {
   "property": "C115",
   "status": "proved",
   "theorems": [
    "Verif.Props.C115_seen",
    "Verif.Props.C115_returns_iff",
    "Verif.Props.C115_same",
    "Verif.Props.C115_other",
    "Verif.Props.C115_mixed_refuted"
   ],
   "note": "C115_mixed_refuted is the stated witness that in cells with hits and misses the parts differ from the scan in one piece."
  },
  {
   "property": "C116",
   "status": "proved",
   "theorems": [
    "Verif.Props.C116_corner",
    "Verif.Props.C116_cells",
    "Verif.Props.C116_scans",
    "Verif.Props.C116_fits",
    "Verif.Props.C116_parts_fit",
    "Verif.Props.C116_parts"
   ],
   "note": "C116_corner and C116_cells are about rounding alone; C116_scans, C116_fits, C116_parts_fit and C116_parts about the map. The values of a scan in parts are C115."
  },
  {
   "property": "C117",
   "status": "proved",
   "theorems": [
    "Verif.Props.C117_geometry",
    "Verif.Props.C117_scan",
    "Verif.Props.C117_playback",
    "Verif.Props.C117_drawn",
    "Verif.Props.C117_lost"
   ],
   "note": "C117_geometry is exact rational geometry; C117_scan, C117_playback and C117_drawn are the f32 program, by C88. The ratio of the two resolutions must be exact, as 1/4 and 3/4 are and 0.1 and 0.3 are not."
  },
  {
   "property": "C118",
   "status": "proved",
   "theorems": [
    "Verif.Props.C118_logodds",
    "Verif.Props.C118_step",
    "Verif.Props.C118_last",
    "Verif.Props.C118_for_ever",
    "Verif.Props.C118_crossed",
    "Verif.Props.C118_map",
    "Verif.Props.C118_occupied"
   ],
   "note": "Assumes of the logarithm that ln 0 = -inf and ln inf = inf (IEEE 754, 9.2.1) and, for C118_map, that it is monotone (GoodLibm). The other theorems take the log odds as given."
  },
  {
   "property": "C119",
   "status": "proved",
   "theorems": [
    "Verif.Props.C119_extent",
    "Verif.Props.C119_values",
    "Verif.Props.C119_screen",
    "Verif.Props.C119_border_refuted"
   ],
   "note": "C119_extent rests on the least box of C34 and C67, C119_values and C119_screen on C88."
  },
  {
   "property": "C120",
   "status": "proved",
   "theorems": [
    "Verif.Props.C120_extent",
    "Verif.Props.C120_memory",
    "Verif.Props.C120_limited",
    "Verif.Props.C120_moved"
   ],
   "note": "C120_limited uses the model of limited memory of C101. The upper bound on memory is C91."
  },
  {
   "property": "C121",
   "status": "proved",
   "theorems": [
    "Verif.Props.C121_ray",
    "Verif.Props.C121_scan",
    "Verif.Props.C121_cast_rays",
    "Verif.Props.C121_drive",
    "Verif.Props.C121_map",
    "Verif.Props.C121_free_refuted",
    "Verif.Props.C121_jump_refuted"
   ],
   "note": "C121_free_refuted is a witness that the free cells alone need not be one piece, and C121_jump_refuted that the condition on the sensors is needed."
  },
  {
   "property": "C122",
   "status": "proved",
   "theorems": [
    "Verif.Props.C122_cast_rays",
    "Verif.Props.C122_told",
    "Verif.Props.C122_inside",
    "Verif.Props.C122_map",
    "Verif.Props.C122_default"
   ],
   "note": "That the cell lies in the map is C122_inside (get panics for other cells, C41)."
  },
  {
   "property": "C123",
   "status": "proved",
   "theorems": [
    "Verif.Props.C123_values",
    "Verif.Props.C123_points",
    "Verif.Props.C123_map"
   ],
   "note": "The order of hits and misses matters (C67_mixed_refuted), so rows are compared by what is left out and put in and not by counts."
  },
  {
   "property": "C124",
   "status": "proved",
   "theorems": [
    "Verif.Props.C124_rows",
    "Verif.Props.C124_map"
   ],
   "note": "The witness shows that the bound is reached up to rounding. That an error is forgotten altogether after enough agreeing observations is C71."
  },
  {
   "property": "C125",
   "status": "proved",
   "theorems": [
    "Verif.Props.C125_rows",
    "Verif.Props.C125_short",
    "Verif.Props.C125_map",
    "Verif.Props.C125_long_refuted",
    "Verif.Props.C125_map_refuted"
   ],
   "note": "The row of C125_long_refuted is checked step by step in the model's f32 by the kernel. That no shorter row exists is what the search says, and is not proved."
  }
 ]
}