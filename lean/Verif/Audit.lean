import Verif.Props.Alive
import Verif.Props.Approx
import Verif.Props.Bad
import Verif.Props.BadFile
import Verif.Props.BadInf
import Verif.Props.BadViz
import Verif.Props.Bayes
import Verif.Props.Bounds
import Verif.Props.CastRays
import Verif.Props.Cloud
import Verif.Props.Coarser
import Verif.Props.Convert
import Verif.Props.Cost
import Verif.Props.Cut
import Verif.Props.CutMoves
import Verif.Props.CutReal
import Verif.Props.Disc
import Verif.Props.Edge
import Verif.Props.Endless
import Verif.Props.Evidence
import Verif.Props.Expand
import Verif.Props.Extent
import Verif.Props.Fair
import Verif.Props.FarScene
import Verif.Props.Few
import Verif.Props.First
import Verif.Props.FirstFile
import Verif.Props.FirstViz
import Verif.Props.Flat
import Verif.Props.Folder
import Verif.Props.Frame
import Verif.Props.Geometric
import Verif.Props.Gps
import Verif.Props.GridMap
import Verif.Props.HashOrder
import Verif.Props.Heal
import Verif.Props.Higher
import Verif.Props.History
import Verif.Props.Ieee
import Verif.Props.Kitti
import Verif.Props.Limits
import Verif.Props.Longer
import Verif.Props.Lost
import Verif.Props.LostFile
import Verif.Props.LostViz
import Verif.Props.Lowest
import Verif.Props.Machine
import Verif.Props.Math
import Verif.Props.Measured
import Verif.Props.Memory
import Verif.Props.MemoryFile
import Verif.Props.MemoryViz
import Verif.Props.Mirror
import Verif.Props.Motion
import Verif.Props.Names
import Verif.Props.Nearer
import Verif.Props.NoPanic
import Verif.Props.Noise
import Verif.Props.Noisy
import Verif.Props.Obstacle
import Verif.Props.OccMap
import Verif.Props.Odds
import Verif.Props.OneRecord
import Verif.Props.Onward
import Verif.Props.Order
import Verif.Props.Outlier
import Verif.Props.Own
import Verif.Props.Parse
import Verif.Props.Picture
import Verif.Props.Piece
import Verif.Props.Playback
import Verif.Props.Pose
import Verif.Props.Print
import Verif.Props.RangeLimit
import Verif.Props.Ray
import Verif.Props.RayExact
import Verif.Props.RayF32
import Verif.Props.RayLimit
import Verif.Props.RayNear
import Verif.Props.RayNonFinite
import Verif.Props.RaySame
import Verif.Props.RayWide
import Verif.Props.Recent
import Verif.Props.Release
import Verif.Props.Repeat
import Verif.Props.Resized
import Verif.Props.Scale
import Verif.Props.ScanExact
import Verif.Props.ScanLimit
import Verif.Props.ScanMarks
import Verif.Props.ScanSet
import Verif.Props.Session
import Verif.Props.Settle
import Verif.Props.Split
import Verif.Props.Stray
import Verif.Props.Sure
import Verif.Props.Text
import Verif.Props.TileSize
import Verif.Props.Tiles
import Verif.Props.Trait
import Verif.Props.Viz
import Verif.Props.VizMain
import Verif.Props.VizMap
import Verif.Props.VizRuns
import Verif.Props.VizWitness
import Verif.Props.Weak
import Verif.Props.Witness
import Verif.Props.Wrong
import Verif.Props.WrongFile
import Verif.Props.Zero

/-!
# The axioms of every theorem named in MANIFEST.json, printed when this file is built
-/

-- C01
#print axioms Verif.Props.C01_cell_point_cell
#print axioms Verif.Props.C01_cell_point_cell_n
#print axioms Verif.Props.C01_fails_for_huge_cells
#print axioms Verif.Props.C01_map
-- C02
#print axioms Verif.Props.C02_within_half_cell
#print axioms Verif.Props.C02_within_half_cell_points
#print axioms Verif.Props.C02_half_cell_exceeded
-- C03
#print axioms Verif.Props.C03_monotone
#print axioms Verif.Props.C03_monotone_points
-- C04
#print axioms Verif.Props.C04_boundary_partial
#print axioms Verif.Props.C04_negative_boundary
-- C05
#print axioms Verif.Props.C05_constant_resolution
#print axioms Verif.Props.C05_per_axis
#print axioms Verif.Props.C05_size_per_axis
#print axioms Verif.Props.C05_axis_independent
-- C06
#print axioms Verif.Props.C06_discretized_is_least
#print axioms Verif.Props.C06_discretized_returns_iff
-- C07
#print axioms Verif.Props.C07_discretized_idempotent
#print axioms Verif.Props.C07_discretized_of_aligned
#print axioms Verif.Props.C07_tile_size_zero_panics
-- C08
#print axioms Verif.Props.C08_cell_bounds_round_trip
#print axioms Verif.Props.C08_size
#print axioms Verif.Props.C08_from_size_cells
-- C09
#print axioms Verif.Props.C09_bounds_new
#print axioms Verif.Props.C09_bounds_new_nan
#print axioms Verif.Props.C09_cell_bounds_new
-- C10
#print axioms Verif.Props.C10_enclosing_of_empty
#print axioms Verif.Props.C10_enclosing_is_least
#print axioms Verif.Props.C10_enclosing_points
#print axioms Verif.Props.C10_enclosing_not_symmetric
-- C11
#print axioms Verif.Props.C11_overlapping_empty_or_intersection
#print axioms Verif.Props.C11_overlapping_comm
#print axioms Verif.Props.C11_overlapping_degenerate
#print axioms Verif.Props.C11_overlapping_is_intersection
#print axioms Verif.Props.C11_tolerance
-- C12
#print axioms Verif.Props.C12_discretized_contains
#print axioms Verif.Props.C12_near
-- C13
#print axioms Verif.Props.C13_points_fromPoints
#print axioms Verif.Props.C13_numPoints_fromPoints
#print axioms Verif.Props.C13_numPoints
#print axioms Verif.Props.C13_fromPoints_points
-- C14
#print axioms Verif.Props.C14_bounds_contain
#print axioms Verif.Props.C14_bounds_least
#print axioms Verif.Props.C14_bounds_ordered
#print axioms Verif.Props.C14_bounds_include_origin
-- C15
#print axioms Verif.Props.C15_transform_pointwise
#print axioms Verif.Props.C15_last_row_irrelevant
#print axioms Verif.Props.C15_transform_affine
#print axioms Verif.Props.C15_transform_composes
#print axioms Verif.Props.C15_translation_f32
#print axioms Verif.Props.C15_identity_infinite
-- C16
#print axioms Verif.Props.C16_same_cell
#print axioms Verif.Props.C16_empty_ray
-- C17
#print axioms Verif.Props.C17_connected
-- C18
#print axioms Verif.Props.C18_end_not_in_ray
-- C19
#print axioms Verif.Props.C19_shortest
#print axioms Verif.Props.C19_in_box
#print axioms Verif.Props.C19_no_return
-- C20
#print axioms Verif.Props.C20_within_limit
#print axioms Verif.Props.C20_none
-- C21
#print axioms Verif.Props.C21_no_limit
-- C22
#print axioms Verif.Props.C22_exact_returns
#print axioms Verif.Props.C22_border_missed
#print axioms Verif.Props.C22_f32_returns
#print axioms Verif.Props.C22_overflow_hangs
#print axioms Verif.Props.C22_wide_returns
#print axioms Verif.Props.C22_tiny_hangs
-- C23
#print axioms Verif.Props.C23_follows_segment
#print axioms Verif.Props.C23_reaches_end
-- C24
#print axioms Verif.Props.C24_stays_between
#print axioms Verif.Props.C24_reaches_end
#print axioms Verif.Props.C24_range
-- C25
#print axioms Verif.Props.C25_axis_aligned
-- C26
#print axioms Verif.Props.C26_nan_walks_down
#print axioms Verif.Props.C26_inf_walks_down
#print axioms Verif.Props.C26_inf_hangs
#print axioms Verif.Props.C26_returns_partial
-- C27
#print axioms Verif.Props.C27_disjoint
#print axioms Verif.Props.castRays_nodup
-- C28
#print axioms Verif.Props.C28_occupied
#print axioms Verif.Props.C28_free
#print axioms Verif.Props.C28_returns_iff
-- C29
#print axioms Verif.Props.C29_order_irrelevant
-- C30
#print axioms Verif.Props.C30_new
#print axioms Verif.Props.C30_from_ndarray
#print axioms Verif.Props.C30_from_ndarray_2
#print axioms Verif.Props.C30_from_ndarray_3
#print axioms Verif.Props.C30_new_size
#print axioms Verif.Props.C30_new_returns_iff
#print axioms Verif.Props.C30_new_total
#print axioms Verif.Props.C30_default
-- C31
#print axioms Verif.Props.C31_get
#print axioms Verif.Props.C31_set
#print axioms Verif.Props.C31_get_set
#print axioms Verif.Props.C31_set_comm
-- C32
#print axioms Verif.Props.C32_values_kept
#print axioms Verif.Props.C32_values_kept_always
#print axioms Verif.Props.C32_default_placed
#print axioms Verif.Props.C32_new_placed
#print axioms Verif.Props.C32_set_placed
#print axioms Verif.Props.C32_world_position
#print axioms Verif.Props.C32_unaligned_map_panics
-- C33
#print axioms Verif.Props.C33_new_cells_default
-- C34
#print axioms Verif.Props.C34_not_larger
#print axioms Verif.Props.C34_covers
-- C35
#print axioms Verif.Props.C35_covered
#print axioms Verif.Props.C35_idempotent
-- C36
#print axioms Verif.Props.C36_set
#print axioms Verif.Props.C36_expandBounds
#print axioms Verif.Props.C36_changes
-- C37
#print axioms Verif.Props.C37_update
#print axioms Verif.Props.C37_integrate
#print axioms Verif.Props.C37_history
#print axioms Verif.Props.C37_from_new
#print axioms Verif.Props.C37_hit_negative
-- C38
#print axioms Verif.Props.C38_integrate
#print axioms Verif.Props.C38_returns_iff
#print axioms Verif.Props.C38_occupancy_map
-- C39
#print axioms Verif.Props.C39_order_irrelevant
-- C40
#print axioms Verif.Props.C40_tracked
#print axioms Verif.Props.C40_untracked
#print axioms Verif.Props.C40_session
-- C41
#print axioms Verif.Props.C41_step
#print axioms Verif.Props.C41_history
#print axioms Verif.Props.C41_from_new
#print axioms Verif.Props.C41_occupancy_map
-- C42
#print axioms Verif.Props.C42_direction
#print axioms Verif.Props.C42_occupied
#print axioms Verif.Props.C42_integrate
#print axioms Verif.Props.C42_default_saturates
#print axioms Verif.Props.C42_default_model
-- C43
#print axioms Verif.Props.C43_occupied
#print axioms Verif.Props.C43_unknown
#print axioms Verif.Props.C43_default_unknown
-- C44
#print axioms Verif.Props.C44_decides
#print axioms Verif.Props.C44_point_beyond_panics
#print axioms Verif.Props.C44_sensor_beyond_panics
#print axioms Verif.Props.C44_edge_strip_panics
#print axioms Verif.Props.C44_sensor_apart_panics
#print axioms Verif.Props.C44_no_panic_partial
#print axioms Verif.Props.C44_outside_panics
#print axioms Verif.Props.C44_edge_panics
#print axioms Verif.Props.C44_sensor_outside_panics
-- C45
#print axioms Verif.Props.C45_new
-- C46
#print axioms Verif.Props.C46_exact_inverse
#print axioms Verif.Props.C46_exact_strict
#print axioms Verif.Props.C46_logodds_monotone
#print axioms Verif.Props.C46_probability_monotone
#print axioms Verif.Props.C46_model_conditions
-- C47
#print axioms Verif.Props.C47_signum
#print axioms Verif.Props.C47_odd
#print axioms Verif.Props.C47_nan
#print axioms Verif.Props.C47_vector
-- C48
#print axioms Verif.Props.C48_read
#print axioms Verif.Props.C48_invalid
#print axioms Verif.Props.C48_io_error
#print axioms Verif.Props.C48_total
-- C49
#print axioms Verif.Props.C49_order_irrelevant
#print axioms Verif.Props.C49_success
#print axioms Verif.Props.C49_first_error
#print axioms Verif.Props.C49_listing_error
-- C50
#print axioms Verif.Props.C50_fields
#print axioms Verif.Props.C50_read
#print axioms Verif.Props.C50_invalid
#print axioms Verif.Props.C50_success_iff
#print axioms Verif.Props.C50_rest_ignored
-- C51
#print axioms Verif.Props.C51_poses
#print axioms Verif.Props.C51_first_error
#print axioms Verif.Props.C51_order_irrelevant
#print axioms Verif.Props.C51_offset_exact
#print axioms Verif.Props.C51_longitude_overstated
-- C52
#print axioms Verif.Props.C52_one_worker
#print axioms Verif.Props.C52_map_exclusive
#print axioms Verif.Props.C52_no_deadlock
#print axioms Verif.Props.C52_progress
#print axioms Verif.Props.C52_worker_panic_freezes
#print axioms Verif.Props.C52_main_panics
#print axioms Verif.Props.C52_runs_forever
-- C53
#print axioms Verif.Props.C53_cycles
#print axioms Verif.Props.C53_runs
-- C54
#print axioms Verif.Props.C54_cyclic
#print axioms Verif.Props.C54_in_order
#print axioms Verif.Props.C54_empty
-- C55
#print axioms Verif.Props.C55_lowest_first
#print axioms Verif.Props.C55_occupancy_map
#print axioms Verif.Props.C55_mirrors
#print axioms Verif.Props.C55_same_extent
#print axioms Verif.Props.C55_reindex_refuted
-- C56
#print axioms Verif.Props.C56_limit_cuts
#print axioms Verif.Props.C56_longer_limit
#print axioms Verif.Props.C56_longer_limit_f32
-- C57
#print axioms Verif.Props.C57_follows_line
#print axioms Verif.Props.C57_follows_segment
#print axioms Verif.Props.C57_near_segment
#print axioms Verif.Props.C57_covers_segment
-- C58
#print axioms Verif.Props.C58_marks
#print axioms Verif.Props.C58_rest_unchanged
-- C59
#print axioms Verif.Props.C59_transform_is_rigid
#print axioms Verif.Props.C59_rigid
#print axioms Verif.Props.C59_matrix_f32
#print axioms Verif.Props.C59_transform_f32
#print axioms Verif.Props.C59_origin_f32
#print axioms Verif.Props.C59_nan_angle
#print axioms Verif.Props.C59_marker
-- C60
#print axioms Verif.Props.C60_window_iff
#print axioms Verif.Props.C60_recordings
#print axioms Verif.Props.C60_same_names
#print axioms Verif.Props.C60_bad_folder
#print axioms Verif.Props.C60_names_not_checked
#print axioms Verif.Props.C60_marker
-- C61
#print axioms Verif.Props.C61_onto
#print axioms Verif.Props.C61_one_to_one
#print axioms Verif.Props.C61_order
#print axioms Verif.Props.C61_special
-- C62
#print axioms Verif.Props.C62_resized
#print axioms Verif.Props.C62_agrees
#print axioms Verif.Props.C62_far_refuted
#print axioms Verif.Props.C62_misaligned_refuted
#print axioms Verif.Props.C62_tiny_refuted
-- C63
#print axioms Verif.Props.C63_grid_map
#print axioms Verif.Props.C63_occupancy_map
#print axioms Verif.Props.C63_domain
#print axioms Verif.Props.C63_clone
-- C64
#print axioms Verif.Props.C64_bounds
#print axioms Verif.Props.C64_scan_is_set
-- C65
#print axioms Verif.Props.C65_mirror
#print axioms Verif.Props.C65_scan
#print axioms Verif.Props.C65_nan_refuted
#print axioms Verif.Props.C65_axes_differ
-- C66
#print axioms Verif.Props.C66_again
#print axioms Verif.Props.C66_for_ever
#print axioms Verif.Props.C66_values
#print axioms Verif.Props.C66_converges
#print axioms Verif.Props.C66_fixpoint
#print axioms Verif.Props.C66_default
-- C67
#print axioms Verif.Props.C67_values
#print axioms Verif.Props.C67_order
#print axioms Verif.Props.C67_any_order
#print axioms Verif.Props.C67_fits
#print axioms Verif.Props.C67_bounds
#print axioms Verif.Props.C67_then_fits
#print axioms Verif.Props.C67_mixed_refuted
-- C68
#print axioms Verif.Props.C68_near
#print axioms Verif.Props.C68_far
#print axioms Verif.Props.C68_free_in_range
#print axioms Verif.Props.C68_cut
#print axioms Verif.Props.C68_reached
#print axioms Verif.Props.C68_hit_in_range
#print axioms Verif.Props.C68_scan_hits
-- C69
#print axioms Verif.Props.C69_playback
#print axioms Verif.Props.C69_values
#print axioms Verif.Props.C69_map
#print axioms Verif.Props.C69_screen
#print axioms Verif.Props.C69_folder
-- C70
#print axioms Verif.Props.C70_exact
#print axioms Verif.Props.C70_observations
#print axioms Verif.Props.C70_map
#print axioms Verif.Props.C70_default_near
#print axioms Verif.Props.C70_default
-- C71
#print axioms Verif.Props.C71_recent
#print axioms Verif.Props.C71_default
-- C72
#print axioms Verif.Props.C72_probability
#print axioms Verif.Props.C72_logodds
#print axioms Verif.Props.C72_round_trip
#print axioms Verif.Props.C72_noise_model
#print axioms Verif.Props.C72_map
-- C73
#print axioms Verif.Props.C73_place
#print axioms Verif.Props.C73_folder
#print axioms Verif.Props.C73_east_overstated
#print axioms Verif.Props.C73_points
-- C74
#print axioms Verif.Props.C74_symmetric
#print axioms Verif.Props.C74_reflexive
#print axioms Verif.Props.C74_equal
#print axioms Verif.Props.C74_absolute
#print axioms Verif.Props.C74_meaning
#print axioms Verif.Props.C74_meaning_absolute
#print axioms Verif.Props.C74_not_transitive
-- C75
#print axioms Verif.Props.C75_near_kept
#print axioms Verif.Props.C75_limited_scan
-- C76
#print axioms Verif.Props.C76_decimal
#print axioms Verif.Props.C76_reads_decimals
#print axioms Verif.Props.C76_words
#print axioms Verif.Props.C76_rejects
#print axioms Verif.Props.C76_read_iff
#print axioms Verif.Props.C76_stray
#print axioms Verif.Props.C76_accurate
#print axioms Verif.Props.C76_nan_spreads
-- C77
#print axioms Verif.Props.C77_utf8
#print axioms Verif.Props.C77_ascii
#print axioms Verif.Props.C77_not_utf8
#print axioms Verif.Props.C77_text
#print axioms Verif.Props.C77_fields
#print axioms Verif.Props.C77_read_iff
-- C78
#print axioms Verif.Props.C78_padded
#print axioms Verif.Props.C78_listing
#print axioms Verif.Props.C78_clouds
#print axioms Verif.Props.C78_recordings
#print axioms Verif.Props.C78_unpadded
#print axioms Verif.Props.C78_hidden
-- C79
#print axioms Verif.Props.C79_clouds
#print axioms Verif.Props.C79_quiet
#print axioms Verif.Props.C79_lines
#print axioms Verif.Props.C79_stops
#print axioms Verif.Props.C79_bad_name
#print axioms Verif.Props.C79_oxts
#print axioms Verif.Props.C79_oxts_lines
#print axioms Verif.Props.C79_oxts_quiet
#print axioms Verif.Props.C79_oxts_stops
#print axioms Verif.Props.C79_oxts_bad_name
-- C80
#print axioms Verif.Props.C80_scans
-- C81
#print axioms Verif.Props.C81_hit
#print axioms Verif.Props.C81_miss
#print axioms Verif.Props.C81_playback
#print axioms Verif.Props.C81_visualizer
#print axioms Verif.Props.C81_hits_real
#print axioms Verif.Props.C81_passes_real
#print axioms Verif.Props.C81_folder
-- C82
#print axioms Verif.Props.C82_alive
#print axioms Verif.Props.C82_visualizer
#print axioms Verif.Props.C82_plays
#print axioms Verif.Props.C82_every_run
#print axioms Verif.Props.C82_folder
#print axioms Verif.Props.C82_fair
-- C83
#print axioms Verif.Props.C83_relaxed
#print axioms Verif.Props.C83_step
#print axioms Verif.Props.C83_order
#print axioms Verif.Props.C83_complete
#print axioms Verif.Props.C83_execution
#print axioms Verif.Props.C83_fair
-- C84
#print axioms Verif.Props.C84_same_as_exact
#print axioms Verif.Props.C84_cut
#print axioms Verif.Props.C84_scan
-- C85
#print axioms Verif.Props.C85_wrap
#print axioms Verif.Props.C85_checked
#print axioms Verif.Props.C85_cell_bounds
#print axioms Verif.Props.C85_cast_ray
#print axioms Verif.Props.C85_cast_rays
#print axioms Verif.Props.C85_grid_map
#print axioms Verif.Props.C85_integrate
#print axioms Verif.Props.C85_no_panic
#print axioms Verif.Props.C85_worker
#print axioms Verif.Props.C85_visualizer
#print axioms Verif.Props.C85_recording
#print axioms Verif.Props.C85_differs
#print axioms Verif.Props.C85_differs_ray
-- C86
#print axioms Verif.Props.C86_moves
#print axioms Verif.Props.C86_backwards
#print axioms Verif.Props.C86_not_at_corners
-- C87
#print axioms Verif.Props.C87_step
#print axioms Verif.Props.C87_reach
#print axioms Verif.Props.C87_runs
#print axioms Verif.Props.C87_plays
-- C88
#print axioms Verif.Props.C88_scan
#print axioms Verif.Props.C88_playback
#print axioms Verif.Props.C88_visualizer
#print axioms Verif.Props.C88_screen
#print axioms Verif.Props.C88_moves
-- C89
#print axioms Verif.Props.C89_scan
#print axioms Verif.Props.C89_folder
-- C90
#print axioms Verif.Props.C90_reach
#print axioms Verif.Props.C90_runs
#print axioms Verif.Props.C90_folder
-- C91
#print axioms Verif.Props.C91_work
#print axioms Verif.Props.C91_decides
#print axioms Verif.Props.C91_scan
#print axioms Verif.Props.C91_range
#print axioms Verif.Props.C91_one_thread
#print axioms Verif.Props.C91_memory
-- C92
#print axioms Verif.Props.C92_drawn
#print axioms Verif.Props.C92_measured
#print axioms Verif.Props.C92_any
#print axioms Verif.Props.C92_folder
-- C93
#print axioms Verif.Props.C93_stays
#print axioms Verif.Props.C93_heals
#print axioms Verif.Props.C93_stale
#print axioms Verif.Props.C93_stuck
-- C94
#print axioms Verif.Props.C94_unique
#print axioms Verif.Props.C94_add
#print axioms Verif.Props.C94_sub
#print axioms Verif.Props.C94_mul
#print axioms Verif.Props.C94_div
#print axioms Verif.Props.C94_sqrt
#print axioms Verif.Props.C94_convert
#print axioms Verif.Props.C94_sign
#print axioms Verif.Props.C94_integral
#print axioms Verif.Props.C94_to_int
#print axioms Verif.Props.C94_compare
#print axioms Verif.Props.C94_min_max
#print axioms Verif.Props.C94_special
#print axioms Verif.Props.C94_even_word
#print axioms Verif.Props.C94_formats
-- C95
#print axioms Verif.Props.C95_marker
#print axioms Verif.Props.C95_table
#print axioms Verif.Props.C95_still
#print axioms Verif.Props.C95_frame
#print axioms Verif.Props.C95_folder
-- C96
#print axioms Verif.Props.C96_ray
#print axioms Verif.Props.C96_scan
#print axioms Verif.Props.C96_new
#print axioms Verif.Props.C96_integrate
#print axioms Verif.Props.C96_history
#print axioms Verif.Props.C96_queries
#print axioms Verif.Props.C96_three_refuted
#print axioms Verif.Props.C96_tiny_refuted
-- C97
#print axioms Verif.Props.C97_ray
#print axioms Verif.Props.C97_scan
#print axioms Verif.Props.C97_step
#print axioms Verif.Props.C97_history
#print axioms Verif.Props.C97_history_lift
#print axioms Verif.Props.C97_history_flatten
#print axioms Verif.Props.C97_new
#print axioms Verif.Props.C97_queries
#print axioms Verif.Props.C97_height_refuted
-- C98
#print axioms Verif.Props.C98_ray
#print axioms Verif.Props.C98_panics
#print axioms Verif.Props.C98_records
#print axioms Verif.Props.C98_folder
#print axioms Verif.Props.C98_infinite_expand
#print axioms Verif.Props.C98_infinite
#print axioms Verif.Props.C98_stuck
#print axioms Verif.Props.C98_fair
#print axioms Verif.Props.C98_visualizer
#print axioms Verif.Props.C98_freezes
-- C99
#print axioms Verif.Props.C99_ray
#print axioms Verif.Props.C99_returns_iff
#print axioms Verif.Props.C99_scan
#print axioms Verif.Props.C99_records
#print axioms Verif.Props.C99_folder
#print axioms Verif.Props.C99_stays
#print axioms Verif.Props.C99_fair
#print axioms Verif.Props.C99_visualizer
#print axioms Verif.Props.C99_freezes
-- C100
#print axioms Verif.Props.C100_rotation
#print axioms Verif.Props.C100_position
#print axioms Verif.Props.C100_angle
#print axioms Verif.Props.C100_place
-- C101
#print axioms Verif.Props.C101_ray
#print axioms Verif.Props.C101_returns_iff
#print axioms Verif.Props.C101_panics
#print axioms Verif.Props.C101_same
#print axioms Verif.Props.C101_endless
#print axioms Verif.Props.C101_folder
#print axioms Verif.Props.C101_enough_folder
#print axioms Verif.Props.C101_lost_scan
#print axioms Verif.Props.C101_lost_visualizer
#print axioms Verif.Props.C101_lost_ends
#print axioms Verif.Props.C101_process_ends
#print axioms Verif.Props.C101_enough
-- C102
#print axioms Verif.Props.C102_scan
#print axioms Verif.Props.C102_shown
#print axioms Verif.Props.C102_visualizer
#print axioms Verif.Props.C102_freezes
#print axioms Verif.Props.C102_folder
#print axioms Verif.Props.C102_place
#print axioms Verif.Props.C102_stuck
#print axioms Verif.Props.C102_fair
#print axioms Verif.Props.C102_first
-- C103
#print axioms Verif.Props.C103_prefix
#print axioms Verif.Props.C103_nearer
#print axioms Verif.Props.C103_added
#print axioms Verif.Props.C103_playback
#print axioms Verif.Props.C103_not_at_corners
-- C104
#print axioms Verif.Props.C104_scan
#print axioms Verif.Props.C104_unblocked
#print axioms Verif.Props.C104_playback
#print axioms Verif.Props.C104_visualizer
#print axioms Verif.Props.C104_screen
#print axioms Verif.Props.C104_moves
-- C105
#print axioms Verif.Props.C105_scan
#print axioms Verif.Props.C105_folder
-- C106
#print axioms Verif.Props.C106_ray
#print axioms Verif.Props.C106_no_less
#print axioms Verif.Props.C106_near_ray
#print axioms Verif.Props.C106_near_scan
#print axioms Verif.Props.C106_same_bounds
#print axioms Verif.Props.C106_playback
#print axioms Verif.Props.C106_visualizer
#print axioms Verif.Props.C106_screen
-- C107
#print axioms Verif.Props.C107_rounds
#print axioms Verif.Props.C107_settles
#print axioms Verif.Props.C107_one_way
#print axioms Verif.Props.C107_visualizer
#print axioms Verif.Props.C107_screen
-- C108
#print axioms Verif.Props.C108_goes_on
#print axioms Verif.Props.C108_same_scan
#print axioms Verif.Props.C108_visualizer
#print axioms Verif.Props.C108_every_run
-- C109
#print axioms Verif.Props.C109_step
#print axioms Verif.Props.C109_new
#print axioms Verif.Props.C109_plays
#print axioms Verif.Props.C109_playback
#print axioms Verif.Props.C109_same_scan
#print axioms Verif.Props.C109_visualizer
#print axioms Verif.Props.C109_screen
-- C110
#print axioms Verif.Props.C110_folder
-- C111
#print axioms Verif.Props.C111_no_less
#print axioms Verif.Props.C111_untouched
#print axioms Verif.Props.C111_far_ray
#print axioms Verif.Props.C111_same_bounds
#print axioms Verif.Props.C111_playback
#print axioms Verif.Props.C111_visualizer
#print axioms Verif.Props.C111_screen
-- C112
#print axioms Verif.Props.C112_ray
#print axioms Verif.Props.C112_scan
#print axioms Verif.Props.C112_playback
#print axioms Verif.Props.C112_visualizer
#print axioms Verif.Props.C112_screen
-- C113
#print axioms Verif.Props.C113_recordings
#print axioms Verif.Props.C113_same_records
#print axioms Verif.Props.C113_folder
-- C114
#print axioms Verif.Props.C114_folder
#print axioms Verif.Props.C114_two
-- C115
#print axioms Verif.Props.C115_seen
#print axioms Verif.Props.C115_returns_iff
#print axioms Verif.Props.C115_same
#print axioms Verif.Props.C115_other
#print axioms Verif.Props.C115_mixed_refuted
-- C116
#print axioms Verif.Props.C116_corner
#print axioms Verif.Props.C116_cells
#print axioms Verif.Props.C116_scans
#print axioms Verif.Props.C116_fits
#print axioms Verif.Props.C116_parts_fit
#print axioms Verif.Props.C116_parts
-- C117
#print axioms Verif.Props.C117_geometry
#print axioms Verif.Props.C117_scan
#print axioms Verif.Props.C117_playback
#print axioms Verif.Props.C117_drawn
#print axioms Verif.Props.C117_lost
-- C118
#print axioms Verif.Props.C118_logodds
#print axioms Verif.Props.C118_step
#print axioms Verif.Props.C118_last
#print axioms Verif.Props.C118_for_ever
#print axioms Verif.Props.C118_crossed
#print axioms Verif.Props.C118_map
#print axioms Verif.Props.C118_occupied
-- C119
#print axioms Verif.Props.C119_extent
#print axioms Verif.Props.C119_values
#print axioms Verif.Props.C119_screen
#print axioms Verif.Props.C119_border_refuted
-- C120
#print axioms Verif.Props.C120_extent
#print axioms Verif.Props.C120_memory
#print axioms Verif.Props.C120_limited
#print axioms Verif.Props.C120_moved
-- C121
#print axioms Verif.Props.C121_ray
#print axioms Verif.Props.C121_scan
#print axioms Verif.Props.C121_cast_rays
#print axioms Verif.Props.C121_drive
#print axioms Verif.Props.C121_map
#print axioms Verif.Props.C121_free_refuted
#print axioms Verif.Props.C121_jump_refuted
-- C122
#print axioms Verif.Props.C122_cast_rays
#print axioms Verif.Props.C122_told
#print axioms Verif.Props.C122_inside
#print axioms Verif.Props.C122_map
#print axioms Verif.Props.C122_default
-- C123
#print axioms Verif.Props.C123_values
#print axioms Verif.Props.C123_points
#print axioms Verif.Props.C123_map
-- C124
#print axioms Verif.Props.C124_rows
#print axioms Verif.Props.C124_map
-- C125
#print axioms Verif.Props.C125_rows
#print axioms Verif.Props.C125_short
#print axioms Verif.Props.C125_map
#print axioms Verif.Props.C125_long_refuted
#print axioms Verif.Props.C125_map_refuted
