{
 "claims": [
  {
   "property": "C01",
   "status": "proved",
   "theorems": [
    "CostMapModel.C01_registry",
    "CostMapModel.C01_duplicates"
   ],
   "note": "Ranges over every history of modelled calls with arbitrary arguments, exceptions caught included. Writing whole matrices through references returned by the non-const get() is outside of the model. C01_duplicates is the counterexample when the constructor gets a name twice."
  },
  {
   "property": "C02",
   "status": "proved",
   "theorems": [
    "CostMapModel.C02_add_is_keyed_update",
    "CostMapModel.C02_add_rejects_wrong_size",
    "CostMapModel.C02_add_constant"
   ],
   "note": ""
  },
  {
   "property": "C03",
   "status": "partial",
   "theorems": [
    "CostMapModel.C03_erase_removes_one_layer",
    "CostMapModel.C03_erase_keeps_second_basic_copy",
    "CostMapModel.D16_duplicate_constructor_names",
    "CostMapModel.C03_basic_layers_iff"
   ],
   "note": "Proved for every coherent map; removal from the basic layers needs them to be distinct, otherwise the code keeps a second copy (witness theorem). C03_basic_layers_iff: the name is gone from the basic layers exactly when it was there at most once."
  },
  {
   "property": "C04",
   "status": "proved",
   "theorems": [
    "CostMapModel.C04_missing_layer_throws",
    "CostMapModel.C04_existing_layer_never_throws",
    "CostMapModel.C04_inflate_missing_layer",
    "CostMapModel.C04_deflate_missing_layer"
   ],
   "note": ""
  },
  {
   "property": "C05",
   "status": "proved",
   "theorems": [
    "CostMapModel.C05_write_frame",
    "CostMapModel.C05_out_of_range_is_ub"
   ],
   "note": ""
  },
  {
   "property": "C06",
   "status": "proved",
   "theorems": [
    "CostMapModel.C06_clear",
    "CostMapModel.C06_clearAll",
    "CostMapModel.C06_clearBasic",
    "CostMapModel.C06_clearBasic_missing"
   ],
   "note": ""
  },
  {
   "property": "C07",
   "status": "proved",
   "theorems": [
    "CostMapModel.C07_valid_layer",
    "CostMapModel.C07_valid_layers",
    "CostMapModel.C07_valid_basic",
    "CostMapModel.C07_missing_layer_order"
   ],
   "note": ""
  },
  {
   "property": "C08",
   "status": "proved",
   "theorems": [
    "CostMapModel.C08_getPosition3",
    "CostMapModel.C08_getVector"
   ],
   "note": ""
  },
  {
   "property": "C09",
   "status": "proved",
   "theorems": [
    "CostMapModel.C09_setGeometry",
    "CostMapModel.C09_setGeometry_rejects",
    "CostMapModel.C09_setGeometry_geo",
    "CostMapModel.C09_setGeometry_empty"
   ],
   "note": ""
  },
  {
   "property": "C10",
   "status": "proved",
   "theorems": [
    "CostMapModel.C10_index_position_index",
    "CostMapModel.C10_position_fails_iff"
   ],
   "note": "Exact arithmetic over any ordered field with floor."
  },
  {
   "property": "C100",
   "status": "partial",
   "theorems": [
    "CostMapModel.C100_throw",
    "CostMapModel.C100_throws",
    "CostMapModel.C100_recovers_partial",
    "CostMapModel.C100_ignored",
    "CostMapModel.C100_false"
   ],
   "note": "The call that throws is settled. Later calls are as with a new object if the number of cells differs; false if it is the same (D53, C100_false; C100_ignored says what happens instead)."
  },
  {
   "property": "C101",
   "status": "partial",
   "theorems": [
    "CostMapModel.C101_world",
    "CostMapModel.C101_defined_partial",
    "CostMapModel.C101_round_trip",
    "CostMapModel.C101_iterate",
    "CostMapModel.C101_lookup_partial",
    "CostMapModel.C101_false_lower_edge"
   ],
   "note": "The invariant, the round trip and iteration hold for every history. Definedness and lookup are for positions clear of the lower edges by the tolerance; on an edge a write is undefined behaviour (D54). Maps made from ROS costmaps are among the calls (C107)."
  },
  {
   "property": "C102",
   "status": "partial",
   "theorems": [
    "CostMapModel.C102_write_back_partial",
    "CostMapModel.C102_false_clearing"
   ],
   "note": "Proved for every edit that does not remove costs; removed costs (NO_INFORMATION) are not written back, which the witness shows (D55)."
  },
  {
   "property": "C103",
   "status": "partial",
   "theorems": [
    "CostMapModel.C103_same_indices",
    "CostMapModel.C103_update",
    "CostMapModel.C103_update_all_cells",
    "CostMapModel.C103_update_polygon",
    "CostMapModel.C103_update_circle_partial",
    "CostMapModel.C103_any_body",
    "CostMapModel.C103_false_shrinking"
   ],
   "note": "Partial because circles whose box the seam of the buffer crosses are not visited completely (C17); bodies that change the number of cells are undefined behaviour (D56)."
  },
  {
   "property": "C104",
   "status": "proved",
   "theorems": [
    "CostMapModel.C104_only_the_position",
    "CostMapModel.C104_cells_move_along",
    "CostMapModel.C104_lookups",
    "CostMapModel.C104_costs_move_along",
    "CostMapModel.C104_back",
    "CostMapModel.C104_move",
    "CostMapModel.C104_merge",
    "CostMapModel.C104_line",
    "CostMapModel.C104_spiral",
    "CostMapModel.C104_machine",
    "CostMapModel.C104_differs_from_move"
   ],
   "note": "C104_machine is with rounded doubles; the shape iterators (circle, ellipse, polygon, submap) are not restated, they are characterised by positions in C17 to C20."
  },
  {
   "property": "C105",
   "status": "partial",
   "theorems": [
    "CostMapModel.C105_geometry",
    "CostMapModel.C105_names",
    "CostMapModel.C105_write",
    "CostMapModel.C105_add",
    "CostMapModel.C105_erase_partial",
    "CostMapModel.C105_erase_layer",
    "CostMapModel.C105_erase_layer_iff",
    "CostMapModel.C105_extend_self",
    "CostMapModel.C105_merge_self_partial",
    "CostMapModel.C105_false_erase",
    "CostMapModel.C105_false_erase_other",
    "CostMapModel.C105_false_erase_last",
    "CostMapModel.C105_false_merge_missing"
   ],
   "note": "False of erase with a reference into the list of layers (D57) and of addDataFrom with the map itself and a missing layer (D58); proved for everything else, and when erase agrees is an equivalence."
  },
  {
   "property": "C106",
   "status": "proved",
   "theorems": [
    "CostMapModel.C106_layers_stay",
    "CostMapModel.C106_size_stays",
    "CostMapModel.C106_kept",
    "CostMapModel.C106_kept_by",
    "CostMapModel.C106_other_dimensions",
    "CostMapModel.C106_dangling",
    "CostMapModel.C106_matrix",
    "CostMapModel.C106_programs",
    "CostMapModel.C106_dangling_cases",
    "CostMapModel.C106_other_dimensions_case"
   ],
   "note": "Assignments to a whole map or matrix are not among the calls."
  },
  {
   "property": "C107",
   "status": "partial",
   "theorems": [
    "CostMapModel.C107_whole_same",
    "CostMapModel.C107_window_same_partial",
    "CostMapModel.C107_whole_partial",
    "CostMapModel.C107_window",
    "CostMapModel.C107_false_far"
   ],
   "note": "Costs at positions clear of the cells' borders by the tolerance of C96 (without it false, C96_false_whole); windows: defined outcomes and geometry, costs as in C96_window_partial through C107_window_same_partial. False for a robot 2^31 cells away (D59). C101 ranges over these calls too."
  },
  {
   "property": "C108",
   "status": "partial",
   "theorems": [
    "CostMapModel.C108_occupancy_same_partial",
    "CostMapModel.C108_occupancy_overflow",
    "CostMapModel.C108_message_partial",
    "CostMapModel.C108_history_message_partial",
    "CostMapModel.C108_history_occupancy_partial",
    "CostMapModel.C108_service_partial",
    "CostMapModel.C108_relay_partial",
    "CostMapModel.C108_exact_partial",
    "CostMapModel.C108_no_pose_stops_the_relay",
    "CostMapModel.C108_false_relay"
   ],
   "note": "Grids for maps of less than 2^31 cells (false from there on, D60) whose buffer starts at zero, as in C95, up to the tolerance of C95. Service and relay: an answer without the layer ends the relay (C108_false_relay, D49), as does an unknown pose (C108_no_pose_stops_the_relay, D18); on costmaps whose resolution and corner are multiples of a power of two every answer is published with the right costs (C108_exact_partial)."
  },
  {
   "property": "C109",
   "status": "proved",
   "theorems": [
    "CostMapModel.C109_latest",
    "CostMapModel.C109_first",
    "CostMapModel.C109_order",
    "CostMapModel.C109_latest_machine",
    "CostMapModel.C109_first_machine",
    "CostMapModel.C109_order_machine"
   ],
   "note": "Layers that are asked for exist in the maps that are merged (otherwise addDataFrom throws, C33_missing_layer). Without overwriting for the map's only basic layer. On the machine: grids agree up to an eighth of a cell."
  },
  {
   "property": "C11",
   "status": "proved",
   "theorems": [
    "CostMapModel.C11_inside_iff",
    "CostMapModel.C11_containing_cell",
    "CostMapModel.C11_nearest_centre"
   ],
   "note": "Exact arithmetic."
  },
  {
   "property": "C110",
   "status": "partial",
   "theorems": [
    "CostMapModel.C110_load_same",
    "CostMapModel.C110_history_partial",
    "CostMapModel.C110_nodes_partial",
    "CostMapModel.C110_false_moved",
    "CostMapModel.C110_false_centre"
   ],
   "note": "Histories of C101 on the machine. Partial: the map at positions is the same only for BundleSafe maps (centre on the diagonal, buffer starting at zero, numbers that survive text and float); without that it is false (C110_false_moved: D4, C110_false_centre: D2). The world has room for the map as read (World.Saves); the message of the node needs a start index below 2^16."
  },
  {
   "property": "C111",
   "status": "proved",
   "theorems": [
    "CostMapModel.C111_mapping"
   ],
   "note": "The program is a loop over fromCostmap2DROSAtRobotPose and addDataFrom on the machine; conditions of the statement: Reading.Fits and GridExact (numbers which doubles hold, C96)."
  },
  {
   "property": "C112",
   "status": "proved",
   "theorems": [
    "CostMapModel.C112_copy",
    "CostMapModel.C112_all_arrive",
    "CostMapModel.C112_catches_up",
    "CostMapModel.C112_lookup"
   ],
   "note": "Refinement of a system that passes whole maps (Spec/RemoteCopy: Snapshots). Calls fit the world of C101 and fail no assertion."
  },
  {
   "property": "C113",
   "status": "proved",
   "theorems": [
    "CostMapModel.C113_way",
    "CostMapModel.C113_clearance",
    "CostMapModel.C113_clear",
    "CostMapModel.C113_false",
    "CostMapModel.C113_line_near_way",
    "CostMapModel.C113_complete",
    "CostMapModel.C113_false_moved"
   ],
   "note": "Exact arithmetic; maps whose buffer starts at (0, 0) (part of the statement; moved maps are inflated in buffer order, D20). C113_way is the geometry, C113_false shows that one cell of inflation is not enough.  C113_complete is the converse (no false alarm), C113_false_moved shows that the buffer start is needed."
  },
  {
   "property": "C114",
   "status": "proved",
   "theorems": [
    "CostMapModel.C114_way",
    "CostMapModel.C114_clearance",
    "CostMapModel.C114_clear",
    "CostMapModel.C114_line_near_way",
    "CostMapModel.C114_complete"
   ],
   "note": "Maps whose buffer starts at (0, 0) and positions clear of the lower edges by the tolerance, as in the statement (see D20, D30). C113_false shows that the two cells are needed.  C114_complete is the converse (no false alarm)."
  },
  {
   "property": "C115",
   "status": "proved",
   "theorems": [
    "CostMapModel.C115_same",
    "CostMapModel.C115_world",
    "CostMapModel.C115_clear",
    "CostMapModel.C115_false",
    "CostMapModel.C115_false_far",
    "CostMapModel.C115_same_machine",
    "CostMapModel.C115_clear_machine"
   ],
   "note": "Exact arithmetic and the machine. C115_false and C115_false_far show that the copy is needed."
  },
  {
   "property": "C116",
   "status": "proved",
   "theorems": [
    "CostMapModel.C116_fits",
    "CostMapModel.C116_complete",
    "CostMapModel.C116_way",
    "CostMapModel.C116_moved",
    "CostMapModel.C116_false",
    "CostMapModel.C116_fits_machine",
    "CostMapModel.C116_way_machine",
    "CostMapModel.C116_moved_machine",
    "CostMapModel.C116_complete_machine",
    "CostMapModel.C116_complete_moved_machine"
   ],
   "note": "Soundness and completeness of the one-cost check on the inflated layer, along ways, for moved maps through the copy of C115, and on the machine; C116_false shows that the margin is needed (D63). C116_complete_machine: the converse on the machine, with a margin of three cells."
  },
  {
   "property": "C117",
   "status": "proved",
   "theorems": [
    "CostMapModel.C117_again",
    "CostMapModel.C117_twice",
    "CostMapModel.C117_twice_machine",
    "CostMapModel.C117_ros",
    "CostMapModel.C117_false"
   ],
   "note": "The computers are those that give the lethal cost at distance zero only; C117_false shows that this is needed."
  },
  {
   "property": "C118",
   "status": "partial",
   "theorems": [
    "CostMapModel.C118_circle_partial",
    "CostMapModel.C118_polygon",
    "CostMapModel.C118_robot_partial",
    "CostMapModel.C118_grown",
    "CostMapModel.C118_moved",
    "CostMapModel.C118_false_radius",
    "CostMapModel.C118_false_thin",
    "CostMapModel.C118_false_moved",
    "CostMapModel.C118_circle_machine_partial",
    "CostMapModel.C118_polygon_machine_partial",
    "CostMapModel.C118_robot_machine_partial",
    "CostMapModel.C118_moved_machine",
    "CostMapModel.C118_grown_machine"
   ],
   "note": "Proved for polygons on every map, and for circles where the seam of the buffer is not in the box of the circle or through a rebased copy. For circles across the seam the claim is false of the code (D6, D64: C118_false_moved). On the machine: the same for the boxes of C80, for every history of calls, up to the rounding."
  },
  {
   "property": "C119",
   "status": "proved",
   "theorems": [
    "CostMapModel.C119_fits",
    "CostMapModel.C119_complete",
    "CostMapModel.C119_way",
    "CostMapModel.C119_circle",
    "CostMapModel.C119_outside",
    "CostMapModel.C119_false_edge",
    "CostMapModel.C119_fits_machine",
    "CostMapModel.C119_way_machine",
    "CostMapModel.C119_circle_machine",
    "CostMapModel.C119_complete_machine"
   ],
   "note": "In exact arithmetic, for the requests of C26.  On the machine for every map that calls can reach, with a margin of a cell and of a quarter of a cell at the edges of the request. C119_complete_machine: the converse on the machine, with a margin of four cells."
  },
  {
   "property": "C12",
   "status": "proved",
   "theorems": [
    "CostMapModel.C12_regular_grid",
    "CostMapModel.C12_upper_corner",
    "CostMapModel.C12_centres_apart",
    "CostMapModel.C12_cells_tile"
   ],
   "note": "Exact arithmetic."
  },
  {
   "property": "C120",
   "status": "proved",
   "theorems": [
    "CostMapModel.C120_seen",
    "CostMapModel.C120_not_made_up",
    "CostMapModel.C120_fits",
    "CostMapModel.C120_own",
    "CostMapModel.C120_false_coarse",
    "CostMapModel.C120_false_own",
    "CostMapModel.C120_seen_machine_partial",
    "CostMapModel.C120_fits_machine_partial",
    "CostMapModel.C120_from_either",
    "CostMapModel.C120_complete",
    "CostMapModel.C120_from_either_machine_partial",
    "CostMapModel.C120_complete_machine_partial",
    "CostMapModel.C120_own_fits",
    "CostMapModel.C120_own_fits_machine_partial"
   ],
   "note": "For maps whose cells are not larger than those of the other map; for larger cells obstacles are lost (D65, C120_false_coarse), and overwriting loses own obstacles (C120_false_own). Exact arithmetic; on the machine for equal resolutions and grids that agree up to an eighth of a cell (the _partial theorems; other ratios and alignments are missing there). C120_complete and C120_complete_machine_partial: the converse, with margins; the latter for grids of the same resolution that agree up to an eighth of a cell. C120_own_fits: the program that does not overwrite answers \"clear\" only where the robot fits in the map itself; on the machine for grids as above."
  },
  {
   "property": "C121",
   "status": "proved",
   "theorems": [
    "CostMapModel.C121_fits",
    "CostMapModel.C121_complete",
    "CostMapModel.C121_way",
    "CostMapModel.C121_false_moved",
    "CostMapModel.C121_false_centre",
    "CostMapModel.C121_fits_machine",
    "CostMapModel.C121_way_machine",
    "CostMapModel.C121_complete_machine"
   ],
   "note": "For maps whose centre lies on the diagonal and whose centre and resolution survive the text and float; otherwise false (D66, C121_false_centre); saving the moved map itself without the copy is false (C121_false_moved). Exact and machine arithmetic. C121_complete_machine: the converse on the machine, with a margin of three cells."
  },
  {
   "property": "C122",
   "status": "proved",
   "theorems": [
    "CostMapModel.C122_fits",
    "CostMapModel.C122_way",
    "CostMapModel.C122_complete",
    "CostMapModel.C122_fits_machine",
    "CostMapModel.C122_way_machine",
    "CostMapModel.C122_false_edge",
    "CostMapModel.C122_complete_machine"
   ],
   "note": "Exact arithmetic for positions strictly inside the ROS costmap, both directions; machine arithmetic for positions a quarter of a cell inside, sound for a robot larger by half a cell. The edges are excluded by the statement; the witness shows what happens there (D67). C122_complete_machine: the converse on the machine, with a margin of four cells."
  },
  {
   "property": "C123",
   "status": "partial",
   "theorems": [
    "CostMapModel.C123_fits_partial",
    "CostMapModel.C123_complete_partial",
    "CostMapModel.C123_fits_machine_partial",
    "CostMapModel.C123_false_direct",
    "CostMapModel.C123_complete_machine_partial"
   ],
   "note": "Missing, because it is false of the code: buffer starts beyond 16 bits and times beyond 32 bits of seconds, which a message cannot hold (C48_false, C48_late_timestamp_throws); on the machine positions within the tolerance of the lower edges (C74). C123_complete_machine_partial: the converse on the machine, with a margin of three cells."
  },
  {
   "property": "C124",
   "status": "partial",
   "theorems": [
    "CostMapModel.C124_fits_partial",
    "CostMapModel.C124_complete_partial",
    "CostMapModel.C124_moved",
    "CostMapModel.C124_fits_machine_partial",
    "CostMapModel.C124_complete_machine_partial",
    "CostMapModel.C124_moved_machine",
    "CostMapModel.C124_false_moved"
   ],
   "note": "Unmoved maps directly, in exact and machine arithmetic; moved maps after a copy (C124_moved, C124_moved_machine). The direct claim is false of moved maps (C124_false_moved). Borders between cells are left out, since the two conventions differ there."
  },
  {
   "property": "C13",
   "status": "proved",
   "theorems": [
    "CostMapModel.C13_read_containing_cell",
    "CostMapModel.C13_read_throws_iff",
    "CostMapModel.C13_write_by_position",
    "CostMapModel.C13_write_outside"
   ],
   "note": ""
  },
  {
   "property": "C14",
   "status": "proved",
   "theorems": [
    "CostMapModel.C14_start_index_invisible",
    "CostMapModel.C14_rotation_exists"
   ],
   "note": "Reads with nearest interpolation; linear interpolation is C37."
  },
  {
   "property": "C15",
   "status": "proved",
   "theorems": [
    "CostMapModel.C15_visits_every_cell_once",
    "CostMapModel.C15_unwrapped_index",
    "CostMapModel.C15_empty_map_visits_one"
   ],
   "note": "Every map with at least one cell and a start index in range. C15_empty_map_visits_one shows why a map without cells is excluded."
  },
  {
   "property": "C16",
   "status": "proved",
   "theorems": [
    "CostMapModel.C16_visits_exactly_the_submap",
    "CostMapModel.C16_empty_submap_visits_one"
   ],
   "note": "Submaps of positive size that fit. A size without cells still visits one cell."
  },
  {
   "property": "C17",
   "status": "partial",
   "theorems": [
    "CostMapModel.C17_circle_partial",
    "CostMapModel.C17_circle_unmoved_partial",
    "CostMapModel.C17_circle_across_the_seam",
    "CostMapModel.C17_false_across_the_seam",
    "CostMapModel.C17_circle_iff"
   ],
   "note": "Proved when the buffer seam is outside the circle's box (always so for start index zero). Across the seam the claim is false: at most one cell is visited, with a concrete witness. Radius non-negative, corners within 1e14 cells or so (EpsOk). For circles with two or more cells the condition on the seam is also necessary (C17_circle_iff)."
  },
  {
   "property": "C18",
   "status": "partial",
   "theorems": [
    "CostMapModel.C18_ellipse_partial",
    "CostMapModel.C18_ellipse_real_partial",
    "CostMapModel.C18_ellipse_across_the_seam",
    "CostMapModel.C18_false_across_the_seam",
    "CostMapModel.C18_ellipse_iff"
   ],
   "note": "As C17; the real-number instance uses Real.cos, Real.sin and Real.sqrt. Axis lengths non-zero. For ellipses with two or more cells the condition on the seam is also necessary (C18_ellipse_iff)."
  },
  {
   "property": "C19",
   "status": "proved",
   "theorems": [
    "CostMapModel.C19_polygon",
    "CostMapModel.C19_no_vertex_is_ub"
   ],
   "note": "Every polygon with at least one vertex whose vertices are within the range where the guard margin of grid_map is below one cell (EpsOk), every start index. Inside means the even-odd rule."
  },
  {
   "property": "C20",
   "status": "proved",
   "theorems": [
    "CostMapModel.C20_line",
    "CostMapModel.C20_line_stays_in_range"
   ],
   "note": "Bresenham state machine: number of cells, endpoints, neighbours and distance to the ideal line, for every pair of indices"
  },
  {
   "property": "C21",
   "status": "partial",
   "theorems": [
    "CostMapModel.C21_search_terminates",
    "CostMapModel.C21_both_inside",
    "CostMapModel.C21_cells_on_segment",
    "CostMapModel.C21_search_succeeds",
    "CostMapModel.C21_missing_segment_is_ub",
    "CostMapModel.C21_false_for_short_lines_from_outside"
   ],
   "note": "The search ends, and the ends found are on the segment; that a segment which meets the map is always found is false (D20), and one that misses it reads uninitialised counters (D8)"
  },
  {
   "property": "C22",
   "status": "proved",
   "theorems": [
    "CostMapModel.C22_ring_is_annulus",
    "CostMapModel.C22_rings_partition"
   ],
   "note": "Every ring d >= 1 is walked exactly once round"
  },
  {
   "property": "C23",
   "status": "partial",
   "theorems": [
    "CostMapModel.C23_spiral_partial",
    "CostMapModel.C23_spiral_fits_partial",
    "CostMapModel.C23_ends_iff",
    "CostMapModel.C23_false_on_small_map",
    "CostMapModel.C23_false_on_moved_map",
    "CostMapModel.C23_outside_centre_never_ends"
   ],
   "note": "Proved for maps that were not moved when every ring before the last has a cell (which is exactly when the loop ends normally, C23_ends_iff), in particular for circles inside the map; false otherwise, with witnesses (D7)"
  },
  {
   "property": "C24",
   "status": "partial",
   "theorems": [
    "CostMapModel.C24_value_copies_independent_partial",
    "CostMapModel.C24_value_copy_yields_the_same",
    "CostMapModel.C24_ne_compares_cells_partial",
    "CostMapModel.C24_shapes_without_copies_partial",
    "CostMapModel.C24_shared_copies_advance_together",
    "CostMapModel.C24_spiral_ne_is_always_false",
    "CostMapModel.C24_false",
    "CostMapModel.C24_ne_false"
   ],
   "note": "True of the iterators held by value (all programs); false of the circle, ellipse and polygon iterators, whose copies share their position, and of the spiral iterator's !=."
  },
  {
   "property": "C25",
   "status": "proved",
   "theorems": [
    "CostMapModel.C25_submap_reads_like_parent"
   ],
   "note": ""
  },
  {
   "property": "C26",
   "status": "proved",
   "theorems": [
    "CostMapModel.C26_submap_aligned",
    "CostMapModel.C26_submap_covers_request",
    "CostMapModel.C26_submap_succeeds",
    "CostMapModel.C26_outside_fails"
   ],
   "note": "The covering and success parts assume the request's corners are close enough that grid_map's guard margin (10 epsilon) is below a cell (RequestOk)."
  },
  {
   "property": "C27",
   "status": "partial",
   "theorems": [
    "CostMapModel.C27_requested_index_partial",
    "CostMapModel.C27_index_is_never_written",
    "CostMapModel.C27_false"
   ],
   "note": "False of the code: getSubmap never writes indexInSubmap. SubmapGeometry's own requested index is right."
  },
  {
   "property": "C28",
   "status": "proved",
   "theorems": [
    "CostMapModel.C28_regions_partition",
    "CostMapModel.C28_no_regions"
   ],
   "note": ""
  },
  {
   "property": "C29",
   "status": "partial",
   "theorems": [
    "CostMapModel.C29_wrapping_move_keeps_data",
    "CostMapModel.C29_move_keeps_data_partial",
    "CostMapModel.C29_false_across_the_seam",
    "CostMapModel.C29_data_kept_iff"
   ],
   "note": "Holds for every move when boundIndexToRange wraps. With the clamping function of grid_map_core >= 1.5 it is proved for moves whose start index does not cross the buffer border, and refuted otherwise. The condition is the best possible (C29_data_kept_iff)."
  },
  {
   "property": "C30",
   "status": "partial",
   "theorems": [
    "CostMapModel.C30_wrapping_move_exposes_unknown",
    "CostMapModel.C30_move_exposes_unknown_partial",
    "CostMapModel.C30_regions_partial",
    "CostMapModel.C30_false_across_the_seam",
    "CostMapModel.C30_exposes_unknown_iff"
   ],
   "note": "As C29: for every move with a wrapping index function; with clamping only where the start index does not cross the border, with a counterexample. The regions claim is proved for the moves that do not cross the border. C30_exposes_unknown_iff gives the exact condition: the start index does not run past the upper end of the buffer, or the whole map is dropped."
  },
  {
   "property": "C31",
   "status": "proved",
   "theorems": [
    "CostMapModel.C31_move_translates",
    "CostMapModel.C31_missing_basic_layer_throws",
    "CostMapModel.C31_missing_basic_layer"
   ],
   "note": "For every index bounding function that stays in range; every basic layer must exist, otherwise move throws after clearing and without moving (second theorem). C31_missing_basic_layer says for every map when a missing basic layer makes move throw and what it has changed by then."
  },
  {
   "property": "C32",
   "status": "partial",
   "theorems": [
    "CostMapModel.C32_wrapping_history_is_world_grid",
    "CostMapModel.C32_history_is_world_grid_partial",
    "CostMapModel.C32_false_across_the_seam"
   ],
   "note": "Every history for the wrapping index function; seamless histories for the clamping one, counterexample otherwise."
  },
  {
   "property": "C33",
   "status": "proved",
   "theorems": [
    "CostMapModel.C33_merges_cell_by_cell",
    "CostMapModel.C33_extension_then_merge",
    "CostMapModel.C33_all_layers",
    "CostMapModel.C33_missing_layer_throws",
    "CostMapModel.C33_missing_layer"
   ],
   "note": " C33_missing_layer says for every map what a layer the other map lacks does: it throws at the first cell that would be written, having changed no other cell, and is ignored if there is no such cell."
  },
  {
   "property": "C34",
   "status": "partial",
   "theorems": [
    "CostMapModel.C34_valid_cells_are_kept_partial",
    "CostMapModel.C34_single_basic_layer",
    "CostMapModel.C34_with_extension",
    "CostMapModel.C34_false",
    "CostMapModel.C34_kept_iff"
   ],
   "note": "Holds with at least one basic layer. With none (C34_false) every cell counts as invalid and data is overwritten. C34_kept_iff says exactly which costs stay."
  },
  {
   "property": "C35",
   "status": "partial",
   "theorems": [
    "CostMapModel.C35_covers_both_partial",
    "CostMapModel.C35_false",
    "CostMapModel.C35_false_unaligned",
    "CostMapModel.C35_covers_both_iff"
   ],
   "note": "Proved where the extension is a whole, parity-compatible number of cells. False for odd extensions downwards and for unaligned maps. For maps that stick out by whole cells the condition is exact (C35_covers_both_iff)."
  },
  {
   "property": "C36",
   "status": "partial",
   "theorems": [
    "CostMapModel.C36_data_stays_partial",
    "CostMapModel.C36_old_extent_kept_iff",
    "CostMapModel.C36_false",
    "CostMapModel.C36_missing_basic_layer_loses_data"
   ],
   "note": "Data stays where the old extent is kept, and C36_old_extent_kept_iff says exactly when that is. C36_false is the counterexample."
  },
  {
   "property": "C37",
   "status": "partial",
   "theorems": [
    "CostMapModel.C37_blend_partial",
    "CostMapModel.C37_blend_unmoved",
    "CostMapModel.C37_fallback_unmoved",
    "CostMapModel.C37_at_centre",
    "CostMapModel.C37_other_methods",
    "CostMapModel.C37_false",
    "CostMapModel.C37_false_neighbour_missed",
    "CostMapModel.C37_outside_is_undefined",
    "CostMapModel.C37_outside_unmoved",
    "CostMapModel.C37_false_extrapolates"
   ],
   "note": "Proved on unmoved maps and away from the buffer seam, given a solver that finds existing solutions. False across the seam; undefined outside the map. Outside an unmoved map C37_outside_unmoved says exactly where the outcome is out_of_range and where it is undefined; outside a moved map the costs are extrapolated (C37_false_extrapolates)."
  },
  {
   "property": "C38",
   "status": "proved",
   "theorems": [
    "CostMapModel.C38_only_near_obstacles"
   ],
   "note": "For every priority queue meeting the std::priority_queue contract and every hypot that compares with whole numbers as the exact one does."
  },
  {
   "property": "C39",
   "status": "proved",
   "theorems": [
    "CostMapModel.C39_never_hides_an_obstacle"
   ],
   "note": ""
  },
  {
   "property": "C40",
   "status": "proved",
   "theorems": [
    "CostMapModel.C40_terminates_in_bounds"
   ],
   "note": ""
  },
  {
   "property": "C41",
   "status": "proved",
   "theorems": [
    "CostMapModel.C41_manhattan_range"
   ],
   "note": ""
  },
  {
   "property": "C42",
   "status": "partial",
   "theorems": [
    "CostMapModel.C42_isolated_obstacle_partial",
    "CostMapModel.C42_clear_path_partial",
    "CostMapModel.C42_false"
   ],
   "note": "The claim is false (C42_false: a cell in range is missed for every queue order). Proved for obstacles whose disks overlap no other disk, and, with overlapping disks, for every cell that can be reached from an obstacle by steps away from it over cells to which that obstacle is clearly the nearest one. Missing: cells near the border between two obstacles and behind it."
  },
  {
   "property": "C43",
   "status": "partial",
   "theorems": [
    "CostMapModel.C43_reuse_partial",
    "CostMapModel.C43_stale_costs",
    "CostMapModel.C43_false",
    "CostMapModel.C43_history",
    "CostMapModel.C43_reuse_iff"
   ],
   "note": "The claim is false when the radius in cells is unchanged but computer or resolution changed (stale caches). Proved for the other histories. C43_history says what a call does after every history of calls, and C43_reuse_iff exactly when that is what a new object does."
  },
  {
   "property": "C44",
   "status": "proved",
   "theorems": [
    "CostMapModel.C44_in_place"
   ],
   "note": ""
  },
  {
   "property": "C45",
   "status": "proved",
   "theorems": [
    "CostMapModel.C45_ros_cost_curve",
    "CostMapModel.C45_negative_weight"
   ],
   "note": "For any monotone roundings and exponential."
  },
  {
   "property": "C46",
   "status": "proved",
   "theorems": [
    "CostMapModel.C46_deflate",
    "CostMapModel.C46_deflate_twice"
   ],
   "note": ""
  },
  {
   "property": "C47",
   "status": "partial",
   "theorems": [
    "CostMapModel.C47_deflate_undoes_inflate_partial",
    "CostMapModel.C47_false",
    "CostMapModel.C47_false_keeping_inscribed",
    "CostMapModel.C47_restored_iff"
   ],
   "note": "False for unknown cells that receive an inscribed cost and when the inscribed region is kept; proved otherwise. C47_restored_iff says exactly which cells are restored."
  },
  {
   "property": "C48",
   "status": "partial",
   "theorems": [
    "CostMapModel.C48_message_round_trip_partial",
    "CostMapModel.C48_late_timestamp_throws",
    "CostMapModel.C48_false",
    "CostMapModel.C48_round_trip_iff"
   ],
   "note": "Proved for start indices below 2^16, timestamps below 2^32 seconds and sizes below 2^31. Beyond 16 bits the start index is lost (C48_false); later timestamps throw (C48_late_timestamp_throws). The bounds on start index and timestamp are exact (C48_round_trip_iff)."
  },
  {
   "property": "C49",
   "status": "partial",
   "theorems": [
    "CostMapModel.C49_from_message_partial",
    "CostMapModel.C49_into_empty_map",
    "CostMapModel.C49_false_return_destroys",
    "CostMapModel.C49_false",
    "CostMapModel.C49_false_changes_map",
    "CostMapModel.C49_replaces_iff"
   ],
   "note": "After true every layer of the message is there with its data, and for a map without layers exactly those. False in general: other layers survive (C49_false); a false return has already destroyed the map (C49_false_return_destroys, C49_false_changes_map). C49_replaces_iff says exactly when the map ends up with just the layers of the message."
  },
  {
   "property": "C50",
   "status": "partial",
   "theorems": [
    "CostMapModel.C50_returns_iff_partial",
    "CostMapModel.C50_bad_geometry_asserts",
    "CostMapModel.C50_false"
   ],
   "note": "Exact characterisation of the messages for which fromMessage returns; the others stop the process on an assertion or are undefined (C50_bad_geometry_asserts, C50_false)."
  },
  {
   "property": "C51",
   "status": "partial",
   "theorems": [
    "CostMapModel.C51_placed_by_position_partial",
    "CostMapModel.C51_placed_by_centre_partial",
    "CostMapModel.C51_header",
    "CostMapModel.C51_start_index_is_ignored",
    "CostMapModel.C51_false",
    "CostMapModel.C51_placed_iff"
   ],
   "note": "Proved for maps whose start index is zero: at every position strictly inside a cell when the resolution is a float32, and at every cell centre with float32 rounding of the resolution for sizes below 2^23. The start index is ignored (C51_start_index_is_ignored), so the claim is false for moved maps (C51_false). Start index zero is also necessary (C51_placed_iff)."
  },
  {
   "property": "C52",
   "status": "proved",
   "theorems": [
    "CostMapModel.C52_values",
    "CostMapModel.C52_missing_layer"
   ],
   "note": "The translation is computed with binary32 rounding; all 256 costs."
  },
  {
   "property": "C53",
   "status": "partial",
   "theorems": [
    "CostMapModel.C53_to_grid_map_partial",
    "CostMapModel.C53_start_index_is_ignored",
    "CostMapModel.C53_false",
    "CostMapModel.C53_grid_map_iff"
   ],
   "note": "Proved for maps whose start index is zero; the value is 100*cost/255 up to float rounding (within 1/200000, strictly increasing). The start index is ignored (C53_start_index_is_ignored), so the claim is false for moved maps (C53_false). Start index zero is also necessary (C53_grid_map_iff)."
  },
  {
   "property": "C54",
   "status": "proved",
   "theorems": [
    "CostMapModel.C54_image_layer",
    "CostMapModel.C54_gray_costs",
    "CostMapModel.C54_unreadable_unchanged",
    "CostMapModel.C54_wrong_size"
   ],
   "note": "OpenCV's colour to gray conversion is a parameter. With a wrong size an existing layer is wiped although false is returned."
  },
  {
   "property": "C55",
   "status": "partial",
   "theorems": [
    "CostMapModel.C55_image16_layer_partial",
    "CostMapModel.C55_gray_costs",
    "CostMapModel.C55_little_endian_swaps",
    "CostMapModel.C55_false",
    "CostMapModel.C55_not_antitone"
   ],
   "note": "Proved on big-endian machines. On little-endian machines the two bytes of every gray value are exchanged and the claim is false."
  },
  {
   "property": "C56",
   "status": "partial",
   "theorems": [
    "CostMapModel.C56_bundle_metadata_partial",
    "CostMapModel.C56_bad_file_throws",
    "CostMapModel.C56_false"
   ],
   "note": "The y coordinate of the centre is not restored (x is saved in its place); everything else is, for sizes below 2^23."
  },
  {
   "property": "C57",
   "status": "partial",
   "theorems": [
    "CostMapModel.C57_costs_by_index",
    "CostMapModel.C57_costs_by_position_partial",
    "CostMapModel.C57_false",
    "CostMapModel.C57_costs_by_position_iff"
   ],
   "note": "Proved for every map and cost cell by cell in terms of indices. In terms of positions it fails on moved maps because the start index is dropped. Start index zero is also necessary (C57_costs_by_position_iff)."
  },
  {
   "property": "C58",
   "status": "proved",
   "theorems": [
    "CostMapModel.C58_finished_is_final",
    "CostMapModel.C58_saves_first_good_message_once"
   ],
   "note": "For every sequence of messages. A message that neither converts nor is refused (assertion, exception) stops the node with nothing written."
  },
  {
   "property": "C59",
   "status": "partial",
   "theorems": [
    "CostMapModel.C59_success_partial",
    "CostMapModel.C59_failure_is_answered_with_success",
    "CostMapModel.C59_no_pose_stops_the_relay",
    "CostMapModel.C59_off_the_costmap_ends_the_relay",
    "CostMapModel.C59_false"
   ],
   "note": "The property is false: the result of the conversion is not used (D18). The partial theorem covers successful conversions."
  },
  {
   "property": "C60",
   "status": "partial",
   "theorems": [
    "CostMapModel.C60_resolve_partial",
    "CostMapModel.C60_false"
   ],
   "note": "The first registered file in which both parts occur is returned; that it belongs to the named package is false (D25)."
  },
  {
   "property": "C61",
   "status": "partial",
   "theorems": [
    "CostMapModel.C61_end_is_last_cell_partial",
    "CostMapModel.C61_end_is_not_the_last_cell",
    "CostMapModel.C61_end_is_last_cell_iff"
   ],
   "note": "Proved for start index zero; false for a rotated buffer, with a concrete witness. Start index zero is also necessary (C61_end_is_last_cell_iff)."
  },
  {
   "property": "C62",
   "status": "partial",
   "theorems": [
    "CostMapModel.C62_line_is_connected_partial",
    "CostMapModel.C62_false_on_moved_map",
    "CostMapModel.C62_lines_connected_iff"
   ],
   "note": "Proved for maps with start index 0; false on a moved map (D20) C62_lines_connected_iff gives the exact condition: on each axis not rotated, or at most two lines."
  },
  {
   "property": "C63",
   "status": "partial",
   "theorems": [
    "CostMapModel.C63_within_partial",
    "CostMapModel.C63_false_inner_rings"
   ],
   "note": "The visited cells are within radius + resolution; within the radius is false (D7)"
  },
  {
   "property": "C64",
   "status": "proved",
   "theorems": [
    "CostMapModel.C64_from_ros_costmap"
   ],
   "note": "grid_map_costmap_2d and costmap_2d are modelled from their documented behaviour (trusted base)."
  },
  {
   "property": "C65",
   "status": "partial",
   "theorems": [
    "CostMapModel.C65_window_partial",
    "CostMapModel.C65_no_pose",
    "CostMapModel.C65_off_the_costmap",
    "CostMapModel.C65_false"
   ],
   "note": "Proved for lengths that are whole cells and windows at least half a cell inside the costmap; false for other lengths (D24)."
  },
  {
   "property": "C66",
   "status": "partial",
   "theorems": [
    "CostMapModel.C66_relay_partial",
    "CostMapModel.C66_single_layer",
    "CostMapModel.C66_false",
    "CostMapModel.C66_relay_exact"
   ],
   "note": "Proved when every map has the layer that was asked for; false in general (D26). C66_relay_exact says what the relay does with every sequence of maps: which layer is shown, and where it stops."
  },
  {
   "property": "C67",
   "status": "partial",
   "theorems": [
    "CostMapModel.C67_visualiser_partial",
    "CostMapModel.C67_refused_message_ends_the_node",
    "CostMapModel.C67_false",
    "CostMapModel.C67_visualiser_exact"
   ],
   "note": "Proved for every sequence of maps; that refused messages are skipped is false (D27). C67_visualiser_exact also covers messages without layers and what is left after a refused message."
  },
  {
   "property": "C68",
   "status": "partial",
   "theorems": [
    "CostMapModel.C68_interrupted_save_partial",
    "CostMapModel.C68_states_end",
    "CostMapModel.C68_false",
    "CostMapModel.C68_mixtures_partial"
   ],
   "note": "Proved for directories without images of the map's layers; false over an earlier save (D28). C68_mixtures_partial describes every state of a save over any earlier directory, and shows that each such mixture occurs."
  },
  {
   "property": "C69",
   "status": "partial",
   "theorems": [
    "CostMapModel.C69_save_then_load_partial"
   ],
   "note": "Proved without the centre (D2) and by index instead of position (D4); C56_false and C57_false apply."
  },
  {
   "property": "C70",
   "status": "proved",
   "theorems": [
    "CostMapModel.C70_load_any_bundle"
   ],
   "note": "Sizes below 2^23 cells per axis (float rounding of the lengths)."
  },
  {
   "property": "C71",
   "status": "proved",
   "theorems": [
    "CostMapModel.C71_geometry",
    "CostMapModel.C71_no_geometry",
    "CostMapModel.C71_hypothesis_needed"
   ],
   "note": "Same histories; the calls ask for at least half a cell and for a start index inside of the buffer. C71_hypothesis_needed shows a shorter length leaves a map without cells."
  },
  {
   "property": "C72",
   "status": "proved",
   "theorems": [
    "CostMapModel.C72_calls",
    "CostMapModel.C72_queries",
    "CostMapModel.C72_geometry_needed",
    "CostMapModel.C72_index_needed",
    "CostMapModel.C72_message_needed"
   ],
   "note": "Ranges over every history of modelled calls. Call.Safe lists the preconditions; the _needed theorems show that calls without them are undefined. Failed assertions count as defined outcomes: with NDEBUG they would go on."
  },
  {
   "property": "C73",
   "status": "proved",
   "theorems": [
    "CostMapModel.C73_exact_arithmetic",
    "CostMapModel.C73_double",
    "CostMapModel.C73_round_trip",
    "CostMapModel.C73_centre",
    "CostMapModel.C73_geometry"
   ],
   "note": "In rounded arithmetic; C73_exact_arithmetic ties the rounded functions to the exact model."
  },
  {
   "property": "C74",
   "status": "partial",
   "theorems": [
    "CostMapModel.C74_inside",
    "CostMapModel.C74_containing_cell_partial",
    "CostMapModel.C74_interior_of_cell",
    "CostMapModel.C74_one_past_at_most",
    "CostMapModel.C74_false_out_of_range",
    "CostMapModel.C74_false_opposite_edge"
   ],
   "note": "False at the lower borders (D30, binary64 witnesses); proved for positions the tolerance away from them, and exactly that cell for positions the tolerance inside its square."
  },
  {
   "property": "C75",
   "status": "partial",
   "theorems": [
    "CostMapModel.C75_centre_drift",
    "CostMapModel.C75_data_drift_partial",
    "CostMapModel.C75_code_data_drift_partial"
   ],
   "note": "The centre for every sequence of moves; the data for moves that wrap buffer indices, and for the code as long as the start index stays in the buffer (the code clamps, D1)."
  },
  {
   "property": "C76",
   "status": "proved",
   "theorems": [
    "CostMapModel.C76_merges_cell_by_cell",
    "CostMapModel.C76_exact_arithmetic"
   ],
   "note": ""
  },
  {
   "property": "C77",
   "status": "partial",
   "theorems": [
    "CostMapModel.C77_data_stays",
    "CostMapModel.C77_covers_both_partial",
    "CostMapModel.C77_still_on_grid",
    "CostMapModel.C77_extension_then_merge",
    "CostMapModel.C77_false_downwards",
    "CostMapModel.C77_false_odd"
   ],
   "note": "The data stays for every other map. Covering both maps is proved when the map grows by an even number of cells more above than below, and false otherwise (D31, binary64 witnesses)."
  },
  {
   "property": "C78",
   "status": "partial",
   "theorems": [
    "CostMapModel.C78_exact_arithmetic",
    "CostMapModel.C78_submap_partial",
    "CostMapModel.C78_false_whole_map",
    "CostMapModel.C78_false_sticking_out"
   ],
   "note": "Proved for any rounding of relative error 2^-53 when the corners of the request are two tolerances inside the map or one outside and the guard margin fits. False of the code for corners on the border and near the origin of the frame (D32)."
  },
  {
   "property": "C79",
   "status": "partial",
   "theorems": [
    "CostMapModel.C79_getIndex",
    "CostMapModel.C79_getPosition",
    "CostMapModel.C79_access",
    "CostMapModel.C79_inside_near",
    "CostMapModel.C79_round_trip",
    "CostMapModel.C79_setGeometry",
    "CostMapModel.C79_move",
    "CostMapModel.C79_iterate",
    "CostMapModel.C79_iterate_submap",
    "CostMapModel.C79_line",
    "CostMapModel.C79_submap",
    "CostMapModel.C79_false_far_away",
    "CostMapModel.C79_false_far_move",
    "CostMapModel.C79_false_huge_geometry",
    "CostMapModel.C79_false_huge_buffer",
    "CostMapModel.C79_false_long_line",
    "CostMapModel.C79_circle",
    "CostMapModel.C79_ellipse",
    "CostMapModel.C79_polygon",
    "CostMapModel.C79_getSubmap",
    "CostMapModel.C79_addDataFrom",
    "CostMapModel.C79_extendToInclude",
    "CostMapModel.C79_addDataFrom_extended",
    "CostMapModel.C79_false_far_extension",
    "CostMapModel.C79_interpolation"
   ],
   "note": "No overflow within the stated limits, and agreement with the unbounded functions there. The last clause is false of the code: more than 2^31 cells away atPosition is undefined behaviour (D33). getSubmap and the circle, ellipse and polygon iterators agree with their unbounded versions too, for the requests and boxes of C78 and C80. addDataFrom, extendToInclude and interpolated access agree with the functions of C76, C77 and C92."
  },
  {
   "property": "C80",
   "status": "partial",
   "theorems": [
    "CostMapModel.C80_exact_arithmetic",
    "CostMapModel.C80_circle_unmoved_partial",
    "CostMapModel.C80_circle_partial",
    "CostMapModel.C80_ellipse_unmoved_partial",
    "CostMapModel.C80_ellipse_partial",
    "CostMapModel.C80_polygon_partial",
    "CostMapModel.C80_false_at_the_border"
   ],
   "note": "Proved when the corners of the bounding box are well inside or well outside of the map (and, for circle and ellipse, the seam of the buffer is not in the box, see C17). Missing: boxes with a corner near the border of the map, or outside of it near the origin of the frame, where C80_false_at_the_border is a counterexample (D34)."
  },
  {
   "property": "C81",
   "status": "partial",
   "theorems": [
    "CostMapModel.C81_double",
    "CostMapModel.C81_norm",
    "CostMapModel.C81_spiral_partial",
    "CostMapModel.C81_spiral_room_partial",
    "CostMapModel.C81_current_radius_partial",
    "CostMapModel.C81_ends_iff",
    "CostMapModel.C81_false_on_whole_cells",
    "CostMapModel.C81_false_current_radius"
   ],
   "note": "Proved for maps that were not moved (see C23), with room around the circle and a radius that is not a whole number of cells up to rounding, otherwise false (D35); the current radius for at most 46000 rings, false beyond 46340 (D36). C81_ends_iff says exactly when the loop ends normally."
  },
  {
   "property": "C82",
   "status": "proved",
   "theorems": [
    "CostMapModel.C82_fill",
    "CostMapModel.C82_increasing",
    "CostMapModel.C82_increasing_iff",
    "CostMapModel.C82_increasing_iff_exact",
    "CostMapModel.C82_too_narrow",
    "CostMapModel.C82_converted",
    "CostMapModel.C82_print_ok",
    "CostMapModel.C82_print_injective"
   ],
   "note": "C82_increasing_iff and C82_too_narrow delimit what the header promises (D37)."
  },
  {
   "property": "C83",
   "status": "proved",
   "theorems": [
    "CostMapModel.Broadcaster.C83_safe_iff",
    "CostMapModel.Broadcaster.C83_sent",
    "CostMapModel.Broadcaster.C83_quiet_when_gone",
    "CostMapModel.Broadcaster.C83_destructor_returns",
    "CostMapModel.Broadcaster.C83_destructor_hangs",
    "CostMapModel.Broadcaster.C83_demo_safe",
    "CostMapModel.Broadcaster.C83_demo_ends"
   ],
   "note": "Sequentially consistent interleavings; the unsafe orders of calls are characterised by C83_safe_iff (D38)."
  },
  {
   "property": "C84",
   "status": "proved",
   "theorems": [
    "CostMapModel.Locking.C84_steps",
    "CostMapModel.Locking.C84_one_state",
    "CostMapModel.Locking.C84_mutual_exclusion",
    "CostMapModel.Locking.C84_all_return",
    "CostMapModel.Locking.C84_false_without_lock"
   ],
   "note": "C84_false_without_lock shows that the lock is needed, also in the updating threads (D39)."
  },
  {
   "property": "C85",
   "status": "proved",
   "theorems": [
    "CostMapModel.C85_computer",
    "CostMapModel.C85_inflations",
    "CostMapModel.C85_failure"
   ],
   "note": "Maps whose metadata is unusable (no cells, resolution not positive) fail an assertion, see C70; infinite or NaN metadata is not modelled."
  },
  {
   "property": "C86",
   "status": "proved",
   "theorems": [
    "CostMapModel.C86_from_ros",
    "CostMapModel.C86_undefined_without_pose"
   ],
   "note": "Windows that do not fit are the subject of C65."
  },
  {
   "property": "C87",
   "status": "partial",
   "theorems": [
    "CostMapModel.C87_save_tool",
    "CostMapModel.C87_success_partial",
    "CostMapModel.C87_only_the_newest",
    "CostMapModel.C87_false",
    "CostMapModel.C87_false_disk"
   ],
   "note": "C87_save_tool is a complete description for every history and disk. The claim that success means a saved bundle is false: shutting ROS down before a map arrives gives exit code 0 with nothing saved (C87_false), and so does a disk that cannot be written, since the results of ofstream and imwrite are not looked at (C87_false_disk). C87_success_partial excludes both."
  },
  {
   "property": "C88",
   "status": "proved",
   "theorems": [
    "CostMapModel.C88_load_tool",
    "CostMapModel.C88_exit_code",
    "CostMapModel.C88_failure"
   ],
   "note": "Latching, as ROS does it, is assumed."
  },
  {
   "property": "C89",
   "status": "partial",
   "theorems": [
    "CostMapModel.C89_not_found",
    "CostMapModel.C89_relay_partial",
    "CostMapModel.C89_silent_after_loss",
    "CostMapModel.C89_false",
    "CostMapModel.C89_relay_exact"
   ],
   "note": "False for restarts: the client is persistent and is not created again after its connection is lost, so all later calls fail, and the loop spins without sleeping (C89_silent_after_loss). C89_relay_partial covers histories without loss in which every map has the requested layer (see C66 for the other maps). C89_relay_exact says what is relayed for every history of the service."
  },
  {
   "property": "C90",
   "status": "partial",
   "theorems": [
    "CostMapModel.C90_inside_number",
    "CostMapModel.C90_inside_same",
    "CostMapModel.C90_index_undefined",
    "CostMapModel.C90_index_partial",
    "CostMapModel.C90_access_partial",
    "CostMapModel.C90_move_undefined",
    "CostMapModel.C90_move_partial",
    "CostMapModel.C90_setGeometry_nan",
    "CostMapModel.C90_setGeometry_infinite",
    "CostMapModel.C90_setGeometry_resolution",
    "CostMapModel.C90_setGeometry_position",
    "CostMapModel.C90_setGeometry_partial",
    "CostMapModel.C90_message_nan",
    "CostMapModel.C90_message_infinite",
    "CostMapModel.C90_message_position",
    "CostMapModel.C90_false_access",
    "CostMapModel.C90_false_geometry"
   ],
   "note": "isInside is right about every double. The rest of the claim is false: reading, writing and moving have undefined behaviour for NaN and infinities (for every map), and setGeometry and fromMessage accept some of them; the theorems say exactly what happens. For numbers up to an eighth of the overflow bound the functions agree with those of C79."
  },
  {
   "property": "C91",
   "status": "partial",
   "theorems": [
    "CostMapModel.C91_hypot",
    "CostMapModel.C91_same",
    "CostMapModel.C91_reach",
    "CostMapModel.C91_covers",
    "CostMapModel.C91_distance",
    "CostMapModel.C91_inscribed_partial",
    "CostMapModel.C91_false_radius",
    "CostMapModel.C91_false_inscribed",
    "CostMapModel.C91_false_reach"
   ],
   "note": "As stated it is false of the code (D44). Proved: with the radius rounded (relative error 2^-53) no cell further away than that radius plus one cell is changed, cells within the radius along rows and columns are inflated, the distance has a relative error of at most 2^-22, and the inscribed region is right except in a band of relative width 2^-22 around the radius; the float square root compares as the exact one exactly for radii below 4096 cells. Missing: what is reached with radii of 4096 cells or more, NaN and overflow."
  },
  {
   "property": "C92",
   "status": "partial",
   "theorems": [
    "CostMapModel.C92_exact_arithmetic",
    "CostMapModel.C92_blend_partial",
    "CostMapModel.C92_at_centre_partial",
    "CostMapModel.C92_fallback",
    "CostMapModel.C92_false_far",
    "CostMapModel.C92_false_centre"
   ],
   "note": "Proved on maps within 2^14 cells of the origin of their frame: the error is less than a sixteenth, so the result is at most the maximum and at least the minimum less one. That nothing is lost is false: a cell that holds 50 reads 49 at its centre (C92_false_centre, D45). Far from the origin the claim is false: in UTM coordinates 100 reads 104, and reading an obstacle is undefined behaviour (C92_false_far, D45). The solver is a parameter with an assumed error bound (SolveStable)."
  },
  {
   "property": "C93",
   "status": "partial",
   "theorems": [
    "CostMapModel.C93_ends_partial",
    "CostMapModel.C93_both_inside",
    "CostMapModel.C93_double",
    "CostMapModel.C93_false",
    "CostMapModel.C93_false_far"
   ],
   "note": "Proved for positions that coincide or are a quarter of a cell apart along an axis, at most 2^28 cells from the map, with length times coordinates at most 2^44 square cells: the constructor ends, the cells found are those of positions within a sixteenth of a cell of the segment, and a segment that crosses the map for four cells is found. Two positions in the map: no condition on their distance. Missing: nearly equal positions outside of the map, for which the claim is false (the search does not end, C93_false), and positions too far away, for which it is false as well (C93_false_far). binary64 meets the assumptions (C93_double)."
  },
  {
   "property": "C94",
   "status": "partial",
   "theorems": [
    "CostMapModel.C94_same_partial",
    "CostMapModel.C94_reach_partial",
    "CostMapModel.C94_covers_partial",
    "CostMapModel.C94_no_number",
    "CostMapModel.C94_false_nan",
    "CostMapModel.C94_false_infinite",
    "CostMapModel.C94_false_huge"
   ],
   "note": "Radii of fewer than 2^32 - 2 cells: equal to the run with unbounded integers, hence C91, after any earlier calls. False of NaN (counts as zero, silently), of infinity and of 2^32 cells or more (undefined behaviour)."
  },
  {
   "property": "C95",
   "status": "partial",
   "theorems": [
    "CostMapModel.C95_message_round_trip_partial",
    "CostMapModel.C95_load_bundle_partial",
    "CostMapModel.C95_bundle_round_trip_partial",
    "CostMapModel.C95_to_grid_map_partial",
    "CostMapModel.C95_occupancy_partial",
    "CostMapModel.C95_occupancy_centres_partial",
    "CostMapModel.C95_bundle_false",
    "CostMapModel.C95_occupancy_false"
   ],
   "note": "Proved with the bounds of C48 for messages, for bundles of fewer than 2^23 cells a side, for maps whose buffer starts at zero (grid maps and occupancy grids, see C53 and C51), and for positions further from a cell border than the tolerance in occupancy grids. False beyond (D48): C95_bundle_false, C95_occupancy_false."
  },
  {
   "property": "C96",
   "status": "partial",
   "theorems": [
    "CostMapModel.C96_whole_partial",
    "CostMapModel.C96_window_partial",
    "CostMapModel.C96_window_exact_partial",
    "CostMapModel.C96_double_grid",
    "CostMapModel.C96_false_whole",
    "CostMapModel.C96_false_no_layer",
    "CostMapModel.C96_false_shifted",
    "CostMapModel.C96_false_parity"
   ],
   "note": "whole costmaps: geometry and costs at every position further from a border than the rounding errors; windows, for any pose and length: geometry, centre, and costs from cells displaced by at most one cell; exact on grids of multiples of a power of two. False without these conditions, with witnesses in double (D49). The external libraries are modelled from knowledge of them."
  },
  {
   "property": "C97",
   "status": "partial",
   "theorems": [
    "CostMapModel.C97_outcomes",
    "CostMapModel.C97_missing_key",
    "CostMapModel.C97_bad_value_partial",
    "CostMapModel.C97_bad_layer",
    "CostMapModel.C97_infinite_resolution",
    "CostMapModel.C97_load_partial",
    "CostMapModel.C97_gray_partial",
    "CostMapModel.C97_right_half_ignored",
    "CostMapModel.C97_false_logic_error",
    "CostMapModel.C97_false_abort",
    "CostMapModel.C97_false_undefined",
    "CostMapModel.C97_false_nan",
    "CostMapModel.C97_false_16_bits"
   ],
   "note": "every outcome for every file (C97_outcomes), which files give a std::logic_error, and valid files of 8 bits load as they say. Missing: the claim is false for files that give a std::runtime_error, an abort or undefined behaviour, for NaN and for 16-bit images, with witnesses (D50)."
  },
  {
   "property": "C98",
   "status": "partial",
   "theorems": [
    "CostMapModel.C98_complete",
    "CostMapModel.C98_cut_says",
    "CostMapModel.C98_cut_partial",
    "CostMapModel.C98_false_size",
    "CostMapModel.C98_false_layers"
   ],
   "note": "what a file that ends early can say, and that loading rejects it or gives exactly that. Missing: the claim is false when the file ends in the number of cells along y or in the layers, with witnesses (D51)."
  },
  {
   "property": "C99",
   "status": "partial",
   "theorems": [
    "CostMapModel.C99_cost",
    "CostMapModel.C99_decreasing",
    "CostMapModel.C99_nan",
    "CostMapModel.C99_negative",
    "CostMapModel.C99_same_partial",
    "CostMapModel.C99_tables",
    "CostMapModel.C99_inflate_partial",
    "CostMapModel.C99_false_weight",
    "CostMapModel.C99_false_negative",
    "CostMapModel.C99_false_resolution"
   ],
   "note": "The cost function is settled for all values that are not negative, infinities included (C99_cost is an iff for the undefined ones), and NaN; inflation for finite parameters that are not negative. False for NaN and negative weights and for resolutions beyond float (D52)."
  }
 ]
}
