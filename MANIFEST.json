{
 "claims": [
  {
   "property": "C01",
   "status": "proved",
   "theorems": [
    "Verif.Undo.undo_stack_refines_snapshots",
    "Verif.Undo.undo_redo_identity",
    "Verif.Undo.redo_undo_identity",
    "Verif.Undo.undo_all_edits",
    "Verif.Undo.undo_many_redo_many",
    "Verif.Undo.edit_discards_own_redo"
   ],
   "note": "Edits and undo actions are abstract; the contract Records/Lawful is proved for the mesh and grid actions under C08/C19."
  },
  {
   "property": "C02",
   "status": "partial",
   "theorems": [
    "Verif.Undo.undoable_le_bound",
    "Verif.Undo.newest_edits_kept",
    "Verif.Undo.bound_zero",
    "Verif.Undo.total_size_exceeds_bound",
    "Verif.Undo.set_maximum_size_keeps_redo"
   ],
   "note": "Bound on undoable edits proved; the bound on the total number of stored records is false of the code (two negation theorems)."
  },
  {
   "property": "C03",
   "status": "proved",
   "theorems": [
    "Verif.Undo.remove_exact",
    "Verif.Undo.counts_add_up",
    "Verif.Undo.other_kernels_untouched"
   ],
   "note": ""
  },
  {
   "property": "C04",
   "status": "partial",
   "theorems": [
    "Verif.Api.api_never_uses_freed_data_partial",
    "Verif.Api.records_refer_to_existing_kernels_partial",
    "Verif.Api.undo_leaves_expunged_kernels_alone_partial",
    "Verif.Api.snap_record_outlives_its_kernel"
   ],
   "note": "Proved for all histories without mkernel_mesh2d_snap_to_landboundary, without get_projection / get_closest_node of unknown ids and without interactive steps on replaced objects; false with the first (negation theorem)."
  },
  {
   "property": "C05",
   "status": "partial",
   "theorems": [
    "Verif.Api.unknown_id_rejected_partial",
    "Verif.Api.unknown_id_answered_partial",
    "Verif.Api.get_projection_creates_broken_kernel",
    "Verif.Api.closest_node_of_unknown_kernel"
   ],
   "note": "Proved for every state and all calls but five; of these, three answer harmlessly, and get_projection and get_closest_node are false (negation theorems)."
  },
  {
   "property": "C06",
   "status": "partial",
   "theorems": [
    "Verif.Api.ids_never_reused_partial",
    "Verif.Api.allocation_is_fresh_partial",
    "Verif.Api.clear_state_reuses_ids"
   ],
   "note": "Proved for every history without mkernel_clear_state, which resets the counter (negation theorem)."
  },
  {
   "property": "C07",
   "status": "partial",
   "theorems": [
    "Verif.Api.failing_call_changes_nothing_partial",
    "Verif.Api.failing_contacts_effect",
    "Verif.Api.failing_contacts_discard_contacts"
   ],
   "note": "Proved for every state under the hypothesis that the library function has no effect when it throws; false for contacts (negation theorem)."
  },
  {
   "property": "C08",
   "status": "partial",
   "theorems": [
    "Verif.Mesh.mesh_history_follows_snapshots",
    "Verif.Mesh.undo_redo_of_edit",
    "Verif.Mesh.equal_contents_equal_drawing",
    "Verif.Mesh.edits_with_undo_agree",
    "Verif.Mesh.full_undo_restores_partial",
    "Verif.Mesh.full_undo_loses_node",
    "Verif.Mesh.get_dimensions_breaks_undo"
   ],
   "note": "All edits of single nodes and edges, merges and moves: proved for all histories. Undo by saving the whole mesh (join, derefine, connect) restores everything but unused nodes (negation theorem)."
  },
  {
   "property": "C09",
   "status": "partial",
   "theorems": [
    "Verif.Mesh.delete_node_exact",
    "Verif.Mesh.delete_node_rejects",
    "Verif.Mesh.delete_node_misses_new_edge"
   ],
   "note": "Proved for administrated meshes; after insert_edge without administration it is false (negation theorem)."
  },
  {
   "property": "C10",
   "status": "proved",
   "theorems": [
    "Verif.Mesh.compaction_keeps_drawing",
    "Verif.Mesh.compaction_idempotent"
   ],
   "note": ""
  },
  {
   "property": "C11",
   "status": "proved",
   "theorems": [
    "Verif.Mesh.administration_exact",
    "Verif.Mesh.administration_drops_17th_edge"
   ],
   "note": "The order of the edges around a node (by angle) is an arbitrary permutation in the model. The bound of 16 edges is necessary (negation theorem)."
  },
  {
   "property": "C12",
   "status": "proved",
   "theorems": [
    "Verif.Mesh.merge_two_nodes_exact",
    "Verif.Mesh.merge_all_keeps_invariant",
    "Verif.Mesh.merge_overruns_16_edges"
   ],
   "note": "For administrated simple meshes where the merged node has at most 16 edges; beyond that the code overruns an array (theorem)."
  },
  {
   "property": "C13",
   "status": "partial",
   "theorems": [
    "Verif.Mesh.join_is_disjoint_union",
    "Verif.Mesh.join_revives_deleted_edge"
   ],
   "note": "Nodes, edges and drawing; false when the added mesh has deleted edges (negation theorem). Faces are not covered."
  },
  {
   "property": "C14",
   "status": "proved",
   "theorems": [
    "Verif.Faces.faces_consistent",
    "Verif.Faces.faces_counterclockwise"
   ],
   "note": "For every mesh of valid indices, every order of the edges around the nodes and every test of the direction; the counterclockwise order of the nodes for the Cartesian projection."
  },
  {
   "property": "C15",
   "status": "partial",
   "theorems": [
    "Verif.Cache.node_queries_follow_edits_partial",
    "Verif.Cache.edge_queries_follow_edits_partial",
    "Verif.Cache.other_box_answers_current",
    "Verif.Cache.undo_of_move_leaves_stale_answer",
    "Verif.Cache.faces_tree_is_never_updated",
    "Verif.Cache.deleted_face_is_found",
    "Verif.Cache.boxes_are_mixed_up",
    "Verif.Cache.administrated_node_is_found"
   ],
   "note": "For node and edge queries of a mesh: proved for all histories with one box in which no movement of nodes is undone and no face query invalidates nodes. False otherwise, and for faces after any edit (negation theorems). Curvilinear grids are not part of this model."
  },
  {
   "property": "C16",
   "status": "partial",
   "theorems": [
    "Verif.Curvi.position_to_number_and_back",
    "Verif.Curvi.number_to_position_and_back",
    "Verif.Curvi.large_numbers_rejected",
    "Verif.Curvi.positions_outside_accepted",
    "Verif.Curvi.huge_grid_rejects_everything",
    "Verif.Curvi.euler"
   ],
   "note": "The conversions are inverse to each other for grids below 2^32 nodes and numbers that are too large are rejected; positions outside the grid are accepted and the size check overflows (negation theorems)."
  },
  {
   "property": "C17",
   "status": "proved",
   "theorems": [
    "Verif.Curvi.exported_nodes",
    "Verif.Curvi.exported_positions",
    "Verif.Curvi.exported_edges"
   ],
   "note": ""
  },
  {
   "property": "C18",
   "status": "proved",
   "theorems": [
    "Verif.Curvi.clean_exact",
    "Verif.Curvi.keep_closed",
    "Verif.Curvi.removal_terminates",
    "Verif.Curvi.clean_no_loose_node",
    "Verif.Curvi.clean_of_no_loose",
    "Verif.Curvi.clean_idempotent",
    "Verif.Curvi.keep_iff_inFace",
    "Verif.Curvi.two_rounds_are_enough"
   ],
   "note": ""
  },
  {
   "property": "C19",
   "status": "partial",
   "theorems": [
    "Verif.Curvi.undo_move_node",
    "Verif.Curvi.undo_delete_interior_cleans",
    "Verif.Curvi.undo_delete_interior_partial",
    "Verif.Curvi.undo_delete_interior_loses_loose_nodes",
    "Verif.Curvi.undo_whole_partial",
    "Verif.Curvi.undo_whole_cleans",
    "Verif.Curvi.undo_delete_node_partial",
    "Verif.Curvi.undo_delete_node_loses_nodes",
    "Verif.Curvi.undo_delete_exterior_partial",
    "Verif.Curvi.undo_delete_exterior_loses_nodes",
    "Verif.CurviLine.mirror_undo_partial",
    "Verif.CurviLine.mirror_redo_partial",
    "Verif.CurviLine.mirror_left_undo_leaves_column"
   ],
   "note": "Move node is proved. Every other undo cleans the grid, so it restores grids without loose nodes (delete interior, refinement, de-refinement); undo of deleting a node or an exterior loses nodes in cases given by negation theorems and is exact otherwise under the stated hypotheses. Undo of a line mirror hides the added line: the grid looks as before, but at the left side the hidden nodes stay and come back with a later mirroring (negation theorem)."
  },
  {
   "property": "C20",
   "status": "proved",
   "theorems": [
    "Verif.Curvi.block_accepted_iff",
    "Verif.Curvi.delete_interior_exact",
    "Verif.Curvi.delete_exterior_exact"
   ],
   "note": "The block is given by node indices; the search that finds the node next to a point is not modelled."
  },
  {
   "property": "C21",
   "status": "partial",
   "theorems": [
    "Verif.Curvi.refine_exact",
    "Verif.Curvi.full_refine_exact",
    "Verif.Curvi.full_refine_zero",
    "Verif.Curvi.derefine_exact",
    "Verif.Curvi.mem_kept",
    "Verif.Curvi.derefine_terminates",
    "Verif.Curvi.derefine_refine",
    "Verif.Curvi.derefine_refine_same",
    "Verif.Curvi.refine_loses_row",
    "Verif.Curvi.derefine_loses_row",
    "Verif.Curvi.refine_hidden_first",
    "Verif.Curvi.refine_zero_ub"
   ],
   "note": "Proved for grids without hidden rows and columns. With hidden ones, which undoing an added grid line leaves, both operations lose a visible row or are refused, and the unchecked factor zero is undefined behaviour (negation theorems). Where interpolated points lie is arbitrary."
  },
  {
   "property": "C22",
   "status": "proved",
   "theorems": [
    "Verif.Polygons.parse_gather_round_trip",
    "Verif.Polygons.separated_list_accepted_iff",
    "Verif.Polygons.every_point_in_one_ring",
    "Verif.Polygons.gathered_list_reads_back",
    "Verif.Polygons.polygon_index_finds_vertices",
    "Verif.Polygons.single_point_hole_becomes_vertex"
   ],
   "note": "For lists in which no hole is a single point; such a hole at the end of a polygon can be taken for a vertex (negation theorem)."
  },
  {
   "property": "C23",
   "status": "partial",
   "theorems": [
    "Verif.Polygons.contains_iff_turns",
    "Verif.Polygons.contains_rotate",
    "Verif.Polygons.contains_reverse",
    "Verif.Polygons.boundary_is_inside",
    "Verif.Polygons.triangle_contains_iff",
    "Verif.Polygons.nodes_test_agrees_partial",
    "Verif.Polygons.no_polygon_contains_everything",
    "Verif.Polygons.list_queries_agree",
    "Verif.Polygons.positive_answer_is_right",
    "Verif.Polygons.list_answer_partial",
    "Verif.Polygons.list_order_irrelevant_partial",
    "Verif.Polygons.repeated_vertex_fills_box",
    "Verif.Polygons.repeating_a_vertex_changes_the_answer",
    "Verif.Polygons.nodes_test_accepts_extension_of_side",
    "Verif.Polygons.island_in_hole_depends_on_order"
   ],
   "note": "For one ring without repeated vertices the answer is proved to be the winding number test with the boundary inside, independent of start vertex and orientation. False for repeated vertices, for the second implementation on the extension of a side, and for an island in a hole (negation theorems). The spherical-accurate test is not modelled."
  },
  {
   "property": "C24",
   "status": "partial",
   "theorems": [
    "Verif.Polygons.area_is_shoelace_partial",
    "Verif.Polygons.area_is_shoelace_or_minimum",
    "Verif.Polygons.special_code_agrees",
    "Verif.Polygons.area_rotate",
    "Verif.Polygons.area_reverse_partial",
    "Verif.Polygons.area_translate_partial",
    "Verif.Polygons.indexed_area_agrees",
    "Verif.Polygons.tiny_polygon_misreported"
   ],
   "note": "Everything in the statement is proved for polygons with an area of at least 1e-8, Cartesian; below that area and centre are wrong (negation theorem)."
  },
  {
   "property": "C25",
   "status": "proved",
   "theorems": [
    "Verif.Polygons.refine_adds_points_on_sides",
    "Verif.Polygons.refine_keeps_vertices",
    "Verif.Polygons.refine_points_on_refined_sides",
    "Verif.Polygons.piece_length",
    "Verif.Polygons.refine_throws_iff",
    "Verif.Polygons.refine_accepts_equal_positions",
    "Verif.Polygons.refine_first_polygon"
   ],
   "note": "For every distance function of two points. Equal positions outside the ring are accepted without effect instead of refused (theorem)."
  },
  {
   "property": "C26",
   "status": "partial",
   "theorems": [
    "Verif.Contacts.single_well_formed",
    "Verif.Contacts.single_inner_node",
    "Verif.Contacts.single_at_most_two",
    "Verif.Contacts.single_outer_contacts_cross_nothing",
    "Verif.Contacts.single_outer_node",
    "Verif.Contacts.single_no_undefined_behaviour",
    "Verif.Contacts.multiple_well_formed",
    "Verif.Contacts.multiple_connects_exactly",
    "Verif.Contacts.multiple_nearer_end",
    "Verif.Contacts.multiple_succeeds",
    "Verif.Contacts.multiple_deleted_edge_undefined",
    "Verif.Contacts.polygons_one_contact_each",
    "Verif.Contacts.polygons_well_formed_partial",
    "Verif.Contacts.polygon_without_faces_misreported",
    "Verif.Contacts.polygons_succeeds",
    "Verif.Contacts.polygons_masked_node_fails",
    "Verif.Contacts.points_well_formed_partial",
    "Verif.Contacts.points_ignore_mask",
    "Verif.Contacts.boundary_well_formed",
    "Verif.Contacts.boundary_connects_exactly",
    "Verif.Contacts.boundary_nearest",
    "Verif.Contacts.boundary_succeeds"
   ],
   "note": "Proved for the single, multiple and boundary methods. False for polygons without faces (a contact of missing indices is returned) and for the mask of the point method (ignored); negation theorems. The geometric searches are parameters."
  },
  {
   "property": "C27",
   "status": "partial",
   "theorems": [
    "Verif.Regions.labels_are_regions",
    "Verif.Regions.one_region_unchanged",
    "Verif.Regions.removal_keeps_largest_region",
    "Verif.Regions.stale_tables_remove_joined_face",
    "Verif.Regions.stale_tables_keep_new_region"
   ],
   "note": "Proved for face tables (edges of faces, faces of edges) that agree with each other. Finding the faces is not part of this model. The API call does not refresh the tables after edits: two theorems show what goes wrong then."
  },
  {
   "property": "C28",
   "status": "partial",
   "theorems": [
    "Verif.Network.create_ok",
    "Verif.Network.create_short_line_undefined",
    "Verif.Network.split_joined",
    "Verif.Network.repeated_separator_undefined",
    "Verif.Network.interval_fills",
    "Verif.Network.interval_succeeds",
    "Verif.Network.interval_pieces",
    "Verif.Network.interval_not_positive_undefined",
    "Verif.Network.points_on_line_partial",
    "Verif.Network.points_on_segment",
    "Verif.Network.discretize_succeeds",
    "Verif.Network.discretize_rejects_short",
    "Verif.Network.discretize_at_interval_partial",
    "Verif.Network.network_discretization_partial",
    "Verif.Network.skipped_side_leaves_line",
    "Verif.Network.end_of_polyline_misplaced",
    "Verif.Network.fixed_keeps_ends_partial",
    "Verif.Network.fixed_at_start_loses_end",
    "Verif.Network.fixed_beyond_end_undefined",
    "Verif.Network.fixed_throws_iff",
    "Verif.Network.empty_last_list_dropped",
    "Verif.Network.mesh_nodes",
    "Verif.Network.mesh_edges_within_polylines",
    "Verif.Network.mesh_joins_two_partial",
    "Verif.Network.third_polyline_not_joined",
    "Verif.Network.third_polyline_lost"
   ],
   "note": "The chainages are proved as stated. Points and end points are proved for polylines whose sides are not shorter than the interval, the edges for at most two polylines; beyond that the statement is false (negation theorems). Merging of close nodes is not part of this model."
  },
  {
   "property": "C29",
   "status": "partial",
   "theorems": [
    "Verif.Averaging.maximum_exact",
    "Verif.Averaging.minimum_exact",
    "Verif.Averaging.minimumAbs_partial",
    "Verif.Averaging.minimumAbs_leaves_data",
    "Verif.Averaging.closest_exact",
    "Verif.Averaging.simple_exact_partial",
    "Verif.Averaging.simple_of_nothing",
    "Verif.Averaging.inverse_weighted_partial",
    "Verif.Averaging.inverse_weighted_counts_weight",
    "Verif.Averaging.minimum_of_top_missing"
   ],
   "note": "Exact for maximum, minimum and closest. Least absolute value leaves the data, inverse weighting compares the weight with the number of samples, simple averaging of nothing with no sample required is NaN (negation theorems). Which samples are selected for a point is not covered."
  },
  {
   "property": "C30",
   "status": "proved",
   "theorems": [
    "Verif.RangeCheck.interval_checks_exact",
    "Verif.RangeCheck.ray_checks_exact",
    "Verif.RangeCheck.list_checks_exact",
    "Verif.RangeCheck.checks_complementary",
    "Verif.RangeCheck.checks_differ_only_at_ends",
    "Verif.RangeCheck.nan_rejected",
    "Verif.RangeCheck.nan_accepted_by_negative_checks",
    "Verif.RangeCheck.make_grid_parameters_exact",
    "Verif.RangeCheck.curvilinear_parameters_exact",
    "Verif.RangeCheck.spline_parameters_exact",
    "Verif.RangeCheck.refinement_parameters_exact",
    "Verif.RangeCheck.orthogonalization_parameters_exact"
   ],
   "note": "The order theorems are for linear orders, instantiated for integers; doubles are covered by the NaN theorems and the parameter theorems. Infinities are accepted by all parameter checks but those of grid generation."
  },
  {
   "property": "C31",
   "status": "proved",
   "theorems": [
    "Verif.Circular.rejects_exactly_outside",
    "Verif.Circular.forward_eq_mod",
    "Verif.Circular.backward_eq_mod",
    "Verif.Circular.forward_backward",
    "Verif.Circular.forward_injective",
    "Verif.Circular.forward_many",
    "Verif.Circular.once_around",
    "Verif.Circular.reaches_everything",
    "Verif.Circular.rotate_is_next"
   ],
   "note": ""
  },
  {
   "property": "C32",
   "status": "partial",
   "theorems": [
    "Verif.BBox.contains_iff",
    "Verif.BBox.box_of_points_least",
    "Verif.BBox.box_without_valid_points",
    "Verif.BBox.merge_least",
    "Verif.BBox.merge_of_boxes",
    "Verif.BBox.ofTwo_least",
    "Verif.BBox.overlaps_iff_common_point",
    "Verif.BBox.overlaps_symm",
    "Verif.BBox.non_overlapping_box_overlaps",
    "Verif.BBox.extend_contains"
   ],
   "note": "Merge and overlap are proved for boxes that have points; the box made not to overlap anything overlaps the default box (negation theorem)."
  },
  {
   "property": "C33",
   "status": "partial",
   "theorems": [
    "Verif.LinAlg.erase_rows_exact",
    "Verif.LinAlg.erase_cols_exact",
    "Verif.LinAlg.erase_keeps_rect",
    "Verif.LinAlg.insert_row_exact",
    "Verif.LinAlg.insert_col_exact",
    "Verif.LinAlg.erase_inserted",
    "Verif.LinAlg.swap_rows_exact",
    "Verif.LinAlg.resize_exact_partial",
    "Verif.LinAlg.resize_overruns",
    "Verif.LinAlg.reorder_exact",
    "Verif.LinAlg.reorder_rejects",
    "Verif.LinAlg.reorder_may_not_terminate",
    "Verif.LinAlg.sort_exact",
    "Verif.LinAlg.sort_then_reorder"
   ],
   "note": "Everything in the statement is proved. Partial because the neighbouring resize overruns the matrix when columns grow and rows shrink, and reordering by a vector that is not a permutation may not terminate (negation theorems)."
  },
  {
   "property": "C34",
   "status": "partial",
   "theorems": [
    "Verif.ErrorReport.failures_reported",
    "Verif.ErrorReport.exit_codes",
    "Verif.ErrorReport.geometry_place",
    "Verif.ErrorReport.short_buffer_overrun"
   ],
   "note": "Proved for callers that pass at least 512 characters, which the interface does not check (negation theorem). The text of what() is an arbitrary string."
  },
  {
   "property": "C35",
   "status": "partial",
   "theorems": [
    "Verif.Rect.rectangular_grid",
    "Verif.Rect.rectangular_grid_rejects",
    "Verif.Rect.real_rectangles",
    "Verif.Rect.extension_grid",
    "Verif.Rect.extension_rejects",
    "Verif.Rect.polygon_grid",
    "Verif.Rect.polygon_grid_rejects",
    "Verif.Rect.extension_below_origin_goes_up",
    "Verif.Rect.node_at_missing_value_is_invalid",
    "Verif.Curvi.delete_outside_polygon"
   ],
   "note": "In exact arithmetic, for Cartesian grids of every angle; for grids in a polygon the full grid covers the box of the polygon and exactly the corners of the faces inside it stay. Extensions whose end is below the origin are accepted and give a grid above it; a node on the missing value is invalid (last theorems)."
  },
  {
   "property": "C36",
   "status": "proved",
   "theorems": [
    "Verif.Curvi.boundary_polygons",
    "Verif.Curvi.boundary_polygons_empty_iff",
    "Verif.Curvi.api_boundary_polygons",
    "Verif.Curvi.block_reaches_removed_line"
   ],
   "note": "For every block inside the grid and every pattern of valid nodes. A block outside the visible part of the grid is not rejected when lines have been removed (last theorem)."
  },
  {
   "property": "C37",
   "status": "partial",
   "theorems": [
    "Verif.Api.api_refines_snapshots_partial",
    "Verif.Api.replacement_undo_redo_partial",
    "Verif.Api.deallocation_undo_redo_partial",
    "Verif.Api.grid_to_mesh_undo_redo_partial",
    "Verif.Api.overwrite_is_not_undone",
    "Verif.Api.assign_is_not_recorded",
    "Verif.Api.undo_keeps_converted_projection"
   ],
   "note": "All histories of recorded calls refine a snapshot machine. False for network1d_set, circular grids, contacts_set and the projection of a kernel (negation theorems)."
  },
  {
   "property": "C38",
   "status": "partial",
   "theorems": [
    "Verif.Mesh.get_dimensions_keeps_drawing_partial",
    "Verif.Mesh.get_dimensions_destroys_node",
    "Verif.Mesh.get_dimensions_breaks_undo"
   ],
   "note": "The property is false of the code: the query changes the kernel (negation theorems). What is kept is the drawing."
  },
  {
   "property": "C39",
   "status": "partial",
   "theorems": [
    "Verif.Move.move_is_local",
    "Verif.Move.cosine_is_weight",
    "Verif.Move.move_throws_iff",
    "Verif.Move.null_move_destroys_node",
    "Verif.Move.spherical_move_misses_target",
    "Verif.Move.move_revives_deleted_node"
   ],
   "note": "Proved for every Cartesian mesh of finite coordinates and every move to another position, with undo and redo. False for the null move, for spherical coordinates and when a deleted node is within reach (negation theorems)."
  },
  {
   "property": "C40",
   "status": "partial",
   "theorems": [
    "Verif.Api.interactive_step_edits_current_object_partial",
    "Verif.Api.initialize_refers_to_current_object",
    "Verif.Api.step_before_initialize",
    "Verif.Api.stale_step_misses_current_grid",
    "Verif.Api.stale_step_uses_freed_grid"
   ],
   "note": "Holds while the object is not replaced after initialization; false otherwise (negation theorems)."
  },
  {
   "property": "C41",
   "status": "partial",
   "theorems": [
    "Verif.Polygons.linear_refine_outcome_partial",
    "Verif.Polygons.linear_refine_equal_ends",
    "Verif.Polygons.rangeNodes_ends",
    "Verif.Polygons.linear_refine_arguments",
    "Verif.Polygons.linear_refine_polygon",
    "Verif.Polygons.linear_refine_long_range_missing",
    "Verif.Polygons.linear_refine_returns_missing",
    "Verif.Polygons.linear_refine_last_to_first_undefined"
   ],
   "note": "For every distance function: what is outside the range stays, and the range becomes a sampling of the old polyline, possibly followed by a missing point or without its last node. For equal end sides the outcome is characterised: equal pieces of about that length, or a missing point when the range is long (negation theorem). Missing: how the steps are graded when the end sides differ. Last to first position is undefined behaviour (theorem)."
  },
  {
   "property": "C42",
   "status": "partial",
   "theorems": [
    "Verif.Cache.node_queries_follow_edits_partial",
    "Verif.Cache.other_box_answers_current",
    "Verif.Cache.masked_query_partial",
    "Verif.Cache.masked_query_misses_allowed_node",
    "Verif.Cache.node_index_ignores_box",
    "Verif.Cache.boxes_are_mixed_up"
   ],
   "note": "The box is proved to be honoured when all queries use one box or the box differs from the last one. False for masks, for get_node_index and for mixed boxes (negation theorems)."
  },
  {
   "property": "C43",
   "status": "partial",
   "theorems": [
    "Verif.Rect.spherical_extension_partial",
    "Verif.Rect.south_pole_extension_collapses",
    "Verif.Rect.large_block_leaves_globe"
   ],
   "note": "Proved for origins from 88 degrees south on and blocks between 0.0001 and 57 degrees. False for the south pole as origin and for blocks of 100 degrees (negation theorems); origins between 90 and 88 degrees south and blocks between 57 and 100 degrees are not settled."
  },
  {
   "property": "C44",
   "status": "partial",
   "theorems": [
    "Verif.Faces.cells_found_partial",
    "Verif.Faces.faces_are_cells_partial",
    "Verif.Faces.cell_not_found",
    "Verif.Faces.faces_overlap"
   ],
   "note": "Proved for the Cartesian projection: the faces are exactly the cells of 3 to 6 corners if no polygon has edges inside at one corner only and two cells share at most one edge; without these conditions, a cell is found unless one of its edges has two faces or two of its edges belong to one face. False in general: a cell may be missed and faces may overlap (negation theorems)."
  },
  {
   "property": "C45",
   "status": "partial",
   "theorems": [
    "Verif.Faces.given_faces_kept_partial",
    "Verif.Faces.given_faces_read_back",
    "Verif.Faces.given_edges_reversed",
    "Verif.Faces.given_faces_shifted",
    "Verif.Faces.given_faces_shifted_ub",
    "Verif.Faces.given_face_with_chord",
    "Verif.Faces.given_third_face"
   ],
   "note": "Proved for meshes whose nodes all have edges and for polygons of edges without further edges between their nodes, at most two at an edge; there the edges of a face are its sides, but possibly the other way around. False otherwise: faces are not renumbered when nodes are removed, an edge that is not a side may be taken, a third face is written out of range (negation theorems)."
  },
  {
   "property": "C46",
   "status": "partial",
   "theorems": [
    "Verif.Ortho.keeps_partial",
    "Verif.Ortho.undo_restores",
    "Verif.Ortho.schedule_irrelevant",
    "Verif.Ortho.no_crash_partial",
    "Verif.Ortho.types_partial",
    "Verif.Ortho.tables_of_administration",
    "Verif.Ortho.angles_ignored",
    "Verif.Ortho.square_corner_may_move",
    "Verif.Ortho.types_depend_on_order",
    "Verif.Ortho.zero_edge_loses_node",
    "Verif.Ortho.antimeridian_snaps_far"
   ],
   "note": "Proved for the Cartesian and spherical projections and all weights, for meshes each of whose edges has a face and whose boundary edges have positive length; corners are nodes with two edges or more than two boundary edges. The accurate spherical projection and land boundaries are not modelled. False otherwise: angles have no influence on what counts as a corner, the types depend on the order of the edges if there are hanging edges, a boundary edge of length zero makes its end missing, boundary edges across the antimeridian throw nodes to the other side (negation theorems)."
  },
  {
   "property": "C47",
   "status": "partial",
   "theorems": [
    "Verif.Locate.every_point_answered",
    "Verif.Locate.matched_sound_partial",
    "Verif.Locate.matched_complete_partial",
    "Verif.Locate.uniform_nearest",
    "Verif.Locate.inside_not_matched",
    "Verif.Locate.outside_matched"
   ],
   "note": "Cartesian projection, any search that answers with a nearest edge. Sound for points on none of the lines that carry the sides of the face; complete when the nearest middle is that of a side of the face, which holds in grids of equal rectangles. False in general: only the faces at the edge with the nearest middle are tried, and points on the line through a side are taken as inside (negation theorems)."
  },
  {
   "property": "C48",
   "status": "partial",
   "theorems": [
    "Verif.Splines.curve_exists_unique",
    "Verif.Splines.evaluation_partial",
    "Verif.Splines.control_points_hit",
    "Verif.Splines.evaluation_jumps",
    "Verif.Splines.straight",
    "Verif.Splines.translated",
    "Verif.Splines.reversed",
    "Verif.Splines.splines_handed_out_partial",
    "Verif.Splines.points_dropped",
    "Verif.Splines.control_point_repeated",
    "Verif.Splines.histories_partial",
    "Verif.Splines.edits_nodes",
    "Verif.Splines.added_point_not_evaluated",
    "Verif.Splines.added_point_out_of_range",
    "Verif.Splines.snap_range_ub",
    "Verif.Splines.snap_from_start_partial",
    "Verif.Splines.snap_repeated_ub",
    "Verif.Splines.snap_repeated_shifts"
   ],
   "note": "Proved for parameters at least 1/100000 beyond a control point (below, the control point is given), fewer than 100000 points between control points and curves without a coordinate equal to the missing value; for snapping, for ranges from the first point on without repeated points. The snapping itself is a parameter. False otherwise: points with a missing coordinate end a piece, snapping a later range or repeated points reads beyond the points, and adding a point leaves the derivatives behind (negation theorems)."
  },
  {
   "property": "C49",
   "status": "partial",
   "theorems": [
    "Verif.Cross.segments_cross_iff",
    "Verif.Cross.walk_exact",
    "Verif.Cross.rings_exact_partial",
    "Verif.Cross.crossings_exact_partial",
    "Verif.Cross.small_square_not_crossing",
    "Verif.Cross.large_square_crossing",
    "Verif.Cross.along_not_crossing",
    "Verif.Cross.no_face_no_end",
    "Verif.Cross.loose_edge_no_end",
    "Verif.Cross.order_not_along",
    "Verif.Cross.side_left_out",
    "Verif.Cross.side_listed_twice"
   ],
   "note": "Proved: the walk ends and finds exactly the crossed edges and faces, for any test of segments (so any projection), if every crossed edge has a face; with the Cartesian test, crossing means a common point and an area of at least a hundred thousandth of the longest coordinate difference. False otherwise: a crossed edge without a face keeps the program in a loop for ever, the threshold depends on the unit of length, the sides of a face are not in the order of the polygon, sides may be left out beyond 1001 segments and listed twice for two rings (negation theorems). Distances along the polygon and the copying to the arrays of the caller are not modelled."
  },
  {
   "property": "C50",
   "status": "partial",
   "theorems": [
    "Verif.Delete.deletion_exact",
    "Verif.Delete.other_faces_kept",
    "Verif.Delete.administration_changes_nothing",
    "Verif.Delete.deletion_by_centres_exact",
    "Verif.Delete.polygon_deletion_partial",
    "Verif.Delete.loose_edge_deleted",
    "Verif.Delete.enclosed_face_stays",
    "Verif.Delete.enclosed_face_witness",
    "Verif.Delete.undo_loses_single_node",
    "Verif.Delete.failing_call_deletes_node",
    "Verif.Delete.repeated_edges_destroy"
   ],
   "note": "Proved for meshes without loops, repeated edges or more than 16 edges at a node, any test of points and any list of crossed faces: the edges left are exactly the sides of the faces not selected, the nodes left are their ends. polygon_deletion_partial combines this with the search of C49 in the Cartesian projection, when every edge met has a face. Undo restores the administrated mesh. False otherwise: nodes on their own are lost for good, also when the call fails; edges without a face go whatever the polygon; repeated edges make the deletion destroy faces that are not selected (negation theorems). The circumcentres are a parameter."
  },
  {
   "property": "C51",
   "status": "partial",
   "theorems": [
    "Verif.Delete.hanging_edges_exact",
    "Verif.Delete.administration_lists_edges",
    "Verif.Delete.delete_hanging_exact",
    "Verif.Delete.sides_do_not_hang",
    "Verif.Delete.hanging_edges_remain",
    "Verif.Delete.second_call_finds_nothing"
   ],
   "note": "Proved directly after an administration. False otherwise: only the call that counts administrates, so after an edit the reported edges are those of the old counts, and deleting takes off one edge of a tail only (negation theorems)."
  },
  {
   "property": "C52",
   "status": "proved",
   "theorems": [
    "Verif.Outline.mesh_boundaries_exact",
    "Verif.Outline.boundary_polygons_exact",
    "Verif.Outline.boundary_edges_even",
    "Verif.Outline.touching_parts_joined",
    "Verif.Outline.cut_boundary_jumps",
    "Verif.Outline.cut_boundary_out_of_range",
    "Verif.Outline.swap_back_exchanges"
   ],
   "note": "Proved for every mesh that can be administrated and as the interface calls it, without a selecting polygon; also with a polygon that cuts no boundary edge. The library function takes a polygon: one that cuts the boundary gives a polyline with sides that are no edges, or an access out of range (negation theorems); no caller uses it. Parts that touch in a node may share one polygon."
  },
  {
   "property": "C53",
   "status": "partial",
   "theorems": [
    "Verif.Refine.refinement_keeps_nodes_and_edges",
    "Verif.Refine.edges_stay_on_their_lines",
    "Verif.Refine.refinement_undone",
    "Verif.Refine.round_exact",
    "Verif.Refine.quadrilateral_in_four",
    "Verif.Refine.triangle_in_four",
    "Verif.Refine.selected_faces_are_split",
    "Verif.Refine.nothing_selected",
    "Verif.Refine.unsplit_faces_stay_small",
    "Verif.Refine.halves_meet_in_the_middle",
    "Verif.Refine.square_in_four",
    "Verif.Refine.neighbour_connected",
    "Verif.Refine.round_gives_up",
    "Verif.Refine.hexagon_is_not_refined",
    "Verif.Refine.pentagon_makes_refinement_fail",
    "Verif.Refine.neighbouring_sides_missed",
    "Verif.Refine.stale_count_writes_out_of_range"
   ],
   "note": "Proved for every mesh that is not spherical and every marking by samples or edge lengths, with hanging nodes: nodes and edges are kept and undo restores them. Proved for meshes without hanging nodes: what exactly a round adds, that selected faces are split and that nothing happens when nothing is selected. False for hexagons, which are not refined, for pentagons next to refined faces, for quadrilaterals with marked neighbouring sides of which one is the first, and when a count of hanging edges is left from another face (negation theorems). Which faces the samples mark is a parameter."
  },
  {
   "property": "C54",
   "status": "partial",
   "theorems": [
    "Verif.Transform.rotation_rigid",
    "Verif.Transform.translation_rigid",
    "Verif.Transform.rotation_centre",
    "Verif.Transform.rotations_add",
    "Verif.Transform.translations_add",
    "Verif.Transform.transform_exact",
    "Verif.Transform.transform_undone",
    "Verif.Transform.transform_refused",
    "Verif.Transform.node_at_missing_value_lost"
   ],
   "note": "Proved over the real numbers for every Cartesian mesh and every motion that takes no node to a missing value: rigid, node numbers and edges kept, nodes back after undo. Nodes without an edge are deleted by the call, as are edges to deleted nodes. False otherwise: a node moved onto the missing value is lost with its edges, and undo does not bring the edges back (negation theorem). The face tables after the call are not covered."
  },
  {
   "property": "C55",
   "status": "partial",
   "theorems": [
    "Verif.Quality.orthogonality_exact",
    "Verif.Quality.orthogonality_extremes",
    "Verif.Quality.acute_neighbours_orthogonal",
    "Verif.Quality.circumcentre_equidistant",
    "Verif.Quality.triangle_centre_inside_partial",
    "Verif.Quality.tiny_centre_outside",
    "Verif.Quality.smoothness_exact",
    "Verif.Quality.tiny_faces_smooth",
    "Verif.Quality.edge_lengths_exact",
    "Verif.Quality.deleted_edge_keeps_length",
    "Verif.Quality.api_orthogonality",
    "Verif.Quality.api_lengths",
    "Verif.Quality.api_smoothness",
    "Verif.Quality.inserted_edge_ub"
   ],
   "note": "Proved for the Cartesian projection directly after an administration; the centres of faces that are no triangles are a parameter. False otherwise: the centre of an obtuse triangle of a few micrometres is outside, areas below 1e-8 count as 1e-8, a deleted edge keeps its old length, the call for the smoothness does not check the size of the array, and after an edge is inserted both calls read beyond the tables of faces (negation theorems)."
  },
  {
   "property": "C56",
   "status": "proved",
   "theorems": [
    "Verif.Quality.obtuse_exact",
    "Verif.Quality.small_flow_exact"
   ],
   "note": "Proved for the Cartesian projection and every mesh of valid indices; both calls administrate first. The centres of faces that are no triangles are a parameter. The centre of mass is the centroid for areas of at least 1e-8."
  },
  {
   "property": "C57",
   "status": "partial",
   "theorems": [
    "Verif.CurviLine.attract_exact_partial",
    "Verif.CurviLine.attract_undo_partial",
    "Verif.CurviLine.attract_edge",
    "Verif.CurviLine.attract_towards_partial",
    "Verif.CurviLine.attract_accepted_iff",
    "Verif.CurviLine.attract_repels_on_rectangles",
    "Verif.CurviLine.attract_skips_first_row",
    "Verif.CurviLine.attract_misreads_hidden_line"
   ],
   "note": "Proved for any distance and fading over an ordered field: what moves, by how much and where to, for grids without hidden lines; undo for grids without loose nodes; the sense for lines in the m-direction. False otherwise: for lines in the n-direction a positive parameter pushes nodes away on every rectangular grid, and with a line hidden by an undo wrong nodes are moved (negation theorems)."
  },
  {
   "property": "C58",
   "status": "partial",
   "theorems": [
    "Verif.CurviLine.shift_exact",
    "Verif.CurviLine.shift_keeps_moved_nodes_partial",
    "Verif.CurviLine.shift_edge",
    "Verif.CurviLine.shift_nothing",
    "Verif.CurviLine.shift_undo_partial",
    "Verif.CurviLine.crosses_perpendicular",
    "Verif.CurviLine.shift_first_line_only",
    "Verif.CurviLine.shift_revives_deleted_node",
    "Verif.CurviLine.shift_undo_leaves_line",
    "Verif.CurviLine.parallel_line_refused",
    "Verif.CurviLine.session_needs_initialize",
    "Verif.CurviLine.session_edits_replaced_grid",
    "Verif.CurviLine.session_move_node"
   ],
   "note": "Proved: the exact result of a shift for every line and block; moved nodes stay where neighbours in the n-direction differ; undo for a line inside the block. False otherwise: a deleted node on the line becomes valid, undo leaves a line outside the block shifted, a second parallel line is refused, calls before the start of a session follow a null pointer, and after a new grid is set the session edits the old one (negation theorems)."
  },
  {
   "property": "C59",
   "status": "partial",
   "theorems": [
    "Verif.CurviLine.mirror_exact_partial",
    "Verif.CurviLine.image_between",
    "Verif.CurviLine.api_mirror",
    "Verif.CurviLine.lineOf_onSide",
    "Verif.CurviLine.mirror_undo_partial",
    "Verif.CurviLine.mirror_undo_repeat_partial",
    "Verif.CurviLine.mirror_redo_partial",
    "Verif.CurviLine.mirror_invents_node",
    "Verif.CurviLine.mirror_left_fails",
    "Verif.CurviLine.mirror_left_undo_leaves_column",
    "Verif.CurviLine.mirror_overwrites_first_row",
    "Verif.CurviLine.mirror_reads_outside"
   ],
   "note": "Proved for all four sides of grids without loose nodes, with or without hidden lines of missing nodes. False otherwise: a missing node on the line gives a valid new node, an interior row from end to end is accepted and the first row overwritten, at the left side the wrong block is saved so that a later mirroring shows stale nodes or the call fails after the line was added, and with a line hidden at the opposite side the program reads outside the matrix (negation theorems)."
  },
  {
   "property": "C60",
   "status": "partial",
   "theorems": [
    "Verif.Flip.flip_edges_outcome",
    "Verif.Flip.triangulation",
    "Verif.Flip.flip_edges_triangulated_partial",
    "Verif.Flip.flip_keeps_region",
    "Verif.Flip.flips_lower_energy",
    "Verif.Flip.flips_keep",
    "Verif.Flip.flip_edges_ends",
    "Verif.Flip.flip_edges_undo",
    "Verif.Flip.flip_edges_triangulated_undo_partial",
    "Verif.Flip.not_flat_free",
    "Verif.Flip.not_independent_of_numbering",
    "Verif.Flip.not_triangulated",
    "Verif.Flip.polygon_ignored",
    "Verif.Flip.not_always_finished",
    "Verif.Flip.not_always_defined"
   ],
   "note": "Proved for every mesh that can be administrated: the result comes from the mesh by flips that each lower the squared distance from the wanted numbers of edges, no such flip is left if all faces are triangles, the covered region stays, undo and redo. With triangulation this assumes that the triangulated mesh can be administrated. False otherwise: flat triangles on the boundary, one other face stops the flipping, a concave face is not triangulated, the selecting polygon is ignored, failure after ten rounds with a changed mesh and no undo, writing beyond a table when a node gets 17 edges (negation theorems)."
  },
  {
   "property": "C61",
   "status": "partial",
   "theorems": [
    "Verif.SplitRow.row_split_partial",
    "Verif.SplitRow.ring_split",
    "Verif.SplitRow.parts_area",
    "Verif.SplitRow.row_ends_or_closes",
    "Verif.SplitRow.collecting_returns",
    "Verif.SplitRow.split_recorded",
    "Verif.SplitRow.split_undone_partial",
    "Verif.SplitRow.wrong_edge_refused",
    "Verif.SplitRow.deleted_edge_refused",
    "Verif.SplitRow.no_quadrilateral_nothing",
    "Verif.SplitRow.api_split_row",
    "Verif.SplitRow.row_beside_other_face_undefined",
    "Verif.SplitRow.crossing_row_fails",
    "Verif.SplitRow.crossing_row_crossing_edges",
    "Verif.SplitRow.loose_node_lost"
   ],
   "note": "Proved for every mesh directly after an administration, for every row that passes no face twice: the exact result for rows with two ends and closed rows, the division of every face, all else unchanged, undo and redo. False otherwise: if the second face of the edge is no quadrilateral the program reads beyond its tables; a row that crosses itself fails after changing the mesh, without undo, or leaves edges that cross without a node; a node without edges is lost, also for undo (negation theorems). Undo after the final administration assumes at most sixteen edges per node."
  },
  {
   "property": "C62",
   "status": "partial",
   "theorems": [
    "Verif.Sampling.face_values_partial",
    "Verif.Sampling.node_values_partial",
    "Verif.Sampling.edge_values_partial",
    "Verif.Sampling.room_checked",
    "Verif.Sampling.levels_partial",
    "Verif.Sampling.closest_when_none_near",
    "Verif.Sampling.radius_applied_twice",
    "Verif.Sampling.extension_of_side_counts",
    "Verif.Sampling.corner_sample_left_out",
    "Verif.Sampling.nothing_required_gives_nan",
    "Verif.Sampling.neighbour_uses_up_sample",
    "Verif.Sampling.closest_not_used",
    "Verif.Sampling.deleted_node_undefined",
    "Verif.Sampling.edge_without_face_undefined",
    "Verif.Sampling.deleted_edge_undefined"
   ],
   "note": "Proved for the Cartesian projection directly after an administration, for samples on no line of a side of the search area and at least one required sample: the values at faces, nodes and edges, the check of the memory, and the lowering of samples. False otherwise: the radius is applied twice, a sample outside a face on the extension of a side counts, a sample at an outermost corner does not, no required sample gives NaN, a sample used in one face is used up for its neighbour, and with a deleted node, an edge without face or a deleted edge the program reads beyond its tables (negation theorems)."
  },
  {
   "property": "C63",
   "status": "partial",
   "theorems": [
    "Verif.MergeClose.merge_close_partial",
    "Verif.MergeClose.nothing_close_partial",
    "Verif.MergeClose.merge_twice_partial",
    "Verif.MergeClose.merge_close_nothing_selected",
    "Verif.MergeClose.distance_from_shortest_edge_partial",
    "Verif.MergeClose.plane_close",
    "Verif.MergeClose.exact_distance_depends_on_direction",
    "Verif.MergeClose.deleted_edge_undefined",
    "Verif.MergeClose.only_first_polygon",
    "Verif.MergeClose.merged_into_removed_node",
    "Verif.MergeClose.deleted_nodes_shift_tree",
    "Verif.MergeClose.deleted_nodes_undefined",
    "Verif.MergeClose.undo_misses_administration",
    "Verif.MergeClose.moved_along_chain"
   ],
   "note": "Proved for every mesh in which each selected node has an edge and no group of close nodes has more than sixteen edges, for any symmetric test of closeness and any order in which the tree reports: the exact result, that no close nodes remain, that a second call with a polygon changes nothing, undo and redo if no node loses all its edges. False otherwise: a node without edges beside another takes its edges away, after deleted nodes the wrong points are taken out of the tree so that edges are lost or memory outside it is read, a deleted edge makes the call without distance read outside its flags, only the first polygon selects, undo does not bring back nodes that lost all edges, and a node may be moved far along a chain (negation theorems)."
  },
  {
   "property": "C64",
   "status": "partial",
   "theorems": [
    "Verif.Gridded.value_is_bilinear",
    "Verif.Gridded.value_at_sample",
    "Verif.Gridded.value_between",
    "Verif.Gridded.value_exact",
    "Verif.Gridded.listed_exact",
    "Verif.Gridded.regular_exact_partial",
    "Verif.Gridded.results_exact_partial",
    "Verif.Gridded.either_way_partial",
    "Verif.Gridded.listed_outside",
    "Verif.Gridded.deleted_edge_undefined",
    "Verif.Gridded.extrapolated_before_origin",
    "Verif.Gridded.listed_not_extrapolated",
    "Verif.Gridded.last_sample_missing",
    "Verif.Gridded.falling_nothing",
    "Verif.Gridded.zero_size_undefined",
    "Verif.Gridded.far_undefined",
    "Verif.Gridded.wrapped_undefined",
    "Verif.Gridded.edge_half_missing",
    "Verif.Gridded.edge_not_at_middle",
    "Verif.Gridded.one_direction_ignored"
   ],
   "note": "Proved for increasing coordinates and exact arithmetic: the value inside is the bilinear function, with its values at samples, its bounds, exactness and continuity, and exactly where there is a value, for both ways of giving the coordinates; the results at nodes, edges and faces. False otherwise: with a constant cell size a location up to one cell before the origin is extrapolated, the last column and row have no value, falling coordinates give no value anywhere, cell size zero and far locations are undefined, an edge with one end outside has half of the missing value, and a deleted edge makes the program read outside its results (negation theorems)."
  },
  {
   "property": "C65",
   "status": "partial",
   "theorems": [
    "Verif.TriInterp.value_in_triangle_partial",
    "Verif.TriInterp.value_of_any_triangle_partial",
    "Verif.TriInterp.value_right_or_missing_partial",
    "Verif.TriInterp.value_at_sample_partial",
    "Verif.TriInterp.linear_exact_partial",
    "Verif.TriInterp.value_between_partial",
    "Verif.TriInterp.outside_box_missing",
    "Verif.TriInterp.delaunay_regular",
    "Verif.TriInterp.nodes_written_partial",
    "Verif.TriInterp.edges_written_partial",
    "Verif.TriInterp.too_much_room",
    "Verif.TriInterp.nothing_refused",
    "Verif.TriInterp.empty_refused",
    "Verif.TriInterp.not_only_in_triangles",
    "Verif.TriInterp.lost_between_close_samples",
    "Verif.TriInterp.small_triangle_missing",
    "Verif.TriInterp.deleted_edge_has_value"
   ],
   "note": "Proved for the Cartesian projection and exact arithmetic, for every triangulation with counter-clockwise triangles that is regular (Delaunay suffices) and fills the convex hull, and every answer of the search tree: the search ends in a triangle with the location whenever there is one, within the number of rounds the program allows, and the value is linear in it; no other value is ever written. The triangulation itself comes from another library and is assumed. False otherwise: a location beside a triangle on the extension of an oblique side is extrapolated, between samples a few millionths apart the search gets stuck, small triangles give no value, and a deleted edge counts as a location at (-999, -999) (negation theorems)."
  },
  {
   "property": "C66",
   "status": "partial",
   "theorems": [
    "Verif.Transfinite.repeated_node_refused",
    "Verif.Transfinite.refused_iff",
    "Verif.Transfinite.reads_outside_iff",
    "Verif.Transfinite.border_partial",
    "Verif.Transfinite.corners_partial",
    "Verif.Transfinite.every_node_used_partial",
    "Verif.Transfinite.inside_partial",
    "Verif.Transfinite.parallelogram_partial",
    "Verif.Transfinite.moved_partial",
    "Verif.Transfinite.triangle_outcome",
    "Verif.Transfinite.triangle_follows_partial",
    "Verif.Transfinite.triangle_cells",
    "Verif.Transfinite.middle_inside_partial",
    "Verif.Transfinite.calls_partial",
    "Verif.Transfinite.backwards_reads_outside",
    "Verif.Transfinite.numbers_not_checked",
    "Verif.Transfinite.skips_nodes",
    "Verif.Transfinite.slope_is_length",
    "Verif.Transfinite.node_outside",
    "Verif.Transfinite.numbers_shift",
    "Verif.Transfinite.odd_leaves_out",
    "Verif.Transfinite.middle_outside"
   ],
   "note": "Proved for every closed polygon and exact arithmetic: when a request is refused, the border of the grid and its closing, the three sides and seams of a triangle with an even number of nodes, that the grid moves with the polygon, the nodes for a parallelogram, and that nodes stay in the convex hull when opposite sides are divided alike. False otherwise: nodes given against the order of the polygon and node numbers beyond the polygon make the program read outside it, a polygon with more nodes than needed is not followed, inner nodes and the middle of a triangle can lie far outside, an odd triangle leaves nodes out, repeated points shift the numbers (negation theorems)."
  },
  {
   "property": "C67",
   "status": "partial",
   "theorems": [
    "Verif.Smooth.smoothing_exact_partial",
    "Verif.Smooth.steps_unique",
    "Verif.Smooth.smoothing_undo_partial",
    "Verif.Smooth.smoothing_accepted_iff",
    "Verif.Smooth.refused_unchanged_partial",
    "Verif.Smooth.elsewhere_unchanged",
    "Verif.Smooth.smoothing_convex_partial",
    "Verif.Smooth.straight_edge_n",
    "Verif.Smooth.straight_edge_m",
    "Verif.Smooth.regular_unchanged_partial",
    "Verif.Smooth.similar_grid_partial",
    "Verif.Smooth.hidden_line_misread",
    "Verif.Smooth.loose_node_lost",
    "Verif.Smooth.sheared_edge_moves",
    "Verif.Smooth.bent_edge_left",
    "Verif.Smooth.symmetry_lost",
    "Verif.Smooth.coinciding_nodes_no_number",
    "Verif.Smooth.negative_rounds"
   ],
   "note": "Proved for grids without hidden lines and loose nodes and for exact arithmetic: the exact result of any number of rounds, undo, what is accepted, what stays, the convex hull for blocks without edge nodes, straight edges, regular grids, and that similar grids give similar results. False otherwise: with hidden lines the positions of other nodes are used, loose nodes are removed even by refused calls and undo does not restore them, the edges of a grid of parallelograms move, a node of a bent edge leaves the edge, a symmetric grid becomes asymmetric, coinciding nodes give positions that are not numbers, and a negative number of rounds means more than two thousand million (negation theorems)."
  },
  {
   "property": "C68",
   "status": "partial",
   "theorems": [
    "Verif.Smooth.directional_exact_partial",
    "Verif.Smooth.directional_accepted_iff",
    "Verif.Smooth.directional_convex",
    "Verif.Smooth.order_kept",
    "Verif.Smooth.strict_order_kept_partial",
    "Verif.Smooth.even_unchanged_partial",
    "Verif.Smooth.undo_does_nothing",
    "Verif.Smooth.moved_node_not_restored",
    "Verif.Smooth.near_nodes_move",
    "Verif.Smooth.near_nodes_meet",
    "Verif.Smooth.hidden_line_misread_along"
   ],
   "note": "Proved for grids without hidden lines and loose nodes and for exact arithmetic: the exact result of any number of rounds, what is accepted, the convex hull, that nodes never change their order, do not meet in one round if they are not very near, and stay if evenly spaced. False: undo puts back the smoothed grid, for every grid and every accepted call; nodes less than a ten-thousandth of the unit of length apart move half the way to a neighbour, even if evenly spaced, and can meet; hidden lines are used and come back (negation theorems)."
  },
  {
   "property": "C69",
   "status": "partial",
   "theorems": [
    "Verif.InsertFace.insert_inside_partial",
    "Verif.InsertFace.insert_inside_undo_redo_partial",
    "Verif.InsertFace.insert_border_partial",
    "Verif.InsertFace.insert_border_undo_redo_partial",
    "Verif.InsertFace.insert_between_faces_refused_partial",
    "Verif.InsertFace.insert_missing_refused",
    "Verif.InsertFace.edge_between_faces_overwrites",
    "Verif.InsertFace.existing_node_moved",
    "Verif.InsertFace.touching_faces_refused",
    "Verif.InsertFace.image_of_missing_node",
    "Verif.InsertFace.loose_node_lost_by_error",
    "Verif.InsertFace.loose_node_not_restored",
    "Verif.InsertFace.new_node_lost",
    "Verif.InsertFace.insert_after_undo_outside"
   ],
   "note": "Proved for exact arithmetic and grids without loose nodes, for the edge the search found: the exact result, undo and redo at an edge of the border and at an inner edge whose two nodes beyond are missing; refusal at edges with an end that is missing or surrounded by faces. False otherwise: in a row of faces one face wide the edge between two faces is accepted and nodes of the grid are overwritten, in a corner the node that exists already is moved, where two faces touch in a node the call is refused, at an edge without faces the image of a missing node is taken, loose nodes disappear for good even if the call is refused, a new node with a coordinate -999 is lost, and after an undo a call at the opposite side reads outside the node matrix (negation theorems)."
  },
  {
   "property": "C70",
   "status": "partial",
   "theorems": [
    "Verif.CurviSearch.search_answers_nearest_partial",
    "Verif.CurviSearch.other_box_answers_nearest",
    "Verif.CurviSearch.move_moves_nearest_partial",
    "Verif.CurviSearch.delete_deletes_nearest_partial",
    "Verif.CurviSearch.block_of_nearest_partial",
    "Verif.CurviSearch.edge_of_nearest_partial",
    "Verif.CurviSearch.search_numbers_rows_partial",
    "Verif.CurviSearch.story_kept",
    "Verif.CurviSearch.boxes_mixed_up",
    "Verif.CurviSearch.move_after_search_in_box",
    "Verif.CurviSearch.edge_to_nowhere",
    "Verif.CurviSearch.face_to_nowhere",
    "Verif.CurviSearch.move_after_mirror",
    "Verif.CurviSearch.search_after_mirror_reads_outside"
   ],
   "note": "Proved for every history in which all searches since the last change used the same box, all new lines came with a new table of node numbers, and no point computed for an edge or face that does not exist lies in the box: the answers for nodes, edges and faces, moving, deleting, blocks and edges by points. The search tree itself comes from another library and is assumed to find a nearest point. False otherwise: the last box is shared by nodes, edges and faces, so that a search answers with a node outside of its box and a wrong node is moved; edges and faces with a missing node are found, half way to (-999, -999); after mirroring a line outside, the table of node numbers is the old one, so that wrong nodes are moved or memory outside the table is read (negation theorems)."
  },
  {
   "property": "C71",
   "status": "partial",
   "theorems": [
    "Verif.ToCurvi.convert_laid_partial",
    "Verif.ToCurvi.convert_total_partial",
    "Verif.ToCurvi.convert_refused",
    "Verif.ToCurvi.hanging_undefined",
    "Verif.ToCurvi.node_lost",
    "Verif.ToCurvi.cell_over_triangles",
    "Verif.ToCurvi.far_node_left_out"
   ],
   "note": "Proved for every mesh where the edges at the corners of the quadrilaterals border faces and no other corner is joined to two opposite corners of a quadrilateral, and grids of less than 1000 rows and columns: the grid is laid over the mesh as far as it can be. For meshes of less than 1000 nodes the call never fails but by refusal. The search for the face nearest to the point and the test whether it contains the point are parameters. False otherwise: a loose edge at a corner makes the program read outside its tables, a node can take the place of another, and nodes 999 columns or rows before the first face are left out (negation theorems)."
  },
  {
   "property": "C72",
   "status": "partial",
   "theorems": [
    "Verif.ToCurvi.convert_lattice_partial",
    "Verif.ToCurvi.far_node_left_out"
   ],
   "note": "Proved for plain grids of less than 999 rows and columns without loose edges; beyond that nodes may be left out, since their index is the one that means no index."
  },
  {
   "property": "C73",
   "status": "partial",
   "theorems": [
    "Verif.Listing.face_polygons_exact",
    "Verif.Listing.face_polygons_size",
    "Verif.Listing.face_polygons_two_calls",
    "Verif.Listing.filtered_polygons_exact",
    "Verif.Listing.filtered_refused",
    "Verif.Listing.size_not_written",
    "Verif.Listing.query_deletes_nodes",
    "Verif.Listing.border_faces_left_out",
    "Verif.Listing.filter_after_insert_undefined"
   ],
   "note": "Proved for every mesh and every order of the edges at a node: contents, order, closing and separators, reading back, size and overrun. False otherwise: if no face matches, the size is not written; the query deletes nodes without edges; a face at the border is never among the filtered ones, as its edges there have the missing value -999; after inserting an edge the filtered calls read outside their tables."
  },
  {
   "property": "C74",
   "status": "partial",
   "theorems": [
    "Verif.Listing.nodes_in_polygons_partial",
    "Verif.Listing.inside_or_outside",
    "Verif.Listing.deleted_node_chosen"
   ],
   "note": "Proved for all meshes and polygons, for nodes not in an island within a hole; with such an island the answer depends on the order of the polygons (C23). The test for a single ring is a parameter (C06). False for deleted nodes: they are listed as outside, or as inside when no polygon is given."
  },
  {
   "property": "C75",
   "status": "partial",
   "theorems": [
    "Verif.InsertEdge.radius_exact",
    "Verif.InsertEdge.refused_iff",
    "Verif.InsertEdge.insert_edge_exact",
    "Verif.InsertEdge.known_iff",
    "Verif.InsertEdge.edge_drawn_twice",
    "Verif.InsertEdge.deleted_edge_blocks_insertion",
    "Verif.InsertEdge.node_doubled",
    "Verif.InsertEdge.deleted_nodes_block_insertion"
   ],
   "note": "Proved for every mesh, every sequence of calls, every distance with the triangle inequality and every correct search: the ends, the indices, the added nodes and edge, undo and redo. False otherwise: an edge inserted before is not recognised until the mesh is administrated and is drawn twice; after the lengths were computed with a deleted edge in the mesh every call is refused as coinciding; a nodes tree built for a smaller box hides nodes, which get doubles; a mesh whose nodes are all deleted refuses the call."
  },
  {
   "property": "C76",
   "status": "partial",
   "theorems": [
    "Verif.Metrics.smoothness_exact",
    "Verif.Metrics.smoothness_meaning",
    "Verif.Metrics.direction_refused",
    "Verif.Metrics.collapsed_is_smooth"
   ],
   "note": "Proved for all grids and both directions over the reals. False only where a step has no length: the value is then one."
  },
  {
   "property": "C77",
   "status": "partial",
   "theorems": [
    "Verif.Metrics.curvature_table",
    "Verif.Metrics.curvature_missing",
    "Verif.Metrics.curvature_straight",
    "Verif.Metrics.curvature_on_circle_partial",
    "Verif.Metrics.circle_not_reciprocal",
    "Verif.Metrics.curvature_not_symmetric",
    "Verif.Metrics.sharp_turn_is_straight"
   ],
   "note": "Proved: which nodes get a value, the value on a line and on a circle with equal angles. The property is false: on a circle the value is 1000/(R sqrt(2+2cos)), about half of 1000/R; it changes when the numbering is reversed; a sharp turn with a right angle at the far node is reported like a straight line; a straight line has 1000/999999 instead of zero."
  },
  {
   "property": "C78",
   "status": "partial",
   "theorems": [
    "Verif.Snap.snap_accepted_iff",
    "Verif.Snap.snap_exact_partial",
    "Verif.Snap.snap_line_partial",
    "Verif.Snap.snap_others_partial",
    "Verif.Snap.share_bounds",
    "Verif.Snap.snap_undo_partial",
    "Verif.Snap.nearest_partial",
    "Verif.Snap.neighbours_follow_only_near_origin",
    "Verif.Snap.diagonal_line_misplaced",
    "Verif.Snap.hidden_row_not_snapped"
   ],
   "note": "Proved for all grids without hidden lines and control points on one grid line, over any ordered field with the square root, cosine and distance as parameters (the real ones meet the assumptions): the exact position of every node, the bounds, undo (also for control points not on one line), and the nearest point of a land boundary. The nearest point of a spline and the radius of the preset region are parameters. False otherwise: whether the neighbours follow depends on where the grid lies, because a move below 1e-5 of the coordinates counts as none; control points not on one grid line are accepted and nodes end up off the boundary; with a hidden first row nothing is snapped."
  },
  {
   "property": "C79",
   "status": "partial",
   "theorems": [
    "Verif.PolyEdit.ring_offset",
    "Verif.PolyEdit.offset_written_partial",
    "Verif.PolyEdit.offset_hole_ub",
    "Verif.PolyEdit.offset_depends_on_orientation",
    "Verif.PolyEdit.offset_inward_is_both",
    "Verif.PolyEdit.offset_two_throws"
   ],
   "note": "Proved for every closed ring in which no side goes straight back over the one before, over any ordered field with the right lengths: the offset ring is closed and each side is parallel to the old one at precisely the distance; and through the API for one polygon without holes. False otherwise: polygons with a hole lead to writes behind the end of the list; two polygons are joined without a separator and the call throws; the direction depends on the orientation of the ring; the inward flag returns both rings."
  },
  {
   "property": "C80",
   "status": "partial",
   "theorems": [
    "Verif.PolyEdit.snap_exact_partial",
    "Verif.PolyEdit.snap_beyond_ub",
    "Verif.PolyEdit.snap_two_ub",
    "Verif.PolyEdit.snap_repeated_ub",
    "Verif.PolyEdit.snap_opens_ring"
   ],
   "note": "Proved for one polygon without holes and every range. The nearest point is a parameter (C78). False otherwise: with several polygons, a hole or a repeated point the nodes are read behind the end of the ring; a range that ends at one copy of the closing point opens the ring."
  },
  {
   "property": "C81",
   "status": "partial",
   "theorems": [
    "Verif.PolyEdit.included_exact_partial",
    "Verif.PolyEdit.included_ignores_others",
    "Verif.PolyEdit.included_repeats_shift"
   ],
   "note": "Proved for all points without immediate repetition and all polygons with holes, for the first polygon. The test for a single ring is a parameter (C06). False otherwise: the other polygons are ignored; a repeated point shifts the answers after it."
  },
  {
   "property": "C82",
   "status": "partial",
   "theorems": [
    "Verif.EdgePick.edge_found_partial",
    "Verif.EdgePick.edge_deleted_partial",
    "Verif.EdgePick.edges_deleted_partial",
    "Verif.EdgePick.index_deleted",
    "Verif.EdgePick.index_not_checked",
    "Verif.EdgePick.undo_of_move_deletes_other_edge",
    "Verif.EdgePick.box_of_other_query_deletes_outside"
   ],
   "note": "Proved for all meshes and histories under the restrictions of C15 (one box for all queries, no undo of a move with the trees built). The property is false otherwise: after undo of a move, or after a query for nodes with another box, another edge is deleted; an index the mesh does not have leads to a read behind the end of the list."
  },
  {
   "property": "C83",
   "status": "partial",
   "theorems": [
    "Verif.Exchange.set_get",
    "Verif.Exchange.get_needs_room",
    "Verif.Exchange.set_get_draws_partial",
    "Verif.Exchange.add_get",
    "Verif.Exchange.add_undo",
    "Verif.Exchange.single_points_left_out",
    "Verif.Exchange.index_not_refused",
    "Verif.Exchange.undo_of_add_keeps_tree"
   ],
   "note": "Proved for all 1D meshes in which every point is valid and the end of an edge, and any number of additions; for other input the drawing is kept. False otherwise: points without an edge are left out and the indices behind them change; an index that is not one of a point leads to a read behind the end of the points. Undo of an addition leaves the search trees of the sum, so that a deletion at a point reads behind the end of the edges."
  },
  {
   "property": "C84",
   "status": "partial",
   "theorems": [
    "Verif.Exchange.contacts_set_get_partial",
    "Verif.Exchange.no_contacts_refused",
    "Verif.Exchange.more_contacts_read"
   ],
   "note": "Proved for all lists of at least one contact. False otherwise: an empty list is refused; the count passed for reading is not checked. That setting contacts cannot be undone is part of C37."
  },
  {
   "property": "C85",
   "status": "partial",
   "theorems": [
    "Verif.Ridge.samples_in_place",
    "Verif.Ridge.other_count_refused",
    "Verif.Ridge.plane_has_no_ridge_partial",
    "Verif.Ridge.plane_on_any_grid_partial",
    "Verif.Ridge.quadratic_exact_partial",
    "Verif.Ridge.strength_depends_on_row",
    "Verif.Ridge.tall_grid_not_a_number",
    "Verif.Ridge.smoothing_keeps_old_values",
    "Verif.Ridge.slope_taken_for_missing",
    "Verif.Ridge.listed_coordinates_undefined",
    "Verif.Ridge.no_columns_undefined"
   ],
   "note": "Proved for all regular grids with at most two rows (planes, any smoothing) or one row (quadratic functions, no smoothing) more than columns, and for planes on all non-degenerate grids. False otherwise: an index is limited by the wrong dimension, so with two rows more than columns the strength depends on the row and with three more it is not a number; after smoothing the gradient still uses one value from before; a slope of -999 is taken for a missing one; coordinates given for columns and rows, and smoothing a grid without columns, lead to reads out of bounds. The eigenvalues are a parameter; the refinement itself is not part of this property."
  },
  {
   "property": "C86",
   "status": "partial",
   "theorems": [
    "Verif.SmallFlow.small_deleted_partial",
    "Verif.SmallFlow.small_deleted_undo",
    "Verif.SmallFlow.nothing_small",
    "Verif.SmallFlow.flat_triangle_stays",
    "Verif.SmallFlow.neighbour_halved",
    "Verif.SmallFlow.numbering_matters"
   ],
   "note": "Proved for all meshes that can be administrated, thresholds and fractions, as far as no corner kept is an end of the outer side of another small triangle and at most 16 edges are gathered at a node; undo and redo without these conditions. False otherwise: triangles with corners on a line are no faces and are never removed; a triangle with two sides at the boundary pulls a corner of its neighbour with it; when small triangles share corners the result depends on the numbers of the nodes. Coordinates are rational numbers, the projection is Cartesian, and the centres of faces other than triangles are a parameter."
  },
  {
   "property": "C87",
   "status": "partial",
   "theorems": [
    "Verif.Casulli.refined_partial",
    "Verif.Casulli.nothing_selected",
    "Verif.Casulli.refinement_undo",
    "Verif.Casulli.no_diagonals",
    "Verif.Casulli.old_edges_stay",
    "Verif.Casulli.corner_edges_doubled",
    "Verif.Casulli.faceless_edge_fails",
    "Verif.Casulli.two_shared_edges_ub",
    "Verif.Casulli.stale_tables_ub"
   ],
   "note": "Nodes, coordinates and edges of the refined mesh are described exactly for all administrated meshes in which each edge has a face, two faces share at most one edge and lie on different sides of it, and boundary nodes that are no corners have two boundary edges; undo and redo without these conditions. False otherwise: edges between corners and at the rim of the selected part stay below the new ones; edges at corners are added several times; the step that should join nodes across faces joins nothing; an edge without a face makes the call fail with the mesh half changed; two faces with two common edges, and tables that are out of date after an edit, lead to reads out of bounds. The selection by polygon, the centres and the types of the nodes are parameters."
  },
  {
   "property": "C88",
   "status": "partial",
   "theorems": [
    "Verif.Globe.power_covers",
    "Verif.Globe.covers_partial",
    "Verif.Globe.apart_partial",
    "Verif.Globe.on_sphere_partial",
    "Verif.Globe.true_on_sphere_partial",
    "Verif.Globe.mirrored",
    "Verif.Globe.refused_iff",
    "Verif.Globe.row_faces",
    "Verif.Globe.odd_strip_missing",
    "Verif.Globe.one_node_empty",
    "Verif.Globe.negative_not_refused",
    "Verif.Globe.one_pentagon"
   ],
   "note": "Over the real numbers the faces are proved to cover the sphere without overlaps, with all corners on it, for 4, 5 and 6 times any power of two nodes and enough rows (Newton's method is shown to approach the height from above, so that rows are widened only while they are narrower than 60 degrees and the last row is reached). For other numbers under conditions on the rows. False otherwise: for every odd number of nodes from 1337 on a strip at 180 degrees is left open; a single node gives no face; negative numbers are accepted; in a widened row at most one face has five points. The nodes shared by faces, the merging of nodes and the deletion of edges at the end are not modelled."
  },
  {
   "property": "C89",
   "status": "partial",
   "theorems": [
    "Verif.GridOrtho.moved_only",
    "Verif.GridOrtho.outside_kept",
    "Verif.GridOrtho.frozen_kept_partial",
    "Verif.GridOrtho.frozen_inner_kept",
    "Verif.GridOrtho.rectangle_kept",
    "Verif.GridOrtho.numbers_partial",
    "Verif.GridOrtho.whole_types",
    "Verif.GridOrtho.undone",
    "Verif.GridOrtho.block_line_not_number",
    "Verif.GridOrtho.frozen_border_moved"
   ],
   "note": "Which nodes can move, undo and redo are proved for all grids, blocks, frozen nodes and numbers of iterations; with the types that are computed for a grid, with or without missing nodes, no inner node is taken for a node of a border, so that frozen inner nodes stay; that a rectangle stays, and that nodes stay numbers as long as no two neighbouring nodes coincide when an outer round begins, for grids without missing nodes that are orthogonalised as a whole. False otherwise: frozen nodes on a border are moved; the inner nodes on the first lines of a block in the inside of a grid become not-a-number. Numbers are elements of a field. The sums of the distances along the grid lines are modelled for grids without missing nodes and are a parameter otherwise; the closest point on a spline is a parameter, and that nodes of a border stay on it rests on it."
  },
  {
   "property": "C90",
   "status": "partial",
   "theorems": [
    "Verif.RoundGrid.refused",
    "Verif.RoundGrid.numbers_partial",
    "Verif.RoundGrid.shape",
    "Verif.RoundGrid.circles",
    "Verif.RoundGrid.same_distance",
    "Verif.RoundGrid.nodes_apart",
    "Verif.RoundGrid.ring_closed",
    "Verif.RoundGrid.columns_settings_ignored",
    "Verif.RoundGrid.rectangle",
    "Verif.RoundGrid.rectangle_apart",
    "Verif.RoundGrid.rows_not_from_origin",
    "Verif.RoundGrid.row_too_high",
    "Verif.RoundGrid.first_circle_outside",
    "Verif.RoundGrid.zero_size_not_numbers",
    "Verif.RoundGrid.fraction_undefined"
   ],
   "note": "Over the real numbers, with undefined conversions and infinite powers kept. For fractions up to one and maximum sizes that are not zero: nodes on circles with growing radii and equal angles, rings closed exactly when a full turn is asked for, no other nodes that coincide, straight lines turned about the origin without a radius, columns symmetric, between block and maximum size and with the uniform ones in the middle. The shape and that a row is on one circle for all parameters. False otherwise: graded rows do not begin at the origin and become higher than the maximum size; with graded rows the first circle is a block size outside the radius asked for; the grading of columns has no effect in a circular grid; a maximum size of zero is accepted and gives coordinates that are not finite; a large fraction is accepted and its conversion is undefined. Rounding of doubles, NaN parameters and memory are left out."
  },
  {
   "property": "C91",
   "status": "partial",
   "theorems": [
    "Verif.Connect.merges_close",
    "Verif.Connect.merged_once",
    "Verif.Connect.hanging_stay",
    "Verif.Connect.ends_decided",
    "Verif.Connect.edge_beside",
    "Verif.Connect.at_most_five",
    "Verif.Connect.six_undefined",
    "Verif.Connect.loose_edge_undefined",
    "Verif.Connect.strip_undefined",
    "Verif.Connect.crossing_left",
    "Verif.Connect.merged_within",
    "Verif.Connect.ends_to_two",
    "Verif.Connect.test_direction"
   ],
   "note": "Proved for all meshes and all outcomes of the test for close edges, whenever the call succeeds. With the test as it is for the Cartesian projection, over the real numbers: merged nodes are ends of two boundary edges and less than the fraction of the length of both apart, the two ends of an edge are not put on the list with the same node, and the direction of the other edge does not matter. False otherwise: six close edges overrun an array of five instead of being refused, for every mesh; the table of nodes has the size of the number of edges, so a mesh with edges without faces can lead to reads out of bounds; a strip of one element between finer meshes has its second side deleted and then used; where four blocks meet, two of the four nodes are left apart. The test for other projections, the tolerance for equal points and the chain of opposite edges are parameters, the nodes and edges put in for hanging nodes are left out, and the fraction is assumed to be in range."
  },
  {
   "property": "C92",
   "status": "partial",
   "theorems": [
    "Verif.Contacts.Side.sides_eq",
    "Verif.Contacts.Side.order_exchanged",
    "Verif.Contacts.Side.without_edges",
    "Verif.Contacts.Side.branch_ignored",
    "Verif.Contacts.Side.turned_back"
   ],
   "note": "Proved for all administrated 1D meshes, nodes with an edge and factors, over the real numbers and for the Cartesian projection. False otherwise: where three edges meet only the first two count, and a segment can run along the third; where the mesh turns back to the place it came from both segments are points and nothing is found. Rounding and the other projections are left out; which faces the segments meet is a parameter of C26."
  },
  {
   "property": "C93",
   "status": "partial",
   "theorems": [
    "Verif.Convert.node_by_node_partial",
    "Verif.Convert.there_and_back",
    "Verif.Convert.back_and_there",
    "Verif.Convert.undone",
    "Verif.Convert.search_fresh",
    "Verif.Convert.same_projection",
    "Verif.Convert.refused",
    "Verif.Convert.asked_partial",
    "Verif.Convert.accurate_not_made",
    "Verif.Convert.loose_node_lost",
    "Verif.Convert.line_left",
    "Verif.Convert.undo_search_stale"
   ],
   "note": "Proved for all meshes without loose nodes whose nodes can be converted, with any formulas; there and back for formulas that undo each other on the nodes; undo and redo for all meshes. False otherwise: the accurate projection is never made although the call succeeds, and a spherical mesh is even turned into one in the plane; nodes without edges are lost; the 1D mesh and other objects of the kernel keep their coordinates although the projection of the kernel changes; after undo a search for nodes looks at the converted ones. That undo leaves the projection of the kernel is C37. The formulas are parameters and exact; the administration of faces is left out."
  },
  {
   "property": "C94",
   "status": "partial",
   "theorems": [
    "Verif.Contacts.Lengths.radius_longest",
    "Verif.Contacts.Lengths.radii_longest",
    "Verif.Contacts.Lengths.added_before",
    "Verif.Contacts.Lengths.added_after_old",
    "Verif.Contacts.Lengths.added_after_undefined",
    "Verif.Contacts.Lengths.call_undefined",
    "Verif.Contacts.Lengths.replaced_wrong"
   ],
   "note": "Proved for all 1D meshes as long as nothing is added after contacts have been sought for the first time; the nodes there were before stay right also then. False otherwise: for every mesh to which something is added after contacts have been sought, seeking them again at an added node reads beyond the kept lengths; after undo and another addition the lengths of the mesh that was undone are used. Deleted edges (C26), nodes with more than sixteen edges and the search itself are left out."
  },
  {
   "property": "C95",
   "status": "partial",
   "theorems": [
    "Verif.Derefine.announced",
    "Verif.Derefine.corners_apart",
    "Verif.Derefine.succeeds",
    "Verif.Derefine.seed_inside",
    "Verif.Derefine.empty_undefined",
    "Verif.Derefine.far_kept",
    "Verif.Derefine.other_part_kept"
   ],
   "note": "Proved for all meshes with elements and all neighbour relations in which no element is a neighbour of itself. False otherwise: a mesh without elements is undefined behaviour; parts that do not hang together with the first element, and elements more than a thousand steps away, are never chosen. Not settled: whether two chosen elements can share a side. The deletion of the elements itself is not modelled."
  }
 ]
}