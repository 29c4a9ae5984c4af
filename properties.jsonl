{"id": "C01", "title": "Undo/redo walks a linear history", "statement": "For every sequence of recorded edits, undo and redo calls, the undo stack behaves as a linear history with a cursor: undo returns the state before the most recent not-yet-undone edit, redo re-applies the most recently undone edit, undo immediately followed by redo (and redo followed by undo) changes nothing, and a new edit discards the redo branch of its own kernel.", "quantifier": "every finite sequence of add/undo/redo calls, every maximum size and every kernel id", "why_tests_cant": "Any test fixes one short history; the claim is about all interleavings of edits, undos and redos, including those that overflow the stack.", "anchors": ["libs/MeshKernel/src/UndoActions/UndoActionStack.cpp: Add, Undo, Commit", "libs/MeshKernelApi/src/MeshKernel.cpp: mkernel_undo_state, mkernel_redo_state"]}
{"id": "C02", "title": "The undo history is bounded and evicts oldest first", "statement": "After mkernel_set_undo_size(n) followed by any calls, at most n edits can be undone; when a new edit exceeds the bound exactly the oldest one is forgotten; with n = 0 nothing is ever recorded.", "quantifier": "every history and every n", "why_tests_cant": "The bound must hold in every reachable state, after any mixture of add, undo, redo and resize.", "anchors": ["libs/MeshKernel/src/UndoActions/UndoActionStack.cpp: Add, Commit, SetMaximumSize, Size", "libs/MeshKernelApi/src/MeshKernel.cpp: mkernel_set_undo_size"]}
{"id": "C03", "title": "Undo records of different kernels do not interfere", "statement": "Clearing, expunging or counting the undo records of one kernel id neither removes, reorders nor counts a record of another kernel; the per-kernel counts add up to the total.", "quantifier": "every history over any number of kernels", "why_tests_cant": "Requires all interleavings of kernels.", "anchors": ["libs/MeshKernel/src/UndoActions/UndoActionStack.cpp: Remove, CommittedSize, RestoredSize", "libs/MeshKernelApi/src/MeshKernel.cpp: mkernel_undo_state_count_for_id, mkernel_clear_undo_state_for_id"]}
{"id": "C04", "title": "No undo record outlives its kernel", "statement": "After mkernel_expunge_state(id), no later undo or redo call touches the data of that kernel (no record on the stack refers to freed data), whatever was called before.", "quantifier": "every API history", "why_tests_cant": "A dangling reference appears only for particular orders of edit, expunge and undo.", "anchors": ["libs/MeshKernelApi/src/MeshKernel.cpp: mkernel_expunge_state, mkernel_mesh2d_snap_to_landboundary, mkernel_undo_state"]}
{"id": "C05", "title": "Unknown kernel ids are rejected without effect", "statement": "Every API call given an id that was never allocated, or that has been expunged, returns a non-zero exit code and leaves every kernel and the undo history unchanged.", "quantifier": "every API function, id and history", "why_tests_cant": "Quantifies over every history after which the id is invalid.", "anchors": ["libs/MeshKernelApi/src/MeshKernel.cpp: meshKernelState, mkernel_is_valid_state, mkernel_deallocate_state"]}
{"id": "C06", "title": "Kernel ids are never reused", "statement": "mkernel_allocate_state never returns an id that an earlier successful allocation returned, even after deallocation or expunging.", "quantifier": "every history of allocate/deallocate/expunge/clear calls", "why_tests_cant": "Universal over histories.", "anchors": ["libs/MeshKernelApi/src/MeshKernel.cpp: mkernel_allocate_state, meshKernelStateCounter"]}
{"id": "C07", "title": "A failing call changes nothing", "statement": "An API call which returns a non-zero exit code leaves the kernel's meshes, contacts and undo history exactly as they were.", "quantifier": "every call, every argument that makes it fail", "why_tests_cant": "Failure atomicity ranges over all failing inputs.", "anchors": ["libs/MeshKernelApi/src/MeshKernel.cpp: mkernel_contacts_compute_*, mkernel_allocate_state", "libs/MeshKernel/src/Contacts.cpp"]}
{"id": "C08", "title": "Undoing a mesh edit restores the mesh, redoing re-applies it", "statement": "For every mesh and every sequence of node/edge edits (insert node, connect nodes, delete edge, delete node, move/reset node, reset edge, merge nodes), undoing all of them in reverse order gives back the original valid nodes and edges with their coordinates and endpoints, and redoing them gives the edited mesh.", "quantifier": "every mesh, every list of edits", "why_tests_cant": "Inverse law over all meshes and all sequences, including edits that touch the same entity several times.", "anchors": ["libs/MeshKernel/src/Mesh.cpp: CommitAction, RestoreAction, InsertNode, ConnectNodes, DeleteEdge, DeleteNode, MergeTwoNodes", "libs/MeshKernel/src/UndoActions/CompoundUndoAction.cpp"]}
{"id": "C09", "title": "Deleting a node removes exactly the node and its incident edges", "statement": "After mkernel_mesh2d_delete_node the node is invalid, every edge that used it is invalid, and every other node and edge is unchanged.", "quantifier": "every mesh with up-to-date administration and every node index", "why_tests_cant": "All meshes.", "anchors": ["libs/MeshKernel/src/Mesh.cpp: DeleteNode, DeleteEdge"]}
{"id": "C10", "title": "Storing a mesh compacts it without changing the drawing", "statement": "mkernel_mesh2d_set (and every construction of a mesh) removes invalid edges and unused or invalid nodes: the drawn edges, as pairs of coordinates and in their order, are unchanged, the remaining nodes keep their order, every remaining edge joins two remaining nodes, and compacting twice equals compacting once.", "quantifier": "every mesh including ones with deleted nodes/edges", "why_tests_cant": "Index renumbering must be right for every pattern of deletions.", "anchors": ["libs/MeshKernel/src/Mesh.cpp: DeleteInvalidNodesAndEdges, GetValidNodeMapping, GetValidEdgeMapping, InvalidateUnConnectedNodes", "libs/MeshKernelApi/src/MeshKernel.cpp: mkernel_mesh2d_set"]}
{"id": "C11", "title": "Node-edge administration is exact", "statement": "After administration, for every node the list of its edges contains precisely the valid edges having that node as an endpoint, once each (as long as at most 16 edges meet there), and the count matches.", "quantifier": "every node and edge list", "why_tests_cant": "All graphs.", "anchors": ["libs/MeshKernel/src/Mesh.cpp: NodeAdministration, AdministrateNodesEdges"]}
{"id": "C12", "title": "Merging two nodes redirects edges and leaves no degenerate edge", "statement": "After merging node a into node b, a is invalid, no valid edge refers to a, the edge a-b is gone, every other neighbour of a is a neighbour of b, no neighbour of b was lost and no other edge changed.", "quantifier": "every mesh and every pair of valid distinct nodes", "why_tests_cant": "All local topologies.", "anchors": ["libs/MeshKernel/src/Mesh.cpp: MergeTwoNodes", "libs/MeshKernelApi/src/MeshKernel.cpp: mkernel_mesh2d_merge_two_nodes"]}
{"id": "C13", "title": "Joining meshes is a disjoint union", "statement": "Adding mesh B to mesh A keeps A's nodes, edges and faces at their indices and appends B's, with B's indices shifted by the sizes of A; undefined (missing) entries remain undefined.", "quantifier": "every pair of meshes", "why_tests_cant": "All meshes; missing entries occur only in particular meshes.", "anchors": ["libs/MeshKernel/src/Mesh.cpp: operator+=", "libs/MeshKernel/src/Mesh2D.cpp: Merge", "libs/MeshKernelApi/src/MeshKernel.cpp: mkernel_mesh2d_add"]}
{"id": "C14", "title": "Discovered faces are proper and consistent with edges", "statement": "Every face found has between 3 and 6 distinct nodes and distinct edges, consecutive nodes are joined by the listed edge, every edge borders at most two faces, and edge-to-face and face-to-edge lists agree.", "quantifier": "every mesh", "why_tests_cant": "Invariant over all graphs and embeddings.", "anchors": ["libs/MeshKernel/src/Mesh2D.cpp: FindFaces, FindFacesRecursive, HasDuplicateNodes"]}
{"id": "C15", "title": "Spatial queries never use a stale index", "statement": "A nearest-location query always answers from the current coordinates, whatever edits, undo/redo calls and other queries happened before.", "quantifier": "every history of edits and queries", "why_tests_cant": "A stale cache shows only for particular orders of queries and edits.", "anchors": ["libs/MeshKernel/src/Mesh.cpp: BuildTree, CommitAction, RestoreAction, FindLocationIndex", "libs/MeshKernel/include/MeshKernel/Mesh.hpp: SetNodesRTreeRequiresUpdate"]}
{"id": "C16", "title": "Curvilinear node numbering is a bijection", "statement": "The (n,m) <-> flat index conversions of a curvilinear grid are mutually inverse on valid indices and reject everything else; node, edge and face counts satisfy Euler's relation nodes - edges + faces = 1.", "quantifier": "all grid dimensions and indices", "why_tests_cant": "All dimensions.", "anchors": ["libs/MeshKernel/include/MeshKernel/CurvilinearGrid/CurvilinearGrid.hpp: GetNodeIndex, GetCurvilinearGridNodeIndices, GetNumEdges, GetNumFaces", "libs/MeshKernel/src/CurvilinearGrid/CurvilinearGrid.cpp: ComputeNodes, ComputeEdges"]}
{"id": "C17", "title": "Curvilinear to unstructured conversion is faithful", "statement": "The nodes and edges returned for a curvilinear grid contain every node once in row-major order and precisely the horizontal and vertical grid segments, each once, with valid distinct end points.", "quantifier": "all grid dimensions", "why_tests_cant": "All dimensions.", "anchors": ["libs/MeshKernel/src/CurvilinearGrid/CurvilinearGrid.cpp: ComputeNodes, ComputeEdges", "libs/MeshKernelApi/src/MeshKernel.cpp: mkernel_curvilinear_convert_to_mesh2d"]}
{"id": "C18", "title": "Invalid-node clean-up reaches the largest consistent grid", "statement": "Cleaning a curvilinear grid terminates, keeps exactly the largest set of nodes in which every node belongs to a face with four kept nodes, never revives or moves a node, and is idempotent.", "quantifier": "every pattern of invalid nodes and every size", "why_tests_cant": "Cascading deletions depend on the whole pattern.", "anchors": ["libs/MeshKernel/src/CurvilinearGrid/CurvilinearGrid.cpp: RemoveInvalidNodes, ComputeGridFacesMask"]}
{"id": "C19", "title": "Undo of curvilinear edits restores the grid", "statement": "For every curvilinear grid, undoing move node, delete node, delete interior, delete exterior, line mirror, refinement and de-refinement restores every node of the grid.", "quantifier": "every grid, block and node", "why_tests_cant": "All grids and positions.", "anchors": ["libs/MeshKernel/src/CurvilinearGrid/CurvilinearGrid.cpp: RestoreAction, CommitAction, DeleteNode, MoveNode", "libs/MeshKernel/src/CurvilinearGrid/CurvilinearGridBlock.cpp", "libs/MeshKernel/src/CurvilinearGrid/CurvilinearGridLineMirror.cpp"]}
{"id": "C20", "title": "Delete interior/exterior remove exactly the selected nodes", "statement": "Delete-interior invalidates precisely the nodes strictly inside the block, delete-exterior precisely the nodes outside the closed block, and neither touches any other node.", "quantifier": "every grid and block", "why_tests_cant": "All grids and blocks.", "anchors": ["libs/MeshKernel/src/CurvilinearGrid/CurvilinearGridDeleteInterior.cpp", "libs/MeshKernel/src/CurvilinearGrid/CurvilinearGridDeleteExterior.cpp"]}
{"id": "C21", "title": "De-refinement undoes refinement", "statement": "De-refining a curvilinear grid keeps exactly the grid lines not strictly inside the selected range, terminates, and applied to the block produced by refining one cell row by any factor returns the original nodes.", "quantifier": "every grid, line range and refinement factor", "why_tests_cant": "All factors and sizes.", "anchors": ["libs/MeshKernel/src/CurvilinearGrid/CurvilinearGridRefinement.cpp", "libs/MeshKernel/src/CurvilinearGrid/CurvilinearGridDeRefinement.cpp"]}
{"id": "C22", "title": "Polygon lists survive parse and gather", "statement": "Splitting a point list at separators and gathering it again returns the same list, for any number of outer polygons with any number of holes; every point is assigned to precisely one ring.", "quantifier": "every well-formed separated point list", "why_tests_cant": "All nestings and lengths.", "anchors": ["libs/MeshKernel/src/Polygons.cpp: Polygons, GatherAllEnclosureNodes", "libs/MeshKernel/src/Operations.cpp: FindIndices", "libs/MeshKernel/src/PolygonalEnclosure.cpp"]}
{"id": "C23", "title": "Point-in-polygon answers are well defined", "statement": "For a polygon list the answer does not depend on the order of the polygons, equals 'inside some outer ring and in none of its holes', is true everywhere when no polygon is given; for one ring the answer does not depend on the starting vertex or on repeating a vertex.", "quantifier": "every polygon list and point", "why_tests_cant": "All polygons, including degenerate ones and nested islands.", "anchors": ["libs/MeshKernel/src/Polygons.cpp: IsPointInPolygons, IsPointInAnyPolygon", "libs/MeshKernel/src/Polygon.cpp: Contains, ContainsCartesian", "libs/MeshKernel/src/Operations.cpp: IsPointInPolygonNodes"]}
{"id": "C24", "title": "Polygon area and centre of mass are geometric", "statement": "The reported area is the shoelace area, does not depend on the chosen reference point, changes sign-flag only when the orientation is reversed; the special code for triangles and quadrilaterals agrees with the general code; the centre moves with the polygon.", "quantifier": "every closed polygon (exact arithmetic)", "why_tests_cant": "All polygons.", "anchors": ["libs/MeshKernel/src/Polygon.cpp: FaceAreaAndCenterOfMass"]}
{"id": "C25", "title": "Polygon refinement keeps all vertices", "statement": "Refining a polygon between two vertices keeps every original vertex in order, keeps the polygon closed and adds only points on the refined side segments; segments outside the range get no new points.", "quantifier": "every polygon, index pair and distance", "why_tests_cant": "All polygons and index pairs including wrap-around.", "anchors": ["libs/MeshKernel/src/Polygon.cpp: Refine, RefineSegment"]}
{"id": "C26", "title": "Contacts are well formed", "statement": "Every contact computation returns index lists of equal length, only refers to existing 1D nodes and 2D faces, respects the 1D node mask, and the multiple and boundary methods use a face at most once.", "quantifier": "every pair of meshes, mask and polygon/point set", "why_tests_cant": "All geometric configurations.", "anchors": ["libs/MeshKernel/src/Contacts.cpp"]}
{"id": "C27", "title": "Removing disconnected regions keeps exactly the largest one", "statement": "The labelling assigns the same label to two faces precisely when they are connected through shared edges; removal deletes no edge of the largest region and every edge of the others, and undo restores the mesh.", "quantifier": "every mesh", "why_tests_cant": "Connectivity is a property of arbitrary graphs.", "anchors": ["libs/MeshKernel/src/RemoveDisconnectedRegions.cpp"]}
{"id": "C28", "title": "1D network discretization covers every polyline", "statement": "Computing chainages at an interval keeps all given chainages and leaves no gap larger than the interval; the end points of each polyline are kept; the 1D mesh joins consecutive points of every polyline and no two polylines.", "quantifier": "every network and offset", "why_tests_cant": "All networks; the third and later polylines behave differently from the first two.", "anchors": ["libs/MeshKernel/src/Network1D.cpp", "libs/MeshKernel/src/Mesh1D.cpp: Mesh1D(Network1D&, double)"]}
{"id": "C29", "title": "Averaging interpolation stays within the data", "statement": "Each averaging method returns either the missing value or a value between the smallest and largest sample (the min/max/closest methods return an actual sample value); missing is returned precisely when there are too few samples.", "quantifier": "every list of samples", "why_tests_cant": "All sample sets.", "anchors": ["libs/MeshKernel/src/AveragingStrategies"]}
{"id": "C30", "title": "Parameter checks accept precisely the documented ranges", "statement": "Each range check throws a range error if and only if the value is outside the interval named by the check; open, closed and half-open variants differ only on the end points.", "quantifier": "all values and bounds", "why_tests_cant": "All values.", "anchors": ["libs/MeshKernel/include/MeshKernel/RangeCheck.hpp"]}
{"id": "C31", "title": "Circular navigation is a bijection", "statement": "Stepping forward then backward around a ring of any size returns to the start, stepping size times is the identity, and out-of-range positions are rejected.", "quantifier": "all ring sizes and positions", "why_tests_cant": "All sizes.", "anchors": ["libs/MeshKernel/src/Operations.cpp: NextCircularForwardIndex, NextCircularBackwardIndex", "libs/MeshKernel/include/MeshKernel/Utilities/NumericFunctions.hpp: RotateIndex"]}
{"id": "C32", "title": "Bounding boxes are tight and merge correctly", "statement": "The bounding box of a point set contains all valid points and is the smallest such box; merging gives the smallest box containing both; two boxes overlap precisely when they share a point.", "quantifier": "all point sets and boxes", "why_tests_cant": "All inputs.", "anchors": ["libs/MeshKernel/include/MeshKernel/BoundingBox.hpp"]}
{"id": "C33", "title": "Matrix row/column editing is exact", "statement": "Erasing an inserted row/column restores the matrix; erasing a range keeps exactly the other rows; reordering a row by a permutation puts the right entry in each place and terminates.", "quantifier": "all matrices and index ranges", "why_tests_cant": "All sizes and permutations.", "anchors": ["libs/MeshKernel/include/MeshKernel/Utilities/LinearAlgebra.hpp"]}
{"id": "C34", "title": "Every failure is reported", "statement": "Every exception that escapes an algorithm is translated to the documented non-zero exit code, the stored message never overruns the caller's buffer, and a successful call returns zero.", "quantifier": "all exceptions and messages", "why_tests_cant": "All messages and exception kinds.", "anchors": ["libs/MeshKernelApi/src/MeshKernel.cpp: HandleException, mkernel_get_error, mkernel_get_geometry_error"]}
{"id": "C35", "title": "Rectangular grids have the requested shape", "statement": "A generated cartesian rectangular grid has (columns+1) x (rows+1) nodes, neighbouring nodes are exactly one block apart in perpendicular directions for every rotation angle, and the grid covers the requested extension.", "quantifier": "all parameters", "why_tests_cant": "All parameters.", "anchors": ["libs/MeshKernel/src/CurvilinearGrid/CurvilinearGridRectangular.cpp"]}
{"id": "C36", "title": "Boundary polygons of a curvilinear grid close up", "statement": "The walk that assembles boundary polygons always terminates, never runs off the edge set, yields closed polygons and uses every boundary edge exactly once.", "quantifier": "every pattern of valid faces", "why_tests_cant": "Depends on the whole pattern of holes.", "anchors": ["libs/MeshKernel/src/CurvilinearGrid/CurvilinearGrid.cpp: ComputeBoundaryEdges, ComputeBoundaryPolygons"]}
{"id": "C37", "title": "State snapshots undo whole-mesh replacements", "statement": "Undoing mesh2d_set, mesh1d_set, contacts_set, curvilinear_set, network1d_set and the grid generators restores the previous objects of the kernel, and redo brings back the new ones.", "quantifier": "every history of replacements", "why_tests_cant": "All histories; aliasing of shared data shows only for some calls.", "anchors": ["libs/MeshKernelApi/src/MeshKernel.cpp", "libs/MeshKernelApi/src/MKStateUndoAction.cpp"]}
{"id": "C38", "title": "Queries do not change the kernel", "statement": "Asking for the dimensions or data of a mesh changes neither its contents nor what later undo and redo calls restore.", "quantifier": "every mesh, every history", "why_tests_cant": "Shows only when a query falls between particular edits and undo.", "anchors": ["libs/MeshKernelApi/src/MeshKernel.cpp: mkernel_mesh2d_get_dimensions", "libs/MeshKernel/src/Mesh.cpp: AdministrateNodesEdges, SetUnConnectedNodesAndEdgesToInvalid"]}
{"id": "C39", "title": "Moving a node takes it to the target and is local", "statement": "mkernel_mesh2d_move_node puts the node at the requested position, leaves every node beyond the distance of the move where it is, moves the nodes in between by a fraction of the displacement that never exceeds 1, and moving a node to its own position changes nothing.", "quantifier": "every mesh, node and target position", "why_tests_cant": "All configurations of nodes; division by zero only for the null move.", "anchors": ["libs/MeshKernel/src/Mesh.cpp: MoveNode", "libs/MeshKernelApi/src/MeshKernel.cpp: mkernel_mesh2d_move_node"]}
{"id": "C40", "title": "Interactive algorithms work on the current object", "statement": "Every step of an interactive algorithm (mesh orthogonalization, grid orthogonalization, line shift) edits the mesh or grid the kernel holds at that moment, or reports an error when there is none to work on; it never uses a mesh or grid that has been replaced or freed.", "quantifier": "every history of API calls", "why_tests_cant": "The order initialize, replace, clear, step is not exercised by tests, and use of freed memory need not show.", "anchors": ["libs/MeshKernelApi/src/MeshKernel.cpp: mkernel_mesh2d_initialize_orthogonalization, mkernel_curvilinear_initialize_line_shift, mkernel_curvilinear_set", "libs/MeshKernelApi/include/MeshKernelApi/State.hpp"]}
{"id": "C41", "title": "Linear refinement redistributes a range of a polygon and nothing else", "statement": "mkernel_polygon_linear_refine keeps the vertices outside the chosen range, begins and ends the range at its old ends, and places the new vertices on the old polyline at increasing distances whose steps go over from the length of the first side to that of the last; every returned point is a vertex of the refined polygon, and positions outside the polygon are refused.", "quantifier": "every closed polygon, every pair of positions", "why_tests_cant": "An iterative algorithm with a bounded number of rounds; whether it has finished by then depends on the whole range.", "anchors": ["libs/MeshKernel/src/Polygon.cpp: LinearRefine, computeAverageLengths, smoothCumulativeDistance, smoothAverageLengths", "libs/MeshKernelApi/src/MeshKernel.cpp: mkernel_polygon_linear_refine"]}
{"id": "C42", "title": "Restrictions of a location query are honoured", "statement": "A query for the nearest location within a bounding box, or among the locations allowed by a mask, returns the nearest one that meets the restriction and fails only if none does.", "quantifier": "every mesh, box, mask and point", "why_tests_cant": "Shows only when the nearest location of all does not meet the restriction.", "anchors": ["libs/MeshKernel/src/Mesh.cpp: FindLocationIndex, FindNodeCloseToAPoint", "libs/MeshKernelApi/src/MeshKernel.cpp: mkernel_mesh2d_get_node_index, mkernel_mesh2d_get_location_index", "libs/MeshKernel/src/Contacts.cpp: ComputeContactsWithPolygons"]}
{"id": "C43", "title": "Spherical rectangular grids stay on the globe and reach the end of the extension", "statement": "A rectangular grid made on an extension in spherical coordinates has equally spaced meridians, strictly increasing latitudes from the origin on, no latitude beyond a pole, and reaches the end of the extension or the pole; the algorithm that counts the rows terminates.", "quantifier": "all origins, extensions and block sizes", "why_tests_cant": "The row heights depend on the latitude through cosines; the number of rows is found by iteration, so every origin and block size takes another path.", "anchors": ["libs/MeshKernel/src/CurvilinearGrid/CurvilinearGridRectangular.cpp: ComputeSpherical, ComputeLatitudeIncrementWithAdjustment, ComputeNumRows", "libs/MeshKernelApi/src/MeshKernel.cpp: mkernel_curvilinear_compute_rectangular_grid_on_extension"]}
{"id": "C44", "title": "Every cell of the mesh is reported as a face", "statement": "Every cell of the plane that the edges enclose and that has 3 to 6 corners is among the faces found, whatever the numbering of nodes and edges, and the faces found are such cells.", "quantifier": "every mesh", "why_tests_cant": "Whether a cell is found depends on the faces found before it, so on the numbering and on the whole mesh.", "anchors": ["libs/MeshKernel/src/Mesh2D.cpp: FindFaces, FindFacesRecursive, HasDuplicateEdgeFaces", "libs/MeshKernel/src/Mesh.cpp: SortEdgesInCounterClockWiseOrder"]}
{"id": "C45", "title": "Faces handed in with a mesh are kept", "statement": "A mesh set or added together with its faces has exactly these faces, in the same order; the edges of a face are its sides, in the order of its nodes; the faces listed at an edge are those it is a side of; and the face arrays handed out are those handed in. Faces that do not fit the mesh are refused.", "quantifier": "every mesh and every list of faces", "why_tests_cant": "The sides are looked for by a walk over the edges at each node, so the outcome depends on the numbering and on edges that are not sides.", "anchors": ["libs/MeshKernel/src/Mesh2D.cpp: FindFacesGivenFaceNodesMapping", "libs/MeshKernel/include/MeshKernel/Entities.hpp: ConvertToFaceNodesVector", "libs/MeshKernelApi/include/MeshKernelApi/Utils.hpp: SetMesh2dApiData", "libs/MeshKernelApi/src/MeshKernel.cpp: mkernel_mesh2d_set, mkernel_mesh2d_add, mkernel_mesh2d_get_data"]}
{"id": "C46", "title": "Orthogonalization keeps the outline and everything outside the polygon", "statement": "Orthogonalization without land boundaries moves only nodes inside the selecting polygon. Corners of the mesh and nodes with less than two edges stay where they are; every other node on the boundary of the mesh stays on the two boundary edges that meet in it. Undo puts all nodes back. The result does not depend on the order in which the parallel loops treat the nodes.", "quantifier": "every mesh, polygon, weights and numbers of iterations; all schedules of the parallel loops", "why_tests_cant": "The displacements come from an iteration over weights of the whole mesh; schedules cannot be enumerated by tests.", "anchors": ["libs/MeshKernel/src/OrthogonalizationAndSmoothing.cpp: Initialize, Compute, Solve, SnapMeshToOriginalMeshBoundary, UpdateNodeCoordinates", "libs/MeshKernel/src/Mesh2D.cpp: ClassifyNodes", "libs/MeshKernel/src/UndoActions/NodeTranslationAction.cpp", "libs/MeshKernelApi/src/MeshKernel.cpp: mkernel_mesh2d_compute_orthogonalization"]}
{"id": "C47", "title": "A point is matched with the face it lies in", "statement": "When a 1d network is connected with a 2d mesh, each 1d node is matched with a face exactly when it lies in that face: a point inside a face gets that face, a point outside the mesh gets none, and every point gets an answer.", "quantifier": "every mesh and every list of points", "why_tests_cant": "The faces tried depend on the nearest edge of the whole mesh.", "anchors": ["libs/MeshKernel/src/Mesh2D.cpp: PointFaceIndices, ComputeFaceClosedPolygon", "libs/MeshKernel/src/Mesh.cpp: FindLocationIndex, ComputeEdgesCenters", "libs/MeshKernel/src/Operations.cpp: IsPointInPolygonNodes, ComputeEdgeCenters", "libs/MeshKernel/src/Contacts.cpp: ComputeSingleContacts", "libs/MeshKernelApi/src/MeshKernel.cpp: mkernel_contacts_compute_single, mkernel_contacts_compute_multiple"]}
{"id": "C48", "title": "Splines are the natural cubic splines through their control points", "statement": "The points handed out for splines lie on the natural cubic splines through the control points handed in, at equal parameter steps, with all control points among them and the splines divided as in the input. Adding, replacing, deleting, swapping and reversing splines keeps this for every spline. Snapping a range of a spline changes this range only.", "quantifier": "all control points, numbers of points between them and histories of edits", "why_tests_cant": "The spline depends on all control points through a linear system; edits can be combined in any order.", "anchors": ["libs/MeshKernel/src/SplineAlgorithms.cpp: SecondOrderDerivative", "libs/MeshKernel/include/MeshKernel/Operations.hpp: ComputePointOnSplineAtAdimensionalDistance", "libs/MeshKernel/src/Splines.cpp: AddSpline, Replace, DeleteSpline, SwapSplines, Reverse, AddPointInExistingSpline, Evaluate", "libs/MeshKernelApi/src/MeshKernel.cpp: mkernel_get_splines, mkernel_splines_snap_to_landboundary"]}
{"id": "C49", "title": "The edges and faces a polygon crosses are found exactly", "statement": "The call for the intersections of a mesh with a polygon returns: every edge of the mesh that the rings of the polygon cross, once, with a segment that crosses it, and no other edge; every face with a crossed side, and no other face, each with its crossed sides in the order in which the ring passes them. Two segments cross exactly when they share a point and are not parallel.", "quantifier": "every mesh and every polygon", "why_tests_cant": "The search spreads from face to face along the polygon, so what is found depends on the whole mesh, the polygon and the order of visits; whether it ends is a property of all runs.", "anchors": ["libs/MeshKernel/src/Mesh2DIntersections.cpp: Compute, GetIntersectionSeed, GetNextEdgeIntersection, IntersectFaceEdges", "libs/MeshKernel/src/Operations.cpp: AreSegmentsCrossing", "libs/MeshKernel/src/Mesh2D.cpp: GetBoundingBox, GetEdgesBoundingBoxes", "libs/MeshKernelApi/src/MeshKernel.cpp: mkernel_mesh2d_intersections_from_polygon"]}
{"id": "C50", "title": "Deletion by a polygon removes exactly the selected part", "statement": "Deleting by a polygon with a given option, inverted or not, removes from the mesh exactly the edges all of whose faces are selected, and the nodes these edges leave unconnected: a face is selected when all its nodes are inside and no side is crossed, when all are inside or a side is crossed, or when its circumcentre is inside. Every face that is not selected keeps all its nodes, edges and numbers. The mesh changes only when the call succeeds, and undo brings back everything.", "quantifier": "every mesh, polygon, option, projection and order of the edges around the nodes", "why_tests_cant": "Which nodes survive depends on counts kept up to date over all edges; a face far from the polygon must never be touched.", "anchors": ["libs/MeshKernel/src/Mesh2D.cpp: DeleteMesh, DeleteMeshFaces", "libs/MeshKernel/src/Mesh2DIntersections.cpp: Mesh2DIntersections, Compute", "libs/MeshKernel/src/Mesh.cpp: DeleteEdge, DeleteNode, SetUnconnectedNodesAndEdgesToInvalid", "libs/MeshKernelApi/src/MeshKernel.cpp: mkernel_mesh2d_delete"]}
{"id": "C51", "title": "Hanging edges are found and deleted exactly", "statement": "The hanging edges reported are exactly the edges with an end that no other edge comes to. Deleting them deletes these and nothing else, takes no side from a face, leaves no hanging edge, and can be undone.", "quantifier": "every mesh and every history of edits before the call", "why_tests_cant": "The result depends on counts that edits have to keep up to date.", "anchors": ["libs/MeshKernel/src/Mesh2D.cpp: GetHangingEdges, DeleteHangingEdges", "libs/MeshKernelApi/src/MeshKernel.cpp: mkernel_mesh2d_count_hanging_edges, mkernel_mesh2d_get_hanging_edges, mkernel_mesh2d_delete_hanging_edges"]}
{"id": "C52", "title": "The boundary polygons are the closed outlines of the mesh", "statement": "The boundary polygons handed out for a 2d mesh are closed polygons of at least three sides, separated by missing points: each ends at the node where it started. Their sides are exactly the edges that belong to one face only, each once.", "quantifier": "every 2d mesh, with any number of holes and parts, in which no two edges join the same nodes and no more than 16 edges meet in a node; every projection and every order of edges and nodes", "why_tests_cant": "Whether a walk along the boundary comes back to its start depends on the whole mesh, a parity argument over all faces at each node.", "anchors": ["libs/MeshKernel/src/Mesh2D.cpp: ComputeBoundaryPolygons, WalkBoundaryFromNode", "libs/MeshKernel/include/MeshKernel/Mesh.hpp: IsEdgeOnBoundary", "libs/MeshKernel/src/LandBoundaries.cpp: Administrate", "libs/MeshKernelApi/src/MeshKernel.cpp: mkernel_mesh2d_get_mesh_boundaries_as_polygons, mkernel_mesh2d_count_mesh_boundaries_as_polygons"]}
{"id": "C53", "title": "Refinement keeps the mesh, splits what is selected and can be undone", "statement": "Refining a 2d mesh by samples or by a polygon leaves every node where it is with its index, and turns every edge into a chain of edges along the same line between the same ends. Selected faces whose sides are long enough are split in four at the middles of their sides, faces next to them get no more than six sides, hanging nodes are connected on request, nothing is changed when nothing is selected, and undo gives the mesh back.", "quantifier": "every 2d mesh, every choice of samples, polygon, levels and smallest edge, with or without hanging nodes in the mesh", "why_tests_cant": "Splitting one face changes its neighbours, which changes what has to be split in the next sweep and at the next level; no set of example meshes covers the combinations.", "anchors": ["libs/MeshKernel/src/MeshRefinement.cpp: Compute, RefineFacesBySplittingEdges, ComputeEdgesRefinementMask, ComputeIfFaceShouldBeSplit, FindBrotherEdges, FindHangingNodes, ConnectHangingNodes", "libs/MeshKernelApi/src/MeshKernel.cpp: mkernel_mesh2d_refine_based_on_samples, mkernel_mesh2d_refine_based_on_gridded_samples, mkernel_mesh2d_refine_based_on_polygon"]}
{"id": "C54", "title": "Translation and rotation move a mesh rigidly and can be undone", "statement": "Translating or rotating a 2d mesh in Cartesian coordinates moves every node by the given vector or by the given angle in degrees, counterclockwise about the given point, so that all distances and the orientation of all faces stay. Node numbers and edges stay. Undo gives the mesh back. A mesh in spherical coordinates is refused and left unchanged.", "quantifier": "every mesh, vector, centre and angle", "why_tests_cant": "Rigidity and undo must hold for all meshes and all real angles, including nodes that happen to be moved onto special values.", "anchors": ["libs/MeshKernel/include/MeshKernel/MeshTransformation.hpp: Rotation, Translation, RigidBodyTransformation, MeshTransformation::Compute", "libs/MeshKernel/src/UndoActions/NodeTranslationAction.cpp", "libs/MeshKernel/src/Mesh.cpp: SetUnconnectedNodesAndEdgesToInvalid", "libs/MeshKernelApi/src/MeshKernel.cpp: mkernel_mesh2d_rotate, mkernel_mesh2d_translate"]}
{"id": "C55", "title": "Orthogonality, smoothness and lengths of edges are what they are called", "statement": "For every edge between two faces the orthogonality handed out is the absolute value of the cosine of the angle between the edge and the line of the centres of the faces, so 0 for two triangles without obtuse angles, and the smoothness is the ratio of the larger to the smaller area. Other edges have the missing value. The centre of a triangle lies in it. The length of an edge is the distance of its nodes. The calls write exactly the values of the mesh as it is, and report an error when the array of the caller has another size.", "quantifier": "every 2d mesh, every history of edits before the call and every size of the array", "why_tests_cant": "The values combine tables of faces, centres and areas that edits have to keep up to date; a wrong value for one shape of triangle passes any set of examples.", "anchors": ["libs/MeshKernel/src/Mesh2D.cpp: GetOrthogonality, GetSmoothness, ComputeFaceCircumenter, ComputeCircumcentersMassCentersAndFaceAreas", "libs/MeshKernel/src/Mesh.cpp: ComputeEdgesLengths", "libs/MeshKernel/src/Operations.cpp: NormalizedInnerProductTwoSegments, CircumcenterOfTriangle", "libs/MeshKernelApi/src/MeshKernel.cpp: mkernel_mesh2d_get_orthogonality, mkernel_mesh2d_get_smoothness, mkernel_mesh2d_get_property, mkernel_mesh2d_get_property_dimension"]}
{"id": "C56", "title": "Obtuse triangles and small flow edges are found exactly", "statement": "The points returned for the obtuse triangles are the centres of mass of exactly the triangles with an angle over 90 degrees, each once. The small flow edges are exactly the edges between two faces whose centres are closer than the threshold times the mean of the square roots of the areas, each with the middle between the centres.", "quantifier": "every 2d mesh and every threshold", "why_tests_cant": "The test on squared lengths has to agree with the angle for every triangle, and the result must leave out and repeat none.", "anchors": ["libs/MeshKernel/src/Mesh2D.cpp: GetObtuseTrianglesCenters, GetEdgesCrossingSmallFlowEdges, GetFlowEdgesCenters", "libs/MeshKernelApi/src/MeshKernel.cpp: mkernel_mesh2d_count_obtuse_triangles, mkernel_mesh2d_get_obtuse_triangles_mass_centers, mkernel_mesh2d_count_small_flow_edge_centers, mkernel_mesh2d_get_small_flow_edge_centers"]}
{"id": "C57", "title": "Attraction and repulsion move the nodes beside a grid line and nothing else", "statement": "Line attraction moves exactly the valid nodes of the block beside the line, not those of the line, across the line by the parameter times the mean length of the neighbouring edges, fading out to nothing at the edge of the block. A positive parameter draws the nodes to the line, a negative one pushes them away. Undo gives the grid back. A line or block that is not one of the grid is refused.", "quantifier": "every curvilinear grid, line, block and parameter, whatever was undone before", "why_tests_cant": "The direction is taken from neighbouring nodes and their order, so that the sense of the move depends on the orientation of the grid and on lines hidden by earlier undos.", "anchors": ["libs/MeshKernel/src/CurvilinearGrid/CurvilinearGridLineAttractionRepulsion.cpp", "libs/MeshKernel/src/CurvilinearGrid/CurvilinearGrid.cpp: ComputeDirectionalSmoothingFactors, ComputeAverageNodalDistance, TransformDisplacement", "libs/MeshKernel/src/CurvilinearGrid/CurvilinearGridAlgorithm.cpp: SetLine, SetBlock", "libs/MeshKernelApi/src/MeshKernel.cpp: mkernel_curvilinear_line_attraction_repulsion"]}
{"id": "C58", "title": "Shifting a grid line carries its neighbourhood along", "statement": "After nodes of a line have been moved, the shift puts the nodes of the line between them in proportion, leaves the moved ones where they were put, carries the nodes of the block along with the line, turned with the grid and fading out to nothing at the edge of the block, and leaves everything else. Without a move nothing changes. Undo gives the grid before the shift. The calls of a session act on the grid the kernel shows, in any order.", "quantifier": "every curvilinear grid, line, block and sequence of moves and calls", "why_tests_cant": "The result depends on the order of the moves and of the calls of the session, and on the block chosen in between.", "anchors": ["libs/MeshKernel/src/CurvilinearGrid/CurvilinearGridLineShift.cpp", "libs/MeshKernel/src/CurvilinearGrid/CurvilinearGridAlgorithm.cpp", "libs/MeshKernelApi/src/MeshKernel.cpp: mkernel_curvilinear_initialize_line_shift, mkernel_curvilinear_set_line_line_shift, mkernel_curvilinear_set_block_line_shift, mkernel_curvilinear_move_node_line_shift, mkernel_curvilinear_line_shift, mkernel_curvilinear_finalize_line_shift"]}
{"id": "C59", "title": "Mirroring a boundary line adds one line of mirrored nodes", "statement": "Mirroring a line on a side of the grid adds one grid line at that side. Beside the line its nodes are the mirror images of the second nodes in the first, scaled by the factor; elsewhere they are missing. All other nodes stay. Undo takes the line away again, redo brings it back, and the side can then be mirrored again. A line that is not on a side of the grid is refused.", "quantifier": "every curvilinear grid, side, line and factor, after any number of undos", "why_tests_cant": "Added lines are kept hidden after undo, so that the result of a call depends on the history of the grid that cannot be seen.", "anchors": ["libs/MeshKernel/src/CurvilinearGrid/CurvilinearGridLineMirror.cpp", "libs/MeshKernel/src/CurvilinearGrid/CurvilinearGrid.cpp: ComputeGridNodeTypes, AddGridLineAtBoundary, GetBoundaryGridLineType, RestoreAction, CommitAction", "libs/MeshKernelApi/src/MeshKernel.cpp: mkernel_curvilinear_line_mirror"]}
{"id": "C60", "title": "Flipping edges improves the numbers of edges per node and nothing else", "statement": "Flipping edges leaves the nodes and the covered region of a mesh, and replaces edges between two triangles by the other diagonal of the two, only where this brings the numbers of edges at the nodes nearer to six inside, four on the boundary and three at corners. In the end no such replacement is left inside the selecting polygon. If asked for, faces that are not triangles are first cut into triangles from their first corner. The call ends for every mesh, and undo gives the mesh back.", "quantifier": "every 2d mesh, with and without triangulation, and every selecting polygon", "why_tests_cant": "Each flip changes the situation at its neighbours, so that order, end and result depend on the whole mesh; nodes may gather many edges on the way.", "anchors": ["libs/MeshKernel/src/FlipEdges.cpp", "libs/MeshKernel/src/Mesh2D.cpp: TriangulateFaces, Administrate", "libs/MeshKernel/src/Mesh.cpp: ResetEdge, ConnectNodes, SortEdgesInCounterClockWiseOrder", "libs/MeshKernelApi/src/MeshKernel.cpp: mkernel_mesh2d_flip_edges"]}
{"id": "C61", "title": "Splitting a row cuts exactly the quadrilaterals of that row", "statement": "Splitting at an edge follows the quadrilaterals on both sides of it across opposite sides, up to the boundary, to a face that is no quadrilateral, or back to the edge. Every edge on the way is cut at its middle, except where a face that is no quadrilateral is behind it, and every quadrilateral is divided along the row, with triangles at an end that is not cut. All other nodes, edges and faces stay, and undo gives the mesh back. The call ends for every mesh; a deleted or unknown edge is refused, and an edge without quadrilateral changes nothing.", "quantifier": "every 2d mesh and every edge of it; rows with two ends, closed rows and rows that meet themselves", "why_tests_cant": "The row depends on the whole mesh: it may close, cross itself, or end next to other faces, and it may be entered at any of its edges from either side.", "anchors": ["libs/MeshKernel/src/SplitRowColumnOfMesh.cpp", "libs/MeshKernel/src/Mesh.cpp: InsertNode, ConnectNodes, DeleteEdge, FindEdge", "libs/MeshKernelApi/src/MeshKernel.cpp: mkernel_mesh2d_split_row"]}
{"id": "C62", "title": "Averaging interpolation uses exactly the samples of each cell", "statement": "For every face the reported value is the chosen average of exactly the samples in the face enlarged about its centre by the relative search radius; for every node the same with the polygon through the middles of its edges and the centres of its faces; for every edge the mean of its two nodes. Where there are no samples, or too few, the value is missing. The number of values fits the memory of the caller. When samples are used up level by level, each sample counts for the faces it lies in.", "quantifier": "every 2d mesh, set of samples, method, radius and smallest number of samples", "why_tests_cant": "Which samples count is decided by a search tree, a circle and a polygon test that must agree for every shape and position; samples may be lowered in one face and then used in the next.", "anchors": ["libs/MeshKernel/src/AveragingInterpolation.cpp", "libs/MeshKernel/include/MeshKernel/Utilities/RTree.hpp: SearchPoints", "libs/MeshKernel/src/Mesh2D.cpp: MakeDualFace, SortedFacesAroundNode", "libs/MeshKernel/src/MeshRefinement.cpp: ComputeRefinementMasksFromSamples", "libs/MeshKernelApi/src/MeshKernel.cpp: mkernel_mesh2d_averaging_interpolation"]}
{"id": "C63", "title": "Merging close nodes removes exactly the short distances", "statement": "Merging the nodes of a mesh that lie closer together than a distance, or than a tenth of the shortest edge, pulls every selected node onto a selected node reached from it by short steps, so that afterwards no two selected nodes lie close together. All edges between nodes that end up different stay, without loops or duplicates; no other node or edge changes, no part of the mesh is lost, and a second call changes nothing. All given polygons select. Undo gives the mesh back.", "quantifier": "every 2d mesh, also with nodes and edges deleted before or nodes without edges, every distance and selecting polygon", "why_tests_cant": "Close nodes form chains and groups that are merged one after the other while the search tree changes; the outcome must not depend on the order in which the tree reports them.", "anchors": ["libs/MeshKernel/src/Mesh.cpp: MergeNodesInPolygon, MergeTwoNodes, ComputeMinEdgeLength, IsLocationInPolygon, AdministrateNodesEdges", "libs/MeshKernel/include/MeshKernel/Utilities/RTree.hpp: BuildTree, SearchPoints, DeleteNode", "libs/MeshKernel/src/Polygons.cpp: IsPointInPolygon", "libs/MeshKernelApi/src/MeshKernel.cpp: mkernel_mesh2d_merge_nodes, mkernel_mesh2d_merge_nodes_with_merging_distance"]}
{"id": "C64", "title": "Gridded samples are interpolated bilinearly, and only where there are samples", "statement": "A location within the grid of samples has the value of the bilinear function through the four samples around it: the value of a sample at its place, between the smallest and the largest of the four elsewhere, without error for samples of a bilinear function, and continuous across the lines of the grid. A location outside the grid has the missing value. Every node and face of a mesh has the value at its place, every edge that of its nodes; whether the coordinates are given one by one or by a cell size makes no difference.", "quantifier": "every grid of samples with a constant cell size or with coordinates one by one, every location and every 2d mesh, also with deleted edges", "why_tests_cant": "Rounding of the index, the ends of the grid, an edge with one end outside and coordinates in falling order are cases for particular inputs; a test has only a few locations.", "anchors": ["libs/MeshKernel/include/MeshKernel/BilinearInterpolationOnGriddedSamples.hpp", "libs/MeshKernelApi/include/MeshKernelApi/Utils.hpp: CreateBilinearInterpolator", "libs/MeshKernelApi/src/MeshKernel.cpp: mkernel_mesh2d_refine_based_on_gridded_samples"]}
{"id": "C65", "title": "Scattered samples are interpolated linearly in their triangulation", "statement": "Every location in a triangle of the samples has the value of the linear function through its corners: the value of a sample at its place, never beyond the smallest and largest sample, without error for samples of a linear function, and the same wherever the search starts. The search finds the triangle for every location in the convex hull, and stops for every other one, which has the missing value. The values of the nodes, edges or faces are written in their order, never more than there are.", "quantifier": "every set of samples, every triangulation of it that is Delaunay or regular, every location, every starting triangle", "why_tests_cant": "The search walks from triangle to triangle; that it neither circles nor stops early depends on the whole triangulation and on where it starts.", "anchors": ["libs/MeshKernel/src/TriangulationInterpolation.cpp", "libs/MeshKernel/src/TriangulationWrapper.cpp: BuildTriangulation", "libs/MeshKernel/src/Operations.cpp: LinearInterpolationInTriangle, AreSegmentsCrossing, IsPointInPolygonNodes", "libs/MeshKernel/src/Mesh.cpp: ComputeLocations", "libs/MeshKernelApi/src/MeshKernel.cpp: mkernel_mesh2d_triangulation_interpolation"]}
{"id": "C66", "title": "Grids from polygons follow the polygon", "statement": "A grid made between three nodes of a polygon has the nodes of the polygon on its border, in their order, from the first given node to the second, on to the third and as far on; the fourth side is the remaining nodes or a straight line. Its inner nodes depend on the border only: they move, turn and grow with the polygon, are evenly spread for a parallelogram, and lie within the convex hull. Requests that need more nodes than there are, or with two equal nodes, are refused. The grid of a triangle has the polygon on its three sides and three blocks that meet in a point inside. No call reads outside the polygon.", "quantifier": "every closed polygon and every three nodes of it, forwards and backwards, with and without the fourth side, and every distance function", "why_tests_cant": "Node numbers wrap round the polygon in two directions and the inner nodes come from 25 rounds of relaxation; tests have one polygon each.", "anchors": ["libs/MeshKernel/src/CurvilinearGrid/CurvilinearGridFromPolygon.cpp", "libs/MeshKernel/src/Operations.cpp: DiscretizeTransfinite", "libs/MeshKernelApi/src/MeshKernel.cpp: mkernel_curvilinear_compute_transfinite_from_polygon, mkernel_curvilinear_compute_transfinite_from_triangle"]}
{"id": "C67", "title": "Smoothing a block moves its nodes by a fixed rule and nothing else", "statement": "In every round an inner node of the block moves half the way to the mean of its four neighbours; a node of an edge does so along the edge, and stays on a straight edge; all nodes use the positions before the round. Corners, missing nodes and nodes outside the block stay. A regular grid is not changed, inner nodes stay within the convex hull of the grid, and a turned, moved, stretched or reflected grid gives the same result turned, moved, stretched or reflected. The block may be given by any two different nodes of the grid; any other request is refused without effect. Undo brings back every node.", "quantifier": "every curvilinear grid, also with missing nodes and hidden lines, every block and every number of rounds", "why_tests_cant": "Whether a node is inside, on an edge or at a corner depends on the missing nodes round it, and rounds build on each other; tests compare a few nodes of two grids.", "anchors": ["libs/MeshKernel/src/CurvilinearGrid/CurvilinearGridSmoothing.cpp: Compute, Solve, ProjectPointOnClosestGridBoundary", "libs/MeshKernel/src/CurvilinearGrid/CurvilinearGrid.cpp: ComputeGridNodeTypes", "libs/MeshKernel/src/CurvilinearGrid/CurvilinearGridAlgorithm.cpp: SetBlock", "libs/MeshKernelApi/src/MeshKernel.cpp: mkernel_curvilinear_smoothing"]}
{"id": "C68", "title": "Smoothing along a line evens out the spacing", "statement": "In every round each node of the zone that is not at an end moves along its grid line towards the farther of its two neighbours, by at most a quarter of the way, less far from the line, and not at all if both are equally far. Nodes never change their order and never meet, and stay within the convex hull. Nodes outside the zone stay. The line must join two nodes of one grid line, and the zone must be more than one line wide across it; other requests are refused. Undo brings back every node.", "quantifier": "every curvilinear grid, line, zone and number of rounds", "why_tests_cant": "That nodes keep their order and undo restores them is needed for every spacing and every history.", "anchors": ["libs/MeshKernel/src/CurvilinearGrid/CurvilinearGridSmoothing.cpp: ComputeDirectional, SolveDirectional", "libs/MeshKernel/src/CurvilinearGrid/CurvilinearGrid.cpp: ComputeDirectionalSmoothingFactors", "libs/MeshKernelApi/src/MeshKernel.cpp: mkernel_curvilinear_smoothing_directional", "libs/MeshKernelApi/src/MKStateUndoAction.cpp"]}
{"id": "C69", "title": "Inserting a face adds one face and nothing else", "statement": "At an edge with a face on one side, inserting a face puts two nodes on the other side: the images of the nodes of that face in the ends of the edge. If the edge is on the border of the grid, the grid gets one line more with missing nodes elsewhere; otherwise two missing nodes are filled. Every other node stays. At an edge with faces on both sides, or with a missing end, the call is refused and nothing changes. Undo gives back the grid, redo the new one.", "quantifier": "every curvilinear grid with any pattern of missing nodes, every edge, every history of undo and redo", "why_tests_cant": "Which side is free follows from the types of two nodes, each with many patterns of faces round it; tests have a few edges of one grid.", "anchors": ["libs/MeshKernel/src/CurvilinearGrid/CurvilinearGrid.cpp: InsertFace, AddEdge, AddGridLineAtBoundary, GetBoundaryGridLineType, ComputeGridNodeTypes, MoveNode", "libs/MeshKernelApi/src/MeshKernel.cpp: mkernel_curvilinear_insert_face"]}
{"id": "C70", "title": "Searching a curvilinear grid answers from the grid as it is now", "statement": "A search for the nearest node, edge or face of a curvilinear grid answers with a location of the grid as it is now, in the given box, such that no other one in the box is nearer, whatever searches, edits, undos and redos came before; an error means that there is none. Only existing nodes, edges and faces are found. Moving or deleting the node at a point, and choosing a block or an edge by points, act on the nearest valid nodes or the nearest edge, and on nothing else.", "quantifier": "every history of searches in any boxes and of changes of the grid, every point, every pattern of missing nodes", "why_tests_cant": "The search trees, the numbers of the nodes and the box of the last search are kept between calls; which of them is out of date depends on the whole history.", "anchors": ["libs/MeshKernel/src/CurvilinearGrid/CurvilinearGrid.cpp: BuildTree, FindLocationIndex, GetEdgeNodeIndices, ComputeBlockFromCornerPoints, DeleteNode, MoveNode, ComputeNodeIndices", "libs/MeshKernel/include/MeshKernel/CurvilinearGrid/CurvilinearGrid.hpp: GetNode", "libs/MeshKernelApi/src/MeshKernel.cpp: mkernel_curvilinear_get_location_index, mkernel_curvilinear_move_node, mkernel_curvilinear_delete_node"]}
{"id": "C71", "title": "A mesh turned into a curvilinear grid keeps its nodes and their neighbours", "statement": "Turning a mesh into a curvilinear grid from a point gives a grid of nodes of the mesh, each at its coordinates and none twice, with the quadrilateral round the point in it. Nodes beside each other in the grid are joined by a side of a quadrilateral of the mesh; every node belongs to a quadrilateral that is a cell of the grid and connected with the first one; a quadrilateral beside one of the grid is in it too, unless one of its nodes is elsewhere in the grid or beside a node it is not joined with. No border line is empty. Afterwards the mesh is empty. Without such a quadrilateral the call is refused; no call reads outside its tables.", "quantifier": "every mesh, also with triangles and holes, and every point", "why_tests_cant": "The grid grows from face to face, and what is accepted depends on everything accepted before; tests have a few small meshes.", "anchors": ["libs/MeshKernel/src/Mesh2DToCurvilinear.cpp", "libs/MeshKernel/include/MeshKernel/Mesh2DToCurvilinear.hpp: MatrixWithNegativeIndices", "libs/MeshKernelApi/src/MeshKernel.cpp: mkernel_mesh2d_convert_to_curvilinear"]}
{"id": "C72", "title": "A mesh that is a curvilinear grid is recognised completely", "statement": "If the quadrilaterals connected with the one round the point form a plain grid, perhaps with cells left out, then the curvilinear grid has all their nodes and no others, each in the row and column where it belongs, counted from the corners of the first quadrilateral.", "quantifier": "every such mesh, whatever the numbers of its nodes, edges and faces, and every first face", "why_tests_cant": "The order in which faces are found depends on the numbering of the whole mesh; a face rejected once is never tried again from that side.", "anchors": ["libs/MeshKernel/src/Mesh2DToCurvilinear.cpp", "libs/MeshKernelApi/src/MeshKernel.cpp: mkernel_mesh2d_convert_to_curvilinear"]}
{"id": "C73", "title": "Faces are listed completely, as closed polygons that can be read back", "statement": "Asking for the faces with a number of edges, or with all orthogonality values of their edges within bounds, writes exactly these faces in the order of the mesh: each as the coordinates of its corners with the first one repeated, with missing values between two faces. Reading the lists back gives these polygons. The size announced by the dimension call is the number of values written, for an array of that size nothing is written outside, and the queries leave the mesh as it is.", "quantifier": "every mesh, number of edges, bounds and size of array", "why_tests_cant": "The size is computed by another rule than the list is written; they agree or not for all numbers and sizes of faces.", "anchors": ["libs/MeshKernelApi/src/MeshKernel.cpp: mkernel_mesh2d_get_face_polygons, mkernel_mesh2d_get_face_polygons_dimension, mkernel_mesh2d_get_filtered_face_polygons, mkernel_mesh2d_get_filtered_face_polygons_dimension", "libs/MeshKernelApi/include/MeshKernelApi/Utils.hpp: FillFacePolygons", "libs/MeshKernel/src/Mesh2D.cpp: FilterBasedOnMetric"]}
{"id": "C74", "title": "The nodes in polygons are listed once, in order, and counted right", "statement": "Asking for the nodes inside polygons gives the indices, increasing, of exactly the nodes of the mesh that are within the outer ring of some polygon and within none of its holes; asking for the nodes outside gives exactly the others. The count is the length of the list. Without polygons all nodes are inside. Deleted nodes are in neither list.", "quantifier": "every mesh, all polygons with holes", "why_tests_cant": "The count and the list are computed by separate calls and must agree for every mesh and every set of polygons, also with deleted nodes.", "anchors": ["libs/MeshKernelApi/src/MeshKernel.cpp: mkernel_mesh2d_get_nodes_in_polygons, mkernel_mesh2d_count_nodes_in_polygons", "libs/MeshKernel/src/Mesh2D.cpp: NodeMaskFromPolygon", "libs/MeshKernel/src/Polygons.cpp: PointsInPolygons"]}
{"id": "C75", "title": "Inserting an edge between two points joins the right nodes", "statement": "Inserting an edge given by the coordinates of its ends reuses, for each end, the node closest to the point if it is within one per cent of the length of the new edge and of the shortest edge, and otherwise adds a node exactly at the point. The two ends are different nodes. An edge between them is added and its index returned, unless there is one already; nothing else changes. One undo step takes back the edge and the added nodes, and redo brings them back. If the edge exists, nothing is added or recorded. Only coinciding points are refused.", "quantifier": "every mesh, all pairs of points, any number of calls", "why_tests_cant": "Which nodes are found depends on cached search trees, cached edge lengths and lists of edges left behind by the calls made before.", "anchors": ["libs/MeshKernelApi/src/MeshKernel.cpp: mkernel_mesh2d_insert_edge_from_coordinates", "libs/MeshKernel/src/Mesh.cpp: FindNodeCloseToAPoint, BuildTree, InsertNode, ConnectNodes, ComputeEdgesLengths"]}
{"id": "C76", "title": "The smoothness of a curvilinear grid is the ratio of neighbouring steps", "statement": "For every node that has a neighbour on both sides in the direction asked for, the smoothness returned is the length of the longer step to the neighbours over the length of the shorter one; it is at least one, is one exactly for equal steps, and does not change when the grid is numbered the other way round. All other nodes and those with a missing neighbour get the missing value. The values come in the order of the nodes. Another direction than the two is refused.", "quantifier": "all grids, both directions", "why_tests_cant": "A test compares a few grids; that no node is skipped, shifted or taken from the wrong row must hold for all sizes.", "anchors": ["libs/MeshKernelApi/src/MeshKernel.cpp: mkernel_curvilinear_compute_smoothness", "libs/MeshKernel/src/CurvilinearGrid/CurvilinearGridSmoothness.cpp: Compute, ComputeNodeSmoothness"]}
{"id": "C77", "title": "The curvature of a curvilinear grid is that of the circle through three nodes", "statement": "For every node that has a neighbour on both sides in the direction asked for, the curvature returned is a thousand divided by the radius of the circle through the three nodes, zero for nodes on a line; it does not change when the grid is numbered the other way round. All other nodes and those with a missing neighbour get the missing value.", "quantifier": "all grids, both directions", "why_tests_cant": "A test compares with stored numbers; whether these are curvatures can only be settled for all positions of the nodes.", "anchors": ["libs/MeshKernelApi/src/MeshKernel.cpp: mkernel_curvilinear_compute_curvature", "libs/MeshKernel/src/CurvilinearGrid/CurvilinearGridCurvature.cpp: Compute, ComputeNodeCurvature"]}
{"id": "C78", "title": "Snapping a grid line puts its nodes on the boundary and lets the neighbours follow smoothly", "statement": "Snapping a curvilinear grid to a land boundary or spline, with two to four control points, puts every node of the grid line between the first two points at the nearest point of the boundary. Every other node beside the line is moved in the direction of the line's node beside it, by a part between zero and one that fades with the distance and is zero at the edge of the region given by the other points; all other nodes stay. The nearest point of a land boundary lies on one of its pieces and none is nearer. Undo restores every node. Other numbers of points and missing points are refused.", "quantifier": "all grids, boundaries, control points and regions", "why_tests_cant": "The rounds for the nodes of the line work on the same grid and must not disturb each other, for any line and region; far from the origin rounding tolerances take effect.", "anchors": ["libs/MeshKernelApi/src/MeshKernel.cpp: mkernel_curvilinear_snap_to_landboundary, mkernel_curvilinear_snap_to_spline", "libs/MeshKernel/src/CurvilinearGrid/CurvilinearGridSnapping.cpp", "libs/MeshKernel/src/CurvilinearGrid/CurvilinearGridMeshExpansionCalculator.cpp", "libs/MeshKernel/src/LandBoundary.cpp: FindNearestPoint"]}
{"id": "C79", "title": "The offset of a polygon runs parallel to it, at the distance asked for", "statement": "The offset of polygons has a ring for each ring of the polygons, closed and with as many points, in which every side is parallel to the old side and precisely the distance away from it: outside the polygon, or inside it with the inward flag. The count announced is the number of points written, and every valid set of polygons, with holes or without, is accepted.", "quantifier": "all polygons with holes, all distances", "why_tests_cant": "Corners of every angle have to be moved so that both neighbouring sides come out parallel; numbers of polygons and holes are unbounded.", "anchors": ["libs/MeshKernelApi/src/MeshKernel.cpp: mkernel_polygon_get_offset, mkernel_polygon_count_offset", "libs/MeshKernel/src/Polygon.cpp: ComputeOffset", "libs/MeshKernel/src/Polygons.cpp: OffsetCopy"]}
{"id": "C80", "title": "Snapping a polygon moves the chosen nodes onto the land boundary and no others", "statement": "Snapping a part of a polygon to a land boundary replaces each node from the first to the last index, going round the ring when the first is larger, by the nearest point of the land boundary; both indices zero mean the whole ring. All other nodes of all polygons stay, and the polygon stays closed.", "quantifier": "all polygons, index ranges and land boundaries", "why_tests_cant": "The range runs round the ring; indices count over all polygons and holes of the list.", "anchors": ["libs/MeshKernelApi/src/MeshKernel.cpp: mkernel_polygon_snap_to_landboundary", "libs/MeshKernel/src/Polygon.cpp: SnapToLandBoundary", "libs/MeshKernel/src/Polygons.cpp: SnapToLandBoundary, PolygonIndex"]}
{"id": "C81", "title": "Selecting points with polygons answers for every point in its own place", "statement": "Asking which points lie in the selecting polygons writes for each point, at its own index, one if it lies in some polygon and in none of its holes, and zero otherwise; without selecting polygons every point gets one. No other value changes.", "quantifier": "all lists of points and polygons", "why_tests_cant": "Points are converted and compared before they are tested; that no answer is shifted must hold for every list.", "anchors": ["libs/MeshKernelApi/src/MeshKernel.cpp: mkernel_polygon_get_included_points", "libs/MeshKernel/src/Polygons.cpp: IsPointInPolygon", "libs/MeshKernelApi/include/MeshKernelApi/Utils.hpp: ConvertGeometryListToPointVector"]}
{"id": "C82", "title": "The edge at a point is the nearest one in the box, and deleting it deletes precisely it", "statement": "Asking for the edge at a point within a box gives an edge whose midpoint lies in the box such that no other such edge is closer, and fails exactly when there is none. Deleting the edge at a point deletes this edge: nodes and all other edges stay, and undo gives the mesh back. Deleting by index deletes the edge with that index and refuses an index the mesh does not have. Any number of deletions in a row each delete another edge.", "quantifier": "all meshes, points, boxes, indices and histories of edits and queries", "why_tests_cant": "The search tree is cached between calls and has to follow every edit, undo and query with another box.", "anchors": ["libs/MeshKernelApi/src/MeshKernel.cpp: mkernel_mesh2d_get_edge, mkernel_mesh2d_delete_edge, mkernel_mesh2d_delete_edge_by_index", "libs/MeshKernel/src/Mesh.cpp: FindLocationIndex, BuildTree, DeleteEdge"]}
{"id": "C83", "title": "A 1D mesh that was set or added is read back as it was given", "statement": "After setting a 1D mesh and adding any number of others, the numbers of nodes and edges announced and the arrays read back are the points of all of them in order and their edges in order, with the indices shifted by the number of points before. Nothing behind the announced sizes is written. Undo of an addition gives the mesh before back, redo the sum. Indices that are not those of a point are refused.", "quantifier": "all 1D meshes, all lists of additions", "why_tests_cant": "Numbers of meshes, nodes and edges are unbounded; the mesh is compacted when it is set and administrated when it is added to.", "anchors": ["libs/MeshKernelApi/src/MeshKernel.cpp: mkernel_mesh1d_set, mkernel_mesh1d_add, mkernel_mesh1d_get_dimensions, mkernel_mesh1d_get_data", "libs/MeshKernelApi/include/MeshKernelApi/Utils.hpp: SetMesh1dApiData", "libs/MeshKernel/include/MeshKernel/Entities.hpp: ConvertToEdgeNodesVector, ConvertToNodesVector"]}
{"id": "C84", "title": "Contacts that were set are read back as they were given", "statement": "After setting contacts, the number announced and the two arrays read back are those given; any list of contacts can be set, also an empty one; reading never goes beyond the contacts there are.", "quantifier": "all lists of contacts", "why_tests_cant": "Lists are unbounded and numbers are converted between signed and unsigned.", "anchors": ["libs/MeshKernelApi/src/MeshKernel.cpp: mkernel_contacts_set, mkernel_contacts_get_dimensions, mkernel_contacts_get_data", "libs/MeshKernel/src/Contacts.cpp: SetIndices"]}
{"id": "C85", "title": "Ridge detection finds the curvature of gridded samples and nothing else", "statement": "The samples that ridge refinement of gridded samples works with lie where the grid's samples lie. Values on a plane show no ridge, with any number of smoothing rounds; values of a quadratic function show at every inner sample the same strength, twice the strongest second derivative times the area of a cell. Smoothing gives what handing in smoothed values gives. Every grid is either refused or handled without reading out of bounds, also one with coordinates given for its columns and rows, and one without columns.", "quantifier": "all grids of samples, all numbers of rows, columns and smoothing rounds, all values", "why_tests_cant": "Numbers of rows and columns are unbounded and the indices depend on which of them is larger; exactness is about all values.", "anchors": ["libs/MeshKernelApi/src/MeshKernel.cpp: mkernel_mesh2d_refine_ridges_based_on_gridded_samples", "libs/MeshKernel/src/SamplesHessianCalculator.cpp: SmoothSamples, ComputeGradient, ComputeSampleGradient, ComputeHessian, ComputeSamplesHessian", "libs/MeshKernelApi/include/MeshKernelApi/Utils.hpp: ComputeGriddedDataSamples, ConvertGriddedData"]}
{"id": "C86", "title": "Deleting small flow edges and small triangles removes just these", "statement": "The call deletes the edges between faces whose centres are too near to each other for their areas, and no others. Triangles whose corners lie on a line are removed. Of a small triangle at the boundary the ends of the outer side with a single inner edge are pulled onto the third corner; all other nodes stay where they are and all other edges stay, joined to the nodes they were joined to. The faces next to a small triangle are not damaged, and the result does not depend on the numbers of the nodes. A mesh without anything small does not change. Undo restores the mesh, redo the result.", "quantifier": "all meshes, thresholds and fractions", "why_tests_cant": "Which triangles are small depends on the areas of their neighbours, and merging changes the lists of edges that later merges look at.", "anchors": ["libs/MeshKernelApi/src/MeshKernel.cpp: mkernel_mesh2d_delete_small_flow_edges_and_small_triangles", "libs/MeshKernel/src/Mesh2D.cpp: DeleteDegeneratedTriangles, DeleteSmallFlowEdges, DeleteSmallTrianglesAtBoundaries, NextFace", "libs/MeshKernel/src/Mesh.cpp: IsFaceOnBoundary, MergeTwoNodes", "libs/MeshKernel/src/Operations.cpp: NormalizedInnerProductTwoSegments"]}
{"id": "C87", "title": "Casulli refinement draws the finer mesh and nothing else", "statement": "Refining all or the selected part of a mesh puts a new node halfway between each node and the centre of each of its faces, and two on each boundary edge; it joins the new nodes of a face along its sides, across the edges to those of the neighbouring faces, to the boundary and to the corners that stay. The old nodes that were replaced and their edges are gone, no edge lies on top of another, no edge is there twice, and outside the selected part nothing changes. Every mesh is either refined completely or refused without a change. Undo restores the mesh, redo the refined one.", "quantifier": "all meshes and selections", "why_tests_cant": "The numbers of the new nodes are found through tables indexed by edges, sides and directions; whether each entry is filled before it is read depends on the whole mesh.", "anchors": ["libs/MeshKernelApi/src/MeshKernel.cpp: mkernel_mesh2d_casulli_refinement, mkernel_mesh2d_casulli_refinement_on_polygon", "libs/MeshKernel/src/CasulliRefinement.cpp: Compute, InitialiseNodeMask, ComputeNewNodes, StoreNewNode, ConnectNewNodes, ConnectFaceNodes, CreateMissingBoundaryEdges, Administrate", "libs/MeshKernel/src/Mesh2D.cpp: FindFacesConnectedToNode, IsLeftOrRight, FindCommonFace"]}
{"id": "C88", "title": "A global mesh covers the sphere", "statement": "Making a global mesh draws faces of which every corner lies on the sphere and which cover the sphere: every point, given by longitude and latitude, lies in a face, and inside of no two. North and south are mirror images. Where the rows become twice as wide, every face has the node halfway its lower side. Numbers of nodes that are not positive, and projections that are not spherical, are refused.", "quantifier": "all numbers of nodes along parallels and meridians", "why_tests_cant": "The heights of the rows come out of Newton's method and the widths of earlier rows; whether the rows reach the pole and fit around the sphere is a question about all numbers of nodes.", "anchors": ["libs/MeshKernelApi/src/MeshKernel.cpp: mkernel_mesh2d_make_global", "libs/MeshKernel/src/Mesh2DGenerateGlobal.cpp: DeltaLatitude, AddFace, Compute"]}
{"id": "C89", "title": "Orthogonalising a grid moves only what it may move", "statement": "Orthogonalising a block of a curvilinear grid moves no node outside the block, no frozen node, no corner, and within the block only inner nodes and nodes of a border, which stay on their border. A rectangular grid stays as it is. Afterwards every node that had a position has one: its coordinates are numbers. Undo restores the nodes, redo the result.", "quantifier": "all curvilinear grids, blocks, frozen lines and numbers of iterations", "why_tests_cant": "Three nested iterations change the nodes in place; which nodes are visited depends on the types of all nodes, and a division by zero shows only for some blocks.", "anchors": ["libs/MeshKernelApi/src/MeshKernel.cpp: mkernel_curvilinear_initialize_orthogonalize, mkernel_curvilinear_set_block_orthogonalize, mkernel_curvilinear_set_frozen_lines_orthogonalize, mkernel_curvilinear_orthogonalize, mkernel_curvilinear_finalize_orthogonalize", "libs/MeshKernel/src/CurvilinearGrid/CurvilinearGridOrthogonalization.cpp: Compute, Solve, ComputeCoefficients, ProjectHorizontalBoundaryGridNodes, ProjectVerticalBoundariesGridNodes", "libs/MeshKernel/src/CurvilinearGrid/CurvilinearGridBlock.cpp: Swap"]}
{"id": "C90", "title": "A circular or graded grid is where it is asked to be", "statement": "Making a circular grid gives one more row and one more column of nodes than asked for. Its nodes lie on circles round the origin, the first of the radius of curvature and then growing, on rays at equal angles: the block size over the radius, but no more than a full turn in all. If a full turn or more is asked for, the ring is closed, and apart from that no two nodes coincide. Without a radius of curvature the nodes are at the crossings of straight lines turned about the origin, which is the first node; columns and rows are between the block size and the maximum size, with the fraction asked for of the block size. Parameters that make no grid are refused.", "quantifier": "all parameters of the grid", "why_tests_cant": "The widths come from a grading with powers and from a rounded number of uniform elements; that they add up, and that angles do not overlap, depends on all parameters together.", "anchors": ["libs/MeshKernelApi/src/MeshKernel.cpp: mkernel_curvilinear_compute_circular_grid", "libs/MeshKernel/src/CurvilinearGrid/CurvilinearGridGenerateCircularGrid.cpp: Compute, ComputeXValues, ComputeYValues, ComputeRadiusValues, ComputeThetaValues, GenerateGradedRectangularGrid, GenerateCircularGrid", "libs/MeshKernel/include/MeshKernel/Parameters.hpp: MakeGridParameters, CheckMakeGridParameters"]}
{"id": "C91", "title": "Connecting meshes merges each node once, with a node close by", "statement": "Connecting two meshes merges a node only with a node of another boundary edge that is close to it, nearer than the search fraction of the length of both edges. No node is merged away twice, nothing is merged into a node that was merged away, and a hanging node stays. Every end of a boundary edge for which a close node is found is merged, hangs, or has been left because its partner was taken; close nodes are one node afterwards. A boundary edge goes only if a close one remains beside it. Meshes with more small edges along a large one than can be handled are refused; every other mesh is handled, also one with edges without faces and one of a single column.", "quantifier": "all pairs of meshes and search fractions", "why_tests_cant": "Each edge changes the tables that later edges look at; which nodes are decided already depends on the order of all boundary edges.", "anchors": ["libs/MeshKernelApi/src/MeshKernel.cpp: mkernel_mesh2d_connect_meshes", "libs/MeshKernel/src/ConnectMeshes.cpp: Compute, AreEdgesAdjacent, GetQuadrilateralElementsOnDomainBoundary, GatherHangingNodeIds, GatherNodesToMerge, GatherHangingNodes, MergeNodes, FreeHangingNodes", "libs/MeshKernel/include/MeshKernel/ConnectMeshes.hpp: BoundedIntegerArray"]}
{"id": "C92", "title": "Contacts of 1D nodes outside the 2D mesh are sought sideways", "statement": "For a 1D node outside the 2D mesh, single contacts are sought along two segments from the node, perpendicular to the 1D mesh there, one to the right and one to the left, each as long as the projection factor times the length of the only edge of the node or the distance of its two neighbours. Which of the edges comes first does not matter. Every node is handled, also one where several branches meet; no segment runs along an edge of the 1D mesh.", "quantifier": "all 1D meshes, nodes and projection factors", "why_tests_cant": "Positions and factors are unbounded, and the direction is taken from tables of edges filled in any order.", "anchors": ["libs/MeshKernelApi/src/MeshKernel.cpp: mkernel_contacts_compute_single", "libs/MeshKernel/src/Contacts.cpp: ComputeSingleContacts, Connect1dNodesWithCrossingFaces", "libs/MeshKernel/src/Mesh1D.cpp: ComputeProjectedNode", "libs/MeshKernel/src/Operations.cpp: NormalVectorOutside"]}
{"id": "C93", "title": "Converting the projection and back gives the same mesh", "statement": "Converting a mesh to another projection converts every node by the formula of the zone and keeps everything else: missing nodes stay missing, no node is lost, edges stay. Converting there and back gives the mesh there was. After a call that succeeds the mesh, the kernel and its other meshes are in the projection asked for. Asking for the projection there is changes nothing. Unknown projections, unreadable zones and conversions that are not supported are refused without a change. Undo restores the mesh, redo the converted one, and queries then answer for the mesh there is.", "quantifier": "all meshes, projections and zones, and all histories of conversion, query and undo", "why_tests_cant": "Meshes are unbounded, and what a query answers depends on the history of calls before it.", "anchors": ["libs/MeshKernelApi/src/MeshKernel.cpp: mkernel_mesh2d_convert_projection", "libs/MeshKernel/include/MeshKernel/MeshConversion.hpp: Compute", "libs/MeshKernel/include/MeshKernel/ProjectionConversions.hpp: ConvertSphericalToCartesianBase, ConvertCartesianToSphericalBase", "libs/MeshKernel/src/UndoActions/MeshConversionAction.cpp: Swap", "libs/MeshKernel/src/Mesh.cpp: BuildTree, SetUnConnectedNodesAndEdgesToInvalid"]}
{"id": "C94", "title": "Contacts are sought as far as the edges of the 1D mesh there is", "statement": "Without a search radius, boundary contacts of a 1D node are sought as far as the longest edge of the node, and multiple contacts likewise from the first node of each edge. This is so for every node in every order, whatever has been done before: also after more has been added to the 1D mesh, after undo, and when contacts are sought again.", "quantifier": "all 1D meshes and all histories of seeking contacts, adding and undo", "why_tests_cant": "The lengths are kept between calls; whether they belong to the mesh depends on the history of calls.", "anchors": ["libs/MeshKernelApi/src/MeshKernel.cpp: mkernel_contacts_compute_boundary, mkernel_contacts_compute_multiple, mkernel_mesh1d_add, mkernel_mesh1d_set, mkernel_undo_state", "libs/MeshKernel/src/Mesh.cpp: ComputeMaxLengthSurroundingEdges, ComputeEdgesLengths, operator+=, Join, RestoreAction", "libs/MeshKernel/src/Contacts.cpp: ComputeBoundaryContacts, ComputeMultipleContacts"]}
{"id": "C95", "title": "The elements announced for Casulli derefinement are apart and everywhere", "statement": "Asking which elements derefinement deletes gives different quadrilaterals of the mesh that have a node in the polygon, or the first element if no quadrilateral is inside. No two of them touch at a corner only. It begins with a quadrilateral inside the polygon if there is one. Every part of the mesh in the polygon is treated, however long it is. A mesh without elements gives an empty list or an error.", "quantifier": "all meshes, neighbour relations and polygons", "why_tests_cant": "The marks spread in rounds and overwrite each other; that no two chosen elements touch at a corner is an invariant over all rounds.", "anchors": ["libs/MeshKernelApi/src/MeshKernel.cpp: mkernel_mesh2d_casulli_derefinement_elements, mkernel_mesh2d_casulli_derefinement_elements_on_polygon", "libs/MeshKernel/src/CasulliDeRefinement.cpp: ElementsToDelete, InitialiseElementType, FindElementSeedIndex, ElementIsSeed, AddElementToList, ComputeNodeTypes"]}
