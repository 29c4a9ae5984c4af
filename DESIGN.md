# Formal model of Deltares/MeshKernel: design

The model is written in Lean 4 (4.33.0) under `lean/Verif`.  Each topic has a
`…/Model.lean` (definitions citing `/repo`), helper lemmas, and a `…/Props.lean`
holding only the property theorems with their non-vacuity examples.

## 1. Conventions

* A C++ member function that mutates an object becomes a function returning the
  new value.  A thrown exception becomes `Except`/`Option` or a distinct outcome.
  Undefined behaviour (out-of-bounds vector access, dangling reference) is a
  distinct outcome `ub` (or a stated precondition, when the code relies on it),
  never a default value.
* `UInt` (32 bit) is modelled by `Nat`; the sentinel `missing::uintValue` by
  `none` when only used as a sentinel, or by the number `2^32-1` where the code
  does arithmetic on it (joining of meshes).
* `double` is modelled by exact rationals `ℚ` (or an arbitrary ordered field).
  Rounding, NaN, infinities and overflow are not modelled.  The sentinel -999 is
  kept as the number -999 where the code compares with it.
* Loops become folds / structural recursion; `while` loops need a termination
  proof (which is itself part of the property).
* C++ containers: `std::vector` is `List` or `Array`/functions on an index range,
  `std::list` is `List`, `std::unordered_map` a finite partial function.

## 2. Trusted base

* Lean's kernel; axioms `propext`, `Classical.choice`, `Quot.sound` only.
* The reading of the C++ source by the author of the model.  The code was not
  compiled or run.
* Not modelled: boost R-tree, Eigen internals, triangle library, floating-point
  rounding, spherical trigonometry, memory allocation failure, threads.

## 3. Plan for each property

| id | model | proof |
|----|-------|-------|
| C01 | `UndoStack`: committed/restored lists, `Add/Undo/Commit`, actions acting on a world | refinement to a per-kernel zipper (past, present, future) |
| C02 | same | invariant by induction over operations, for committed; negation for `Size()` incl. restored |
| C03 | same, with ids | projections `filter` commute with all operations |
| C04 | `Api`: kernels with heap objects, records holding object references | invariant for the API without snap-to-landboundary; negation witness with it |
| C05 | `Api` guard of each call | case analysis, all calls |
| C06 | `Api` counter | invariant: every id ever returned is below the counter |
| C07 | `Api` failing calls | case analysis; negation for `contacts_compute_*` |
| C08 | `Mesh` node/edge vectors with edit actions, compound actions | round trip per action + induction over lists |
| C09 | `Mesh` `DeleteNode` | direct, using C11 |
| C10 | `Mesh` compaction | list lemmas on prefix counting |
| C11 | `Mesh` administration | fold invariant |
| C12 | `Mesh` `MergeTwoNodes` | case analysis over edges |
| C13 | `Mesh` join/merge | list append laws; negation for missing index |
| C14 | `Faces` recursion and checks | invariant over face insertion |
| C15 | `Cache`: flags, cached bounding box, trees as lists of points | invariant by induction; negation witnesses |
| C16, C17 | `Curvi.Index` | arithmetic and list counting |
| C18 | `Curvi.Clean` | greatest fixpoint characterisation, termination by number of valid nodes |
| C19, C20, C21 | `Curvi.Edit`, `Curvi.Refine` | pointwise reasoning on matrices; negation for delete node / line mirror left |
| C22 | `Polygons.Parse` | round trip by induction over the rings |
| C23 | `Polygons.Contains` | order-independence negated with an island in a hole; degenerate vertex negated; partial theorems |
| C24 | `Polygons.Area` | ring identities and induction over vertices |
| C25 | `Polygons.Refine` | sublist argument |
| C26 | `Contacts` loops with geometric predicates as parameters | loop invariants |
| C27 | `Regions` flood fill | reachability characterisation of BFS |
| C28 | `Network1D` | arithmetic; negation for third polyline and for fixed chainage at the start |
| C29 | `Averaging` | fold invariants |
| C30 | `RangeCheck` | decision logic |
| C31 | `Circular` | arithmetic |
| C32 | `BBox` | lattice reasoning |
| C33 | `LinAlg` | pointwise reasoning |
| C34 | `ErrorReport` | decision logic |
| C35 | `Rect`, `Curvi.Delete` | ring identities with c²+s²=1; `rectangular_grid`, `extension_grid`, `polygon_grid` |
| C36 | `Curvi.Boundary` | parity (even degree) argument; `boundary_polygons` |
| C37 | `Api` snapshots | round trip; negation for in-place assignment |
| C38 | `Mesh` administration by `get_dimensions` | negation witnesses; drawing kept |
| C39 | `Mesh.MoveNode` over an ordered field | algebra; negation for the null move |
| C40 | `Api` algorithm instances holding addresses | case analysis; negation witnesses |
| C41 | `Polygons.Linear` | invariant of the two nested loops (increasing distances from 0 to the length of the range); closed form for equal end sides |
| C42 | `Cache`: the search in a tree with a box and a mask | from the tree invariant of C15; negation witnesses |
| C43 | `Rect`: rows of spherical grids | lower bound of the cosine by a chord, so each row gains a fixed amount; negation witnesses |
| C44 | `Faces` with the order of the edges by angle | the walk follows the outline of a cell; negation witnesses |
| C45 | `Faces`: the faces handed in with a mesh | the walk around a polygon without chords takes its sides one by one; negation witnesses |
| C46 | `Ortho`: types of nodes, the compressed system, the iteration with snapping to the original boundary, the undo action; weights are parameters | the row of a node that may not move stays zero; steps of different nodes commute; negation witnesses |
| C47 | `Locate`: middles of edges, outline of a face, the faces at the nearest edge tried in turn; the search is a parameter that answers with a nearest edge | C14 for the lists, C23 for the test; nearest middles in a uniform grid; negation witnesses |
| C48 | `Splines`: second derivatives, evaluation, the container and the two interface functions; the snapping is a parameter | the recurrence solves a diagonally dominant system with one solution; the pieces of a natural spline solve the same system; invariant over histories; negation witnesses |
| C49 | `Cross`: the walk from face to face for any test of segments, the merging of rings, the Cartesian test and bounding boxes; distances along the polygon and the copy to the arrays of the caller are not modelled | invariant of the breadth first search, termination by a weight (unseen faces, unseen edges, queue); double counting gives fewer faces than edges; negation witnesses |
| C50 | `Delete`: the flags, the loop over the edges with its counts, the loop over the nodes and the final administration, on top of `Faces` and `Regions`; deletion by circumcentres; the test of points and the circumcentres are parameters, the crossed faces come from `Cross` in the Cartesian instance | invariant of the loop over the edges (the count of a node is at least the number of its edges left), then the loop over the nodes deletes only edges already deleted; undo by the chain of actions; negation witnesses |
| C51 | `Delete`: `GetHangingEdges` and `DeleteHangingEdges` | the lists of a freshly administrated mesh; negation witnesses for stale counts and tails |
| C52 | `Outline`: `ComputeBoundaryPolygons`, `WalkBoundaryFromNode`, on top of the administration of C11 and the faces of C14 | every node has an even number of boundary edges (double counting of sides at a node), so a walk along unvisited boundary edges can only end where it started; induction over the edges; negation witnesses for polygons that cut the boundary |
| C53 | `Refine`: `MeshRefinement.cpp` for meshes that are not spherical, function by function, with the middle of an edge, the point inside a face, the test for the middle and the marks of the samples as parameters | invariants through all loops: every step extends the recorded actions and refines the mesh (`Makes`). For meshes without hanging nodes the round is computed in closed form (`roundNodes`, `roundEdges`). Partial correctness of the marking loops (`forRange_of_ok`). |
| C54 | `Transform`: `MeshTransformation.hpp` over ℝ, function by function, with the test for a missing coordinate and the order of the edges around a node as parameters | trigonometric identities for the motions; the swap of all nodes in closed form, then the lemmas about the administration (C01). |
| C55 | `Quality`: centres of triangles, areas, orthogonality, smoothness, lengths of edges and the calls of the interface; Cartesian, rational coordinates, real cosines and lengths; the centre of a face that is no triangle is a parameter | on the tables of C14: each edge has its two faces; circumcentre by identities of areas and inner products, its position by the signs of the angles, the winding test of C04 and the crossing test of C49 |
| C56 | `Quality`: `GetObtuseTrianglesCenters`, `GetEdgesCrossingSmallFlowEdges`, `GetFlowEdgesCenters` | the loops collect a filter of the faces or edges; squared lengths against inner products |
| C57 | `CurviLine`: `SetLine`, `SetBlock`, smoothing factors, directions, mean distances and the loops of line attraction; distance and cosine bell are parameters with the real functions as instance; the search for the node at a point is left out | the loops write each node of a rectangle once; the grid read is a copy, so the result is a function of the old nodes |
| C58 | `CurviLine`: line shift and the calls of its session, over a list of grids of which one is current | invariant of the walk along the line (last and next moved node); the session by induction over its calls |
| C59 | `CurviLine`: node types, boundary type of a line, adding a line, mirroring, undo and redo; line mirror also completes C19 | one proof for four sides in coordinates depth and position; undo: the old grid is inside the larger one, so cleaning does not touch it |
| C60 | `Flip`: preparation, triangulation, topology functional, flip with its changes of all tables, rounds, result and exception; without land boundaries | the tables stay exact under a flip (`Exact`); the functional is the change of the sum of squares; each flip lowers it; last round without flip gives the end condition |
| C61 | `SplitRow`: the walk through the quadrilaterals, the collection of the row, the cases of `SplitElement`, the undo actions, the final administration (SplitRowColumnOfMesh.cpp:7-363). The mean of two points is a parameter | trails through opposite sides as an inductive predicate; injectivity of the step gives arms or a ring; invariant of the splitting loop on added nodes and edges; division of faces read off the tables of sides |
| C62 | `Sampling`: the search tree as a filter in any order, search polygon and circle, the choice of samples, the averages of `Averaging`, faces with the lowering of samples, dual polygons of nodes, edges, the API call (AveragingInterpolation.cpp:37-251, Mesh2D.cpp:1391-1506, RTree.hpp:161-235, MeshKernel.cpp:5123-5182). Distances with square roots, the order of the tree and the nearest sample are parameters | a point in a polygon lies strictly within the circle through its furthest corner, so the search loses nothing; the polygon test of `Polygons`; permutation invariance of the averages; induction over the faces with the set of lowered samples; corners between successive edges of a node from the tables of faces |
| C63 | `MergeClose`: the selection by the first polygon, the search tree with its positions, queries and removals, the loop over nodes and answers, the two administrations, the shortest edge, the two API calls (Mesh.cpp:408-466 and 552-585, RTree.hpp:161-235 and 284-297, Polygons.cpp:291-304, MeshKernel.cpp:2035-2082). Closeness, distance and the order of the answers are parameters; `MergeTwoNodes` and the administration are those of `Mesh` | invariant of the loop: a map telling where every node has gone, idempotent and along chains of close nodes, edges as images under it, degrees bounded by those of the chains, later points still in the tree, earlier ones gone or without later close ones |
| C64 | `Gridded`: the fractional index by division or by search, its rounding, the test of both ends, the weighted mean, the results at nodes, edges and faces, the choice of the constructor (BilinearInterpolationOnGriddedSamples.hpp:58-75 and 112-265, Utils.hpp:543-565). Infinite and undefined indices and the 32 bit wrap-around are modelled; values are rational numbers | by cells: index and fraction of a location follow from its cell, and the weighted mean is the bilinear function; on a common side both functions agree |
| C65 | `TriInterp`: the faces of each edge, the corners and mean points of the triangles, the search over cut edges with its limit of rounds, linear interpolation, the loop over locations, the call of the interface with its check of the length (TriangulationWrapper.cpp:50-100, TriangulationInterpolation.cpp:44-168, Operations.cpp:1496-1558, Mesh.cpp:903-939, MeshKernel.cpp:5184-5220). The triangulation (library Triangle) and the answer of the search tree are arguments | a line from inside a triangle to a location outside leaves it through a side; behind that side the plane of the neighbour in a convex lifting is higher, so no triangle comes twice and the number of rounds suffices; for Delaunay the lifting is the paraboloid |
| C66 | `Transfinite`: choice of direction and number of cells, the walk round the polygon, the sides, dimensionless distances, initial values and 25 relaxations of the transfinite interpolation, the three blocks of a triangle and their assembly, the calls of the interface (CurvilinearGridFromPolygon.cpp:38-434, Operations.cpp:1255-1472 and 879-921, Polygon.cpp:22-41, MeshKernel.cpp:3891-3960). The distance is an argument; a non-finite weight makes the whole grid unspecified | numbers modulo the number of nodes; the relaxation is a weighted mean of border nodes, with weights that are nonnegative if opposite sides are divided alike, and sum to one always; induction over the sweeps |
| C67 | `Smooth`: the kinds of nodes from the missing nodes round them, removal of loose nodes, the rounds of smoothing with the sliding of edge nodes, the choice of the block, the call of the interface with its undo action (CurvilinearGridSmoothing.cpp:40-65, 178-276, CurvilinearGrid.cpp:433-651, CurvilinearGridAlgorithm.cpp:41-92, Operations.cpp:1560-1572, MeshKernel.cpp:4436-4477). Cartesian projection; a division by zero makes the whole result unspecified | one round equals the rule stated in `Spec`; invariants over rounds; undo as for the other block edits |
| C68 | `Smooth`: the rounds of smoothing along a line, the zone and the call of the interface with the state it keeps for undo (CurvilinearGridSmoothing.cpp:67-176, CurvilinearGrid.cpp:938-961, MeshKernel.cpp:4479-4530, MKStateUndoAction.cpp:35-57). The cosine is an argument with the properties used | one round equals the rule; order by bounds on the move of neighbouring nodes |
| C69 | `InsertFace`: `InsertFace` and `AddEdge` for the edge the search found, on top of `CurviLine` (node types, sides, added lines) and `Curvi` (moving nodes); the search is left out (CurvilinearGrid.cpp:653-936, 1066-1080) | Case analysis of the node types of both ends; replacing two nodes is undone exactly; a new face keeps every node in a face, so the cleaning does nothing |
| C70 | `CurviSearch`: the search trees of a curvilinear grid with their flags and the remembered box, the lists they are built from, the table of node numbers, moving and deleting nodes and choosing blocks and edges by points; the tree is a list of points, its search a parameter (CurvilinearGrid.cpp:251-344, 1042-1088, 1219-1337, 1434-1454) | Invariant over histories: a tree that counts as up to date was built from the present grid in the present box; the table is the one of the grid as long as changes of size compute it anew |
| C71 | `ToCurvi`: the queue of faces, the places of the nodes and the matrix with negative indices, the checks of the neighbours, the copy to the grid, the call; the nearest face and the containment test are parameters (Mesh2DToCurvilinear.cpp:35-351, Mesh2DToCurvilinear.hpp:57-176) | Invariant over the queue: places and matrix agree, neighbours are linked, every quadrilateral beside a visited one is in the grid or blocked, blocked ones stay blocked; the number of rounds is bounded by the number of sides |
| C72 | as C71 | Invariant: the places are those of the lattice seen from the first face, so no check fails |
| C73 | `Listing`: writing the polygons of faces, their size, the filter by orthogonality, with the administration of the mesh as in C10 and the values of C55 | One equation for the loop that writes (a sequence of single writes); the administration done twice changes nothing the second time |
| C74 | `Listing`: the mask of nodes in polygons (C23), list and count | Both loops equal a filter of the node numbers |
| C75 | `InsertEdge`: the search radius, finding or adding the two ends on the cached search trees (C15), connecting them, what is recorded; distance and search are parameters | Each end is either an old nearest node or the new last one; the triangle inequality keeps the ends apart; undo through the recorded actions (C02) |
| C76 | `Metrics`: the loops over the grid and the smoothness of three nodes, over the reals | The double loops write each entry of the table once (as for C25); ratio of square roots |
| C77 | `Metrics`: the curvature of three nodes | The formula is evaluated on lines and circles; negations by examples and by the general value on a circle |
| C78 | `Snap`: control points, loop bounds, the two kinds of fading, the loop over the line with the copy of the grid, undo, and the search for the nearest point of a land boundary | Each round is shown to be an exact edit of the grid; on one grid line the rounds touch different nodes, so that they compose; the nearest point by induction over the pieces; negations by examples over the reals |
| C79 | `PolyEdit`: the normals and corner vectors of a ring, the two offset copies, the loops over polygons and holes that write them into one list, and the two API calls | For each corner the corner vector has unit part along both normals, by induction over the loop of normals; the API by the round trip of C22; negations in general and by examples |
| C80 | `PolyEdit`: the loop round the ring, the search for the polygon, and the API call with the copy of the nodes | Invariant of the loop; C22 for the indices; the loop that copies back is shown to leave the ring |
| C81 | `PolyEdit`: conversion of the points, the loop with the ring test as parameter | Induction over the points |
| C82 | `EdgePick`: `mkernel_mesh2d_get_edge`, `_delete_edge`, `_delete_edge_by_index` on the cached trees of `Cache` | C15 for the edge found, deletion as one more step of the history; induction over the calls |
| C83 | `Exchange`: conversion of the arrays, `mkernel_mesh1d_set`, `_add`, `_get_dimensions`, `_get_data` on the compaction and administration of `Mesh` | induction over the arrays; a mesh in which all points are used is left alone by compaction and administration; induction over the additions |
| C84 | `Exchange`: `mkernel_contacts_set`, `_get_dimensions`, `_get_data`, `SetIndices` | induction over the arrays |
| C85 | `Ridge`: `ConvertGriddedData`, `SmoothSamples`, `ComputeGradient`, `ComputeHessian`, `ComputeSamplesHessian` over an ordered field; Eigen's eigenvalues and the comparison with the missing value are parameters; Cartesian only | the nested loops fill their own elements; identities in the field for planes and quadratic functions |
| C86 | `SmallFlow`: `DeleteDegeneratedTriangles`, `DeleteSmallFlowEdges`, `DeleteSmallTrianglesAtBoundaries`, `NextFace` and the call, on the models of the administration, the search for faces, the quality measures and the merging of nodes; coordinates are rational numbers, Cartesian only, squares of cosines are compared in place of absolute values; the centres of faces other than triangles are a parameter | administration is idempotent; small triangles found are exactly those of the specification; invariant of the merging loop (the lists of nodes not merged stay as they are), shared with C63; chains of recorded actions for undo |
| C87 | `Casulli`: all of `CasulliRefinement.cpp` (mask of the nodes, new nodes, table of new nodes, connections, removal), with `FindFacesConnectedToNode`, `IsLeftOrRight`, `IsStartOrEnd`, `FindCommonFace`, `InsertNode`, `ConnectNodes`, `DeleteNode` and the final administration; the points are an arbitrary type with a function for the point halfway; selection, centres and types of the nodes are parameters; the faces found at the end are not modelled; the unused patch of nodes (`FindPatchIds`) is left out | the new nodes have names (`Label`), `Link` says which are joined; each loop gets an invariant: the mask is a function of the node, the table holds the numbers of the names that own a place (`Owns`, injective by the sides of the edges), the edges added are links and every link is added; removal and administration leave exactly the links between nodes that stay; failures by evaluation in the kernel |
| C88 | `Globe`: `DeltaLatitude` and `Compute` of `Mesh2DGenerateGlobal.cpp` up to the faces handed to `AddFace`, and the conversion of the numbers at the interface; an ordered field with cosine and square root as parameters, then the real numbers; the search for nodes that are there already, merging and the deletion of edges at the end are not modelled | rows cover all latitudes by induction when the last one is reached; over the reals Newton's method stays above the root as the cosine is concave, so a row of 60 degrees or more is the last one or at least 30 km high; the number of rows is bounded by the heights and the number of times a row can be widened |
| C89 | `GridOrtho`: `Compute`, `Solve`, the coefficients and the projection of border nodes of `CurvilinearGridOrthogonalization.cpp`, and undo; numbers are elements of a field and `none` is what is not a finite number; the types of the nodes (where they matter those of `Smooth.setup`), the mask, the quotient of the summed distances (modelled in `Sums.lean` for grids without missing nodes) and the closest point on a spline are parameters | what one step keeps at a node is kept by the nested loops (induction over the loops); going left from the right corner of a piece of a border, every node has a face on one side only, so that it is no inner node; for a grid taken as a whole the scan of a line is at a known side and start, so each step can be computed |
| C90 | `RoundGrid`: all of `CurvilinearGridGenerateCircularGrid.cpp` and the checks of the parameters over the real numbers; a list of values is `none` when a power is infinite, conversions that do not fit and signed overflow are `ub`, unsigned numbers wrap at 32 bits; rounding of doubles, NaN parameters and memory are left out | the number of uniform elements and the cutoff are computed for fractions below one (the rest is odd, half of it on each side), the loop that adds steps is turned into sums, powers of the grading number lie between one and the maximum; two angles less than a full turn apart with the same sine and cosine are equal |
| C91 | `Connect`: the tables of close edges, the choice of merges, hanging nodes and edges that go, and the order of the merges (`ConnectMeshes.cpp`); the test for close edges is a parameter there and modelled over the real numbers for the Cartesian projection in `Geometry`; the chain of opposite edges is a parameter, the nodes and edges put in for hanging nodes are left out; arrays of fixed size and tables indexed by nodes are `ub` outside of their bounds | an invariant over the loop of the boundary edges: the nodes on the list of merges are those marked, each once, the hanging ones are the others marked, marks are never taken back, edges are as they were or deleted; the list of merges is followed with the marks; distances by the triangle inequality |
| C92 | `Contacts/Projection`: the direction at a 1D node and the moved node (`Mesh1D.cpp:83-117`, `Operations.cpp:704-724`) over the real numbers, Cartesian; the faces the segments meet are a parameter of C26 | the normal times the length is the direction turned by a right angle; the rest is algebra |
| C93 | `Convert`: the call with its choice of formula, the conversion of the nodes, the administration of nodes and edges, the undo action and the flag of the search tree (MeshKernel.cpp:1077-1118, MeshConversion.hpp:114-144, MeshConversionAction.cpp:12-25, Mesh.cpp:140-188, 249-293); the formulas of the map projections are parameters | the conversion is a map over the nodes and the administration the identity when no node is loose; the rest by cases on the projections |
| C94 | `Contacts/Lengths`: the lengths kept in the 1D mesh, the longest edge of a node, adding to the 1D mesh and undo (Mesh.cpp:552-568, 885-901, 971-1019, MeshKernel.cpp:612, 640); distances are elements of any linear order | invariant that the kept lengths are those of the first edges; where it is broken the read is out of bounds |
| C95 | `Derefine`: the first element, the front that marks elements and the list of elements to delete (CasulliDeRefinement.cpp:192-407, 968-1013); neighbours and types of nodes are parameters; the deletion itself is not modelled | exact effect of a visit on every mark, then an invariant over visits and rounds |

### API functions and the shapes of `Api.Call`

Numbers are the first lines of the functions in `libs/MeshKernelApi/src/MeshKernel.cpp`.  What a
function computes is a parameter of the call; the shape says which object it reads and writes, what
it adds to the undo stack, and what it checks.

| shape | functions |
|---|---|
| one function each | allocate 150, is_valid 167, deallocate 183, expunge 217, set_undo_size 237, undo 257, undo_state_count 278, …_for_id 296, redo 322, clear_state 343, clear_undo_state 360, …_for_id 375, get_projection 5304, mesh2d_get_closest_node 2834, mesh2d_snap_to_landboundary 479 (`snapMesh`), mesh2d_convert_projection 1077, curvilinear_convert_to_mesh2d 4748 (`gridToMesh`) |
| `edit` | mesh2d_delete 390, split_row 512, mesh2d_add 542, mesh1d_add 623, network1d_to_mesh1d 721, delete_hanging_edges 1186, compute_orthogonalization 1205, make_global 1657, make_triangular_mesh 1687, 1714, make_rectangular 1736, 1761, 1788, merge_nodes 2035, 2061, 2084, insert_edge 2175, 2197, insert_node 2268, delete_node 2292, move_node 2311, delete_edge 2332, 2362, refine 2600, 2660, 2712, 2744, remove_disconnected_regions 2774, rotate 2898, translate 2928, casulli 2949, 2969, 3069, 3089, flip_edges 3285, delete_small_flow_edges 3499, connect_meshes 3662, curvilinear: refine 3761, full_refine 3790, derefine 3828, smoothing 4436, insert_face 4717, delete_exterior 4792, delete_interior 4829, line_attraction_repulsion 4866, line_mirror 4904, delete_node 4942, move_node 4973, snap 5004, 5057 |
| `replace` | mesh2d_set 421, mesh1d_set 591, convert_to_curvilinear 1120, transfinite 3858, 3891, 3928, grids from splines 3962, 3995, 4144, rectangular 4196, 4220, 4247, smoothing_directional 4479, curvilinear_set 4588 |
| `overwrite` | network1d_set 650, circular grid 4272 |
| `contacts` | 3521, 3559, 3590, 3627, 3725 |
| `assign` | network1d chainages 676, 702, contacts_set 1049; queries that administrate: mesh2d_get_dimensions 741, count_hanging_edges 1144, face polygons 2411, 2441 |
| `initAlg` | 1252, 4301, 4532 |
| `stepAlg` | 1299, 1323, 1381, 4322, 4354, 4387, 4562, 4624, 4650, 4674 |
| `dropAlg` | 1405, 4412, 4698 |
| `query` | all other functions with a kernel id |

Not in the model: the instance for orthogonal grids from splines (4094-4194), which owns its data.
The contract of `edit` and of interactive steps in the refinement theorem (`EditOut.Lawful`) is a
hypothesis: it is proved for the undo actions of mesh and grid edits elsewhere (C08, C19) and is not
met by the inner iterations of the orthogonalization, which move nodes under the record made at
initialization.

## 4. Disagreements found between code and property

Each is a theorem with a concrete witness (named below), kept beside the theorem that
holds.

| property | what the code does | theorem |
|---|---|---|
| C02 | the total number of stored records can reach twice the bound; `SetMaximumSize` does not trim the redo list | `Undo.total_size_exceeds_bound`, `Undo.set_maximum_size_keeps_redo` |
| C08 | undo by saving the whole mesh (join, derefinement, connect meshes) administrates and so loses unused nodes | `Mesh.full_undo_loses_node` |
| C09 | `ConnectNodes` does not update the administration, so `delete_node` misses edges added since | `Mesh.delete_node_misses_new_edge` |
| C11 | the 17th edge of a node is silently not listed | `Mesh.administration_drops_17th_edge` |
| C12 | merging nodes with more than 16 edges together writes beyond an array | `Mesh.merge_overruns_16_edges` |
| C13 | a deleted edge of the added mesh becomes an edge from the last node of the first mesh to itself | `Mesh.join_revives_deleted_edge` |
| C38 | `mkernel_mesh2d_get_dimensions` administrates: it destroys unused nodes and breaks later undo | `Mesh.get_dimensions_destroys_node`, `Mesh.get_dimensions_breaks_undo` |
| C29 | the least-absolute-value method returns the absolute value, not the sample; inverse weighting compares the sum of weights with the required number of samples; simple averaging gives NaN for no samples when none are required; a sample equal to the largest double counts as missing | `Averaging.minimumAbs_leaves_data`, `Averaging.inverse_weighted_counts_weight`, `Averaging.simple_of_nothing`, `Averaging.minimum_of_top_missing` |
| C30 | NaN passes the "not equal" and "none of" checks; only grid generation rejects infinities | `RangeCheck.nan_accepted_by_negative_checks`, `RangeCheck.refinement_parameters_exact` |
| C32 | the box made not to overlap anything overlaps the default box | `BBox.non_overlapping_box_overlaps` |
| C33 | resizing with preservation writes outside the matrix when columns are added and rows removed; reordering by a vector that is not a permutation can run forever | `LinAlg.resize_overruns`, `LinAlg.reorder_may_not_terminate` |
| C34 | `mkernel_get_error` always writes 512 characters to the caller's buffer | `ErrorReport.short_buffer_overrun` |
| C16 | `GetNodeIndex` accepts positions outside the grid; with 2^32 nodes the size check rejects every number | `Curvi.positions_outside_accepted`, `Curvi.huge_grid_rejects_everything` |
| C19 | undo cleans the grid after each restored block: delete-exterior next to a one-line margin loses corner nodes, delete-node loses the nodes removed with it, and loose nodes are lost by any undo | `Curvi.undo_delete_exterior_loses_nodes`, `Curvi.undo_delete_node_loses_nodes`, `Curvi.undo_delete_interior_loses_loose_nodes` |
| C21 | refinement and de-refinement keep the hidden offsets of the old matrix, so on a grid with hidden lines visible rows are lost, or refinement is refused; a factor of zero is not checked by `mkernel_curvilinear_refine` and leads to undefined behaviour | `Curvi.refine_loses_row`, `Curvi.derefine_loses_row`, `Curvi.refine_hidden_first`, `Curvi.refine_zero_ub` |
| C04 | the record of `mkernel_mesh2d_snap_to_landboundary` is filed without a kernel id and survives `mkernel_expunge_state`; undo then uses a freed mesh | `Api.snap_record_outlives_its_kernel` |
| C05 | `mkernel_get_projection` of an unknown id creates a kernel of null pointers, which a later allocation of the id does not repair; `mkernel_mesh2d_get_closest_node` dereferences a null pointer | `Api.get_projection_creates_broken_kernel`, `Api.closest_node_of_unknown_kernel` |
| C06 | `mkernel_clear_state` resets the id counter | `Api.clear_state_reuses_ids` |
| C07 | a failing `mkernel_contacts_compute_*` discards the contacts, and no record allows to get them back | `Api.failing_contacts_discard_contacts` |
| C37 | undo of `mkernel_network1d_set` and of circular grids succeeds without effect; `mkernel_contacts_set` has no record; undo of a projection conversion leaves the projection of the kernel | `Api.overwrite_is_not_undone`, `Api.assign_is_not_recorded`, `Api.undo_keeps_converted_projection` |
| C40 | interactive steps before initialization dereference null (mesh orthogonalization, line shift); after the grid was replaced they edit the old grid, or freed memory | `Api.step_before_initialize`, `Api.stale_step_misses_current_grid`, `Api.stale_step_uses_freed_grid` |
| C22 | a hole of one point at the end of a polygon is not split off; when it repeats the first vertex the list is accepted with the separator as a vertex | `Polygons.single_point_hole_becomes_vertex` |
| C23 | a repeated vertex makes the polygon contain its whole bounding box; the version used for faces accepts all points on the line through a side; a point on an island in a hole is found or not depending on the order of the polygons | `Polygons.repeated_vertex_fills_box`, `Polygons.nodes_test_accepts_extension_of_side`, `Polygons.island_in_hole_depends_on_order` |
| C24 | areas below 1e-8 are replaced by 1e-8 and the centre is scaled with it: it can lie outside the polygon | `Polygons.tiny_polygon_misreported` |
| C25 | equal start and end positions outside the polygon are accepted | `Polygons.refine_accepts_equal_positions` |
| C26 | `mkernel_contacts_compute_with_polygons` returns the contact (2^32-1, 2^32-1) for a polygon that contains no face centre (`polygon_without_faces_misreported`) | `Contacts.cpp:309-313` |
| C26 | `mkernel_contacts_compute_with_points` ignores the 1D node mask (`points_ignore_mask`) | `Contacts.cpp:341-361` |
| C26 | `mkernel_contacts_compute_with_polygons` fails if the 1D node nearest to a face is masked out, although other nodes are selected (`polygons_masked_node_fails`) | `Mesh.cpp:673-710` |
| C26 | `mkernel_contacts_compute_multiple` reads out of bounds if the 1D mesh holds a deleted edge (`multiple_deleted_edge_undefined`); joining a network with merged nodes into an empty 1D mesh leaves such edges | `Mesh.cpp:885-901` |
| C41 | when the loop of linear refinement uses up its rounds (`Polygon.cpp:536-611`) just after a node was added, the returned list contains a missing point, which separates polygons; proved to happen for every range with equal end sides that is long compared with its number of sides | `Polygons.linear_refine_long_range_missing`, `Polygons.linear_refine_returns_missing` |
| C41 | linear refinement from the last to the first position of a ring reads `cumulativeDistances[1]` of a vector of size 1 (`Polygon.cpp:304`) | `Polygons.linear_refine_last_to_first_undefined` |
| C28 | the discretization advances at most one side per chainage (`Operations.cpp:1628-1631`): when a side lies between two chainages, the points that follow are computed on the extension of the wrong side; with the chainages a network starts with, the end of every polyline with three or more sides is misplaced | `Network.skipped_side_leaves_line`, `Network.end_of_polyline_misplaced` |
| C28 | the counter of nodes adds the total instead of the number of new nodes (`Mesh1D.cpp:65`): from the third polyline on edges are missing | `Network.third_polyline_not_joined`, `Network.third_polyline_lost` |
| C28 | a fixed chainage at the start overwrites the chainage of the end with one before the start (`Network1D.cpp:76,88`) | `Network.fixed_at_start_loses_end` |
| C28 | fixed chainages beyond the end are accepted; the discretization then reads out of bounds | `Network.fixed_beyond_end_undefined` |
| C28 | a polyline with fewer than two points, such as an empty one between two separators, makes the constructor read the front of an empty vector (`Network1D.cpp:45`) | `Network.create_short_line_undefined`, `Network.repeated_separator_undefined` |
| C28 | an interval that is not positive converts an infinite or negative number to an unsigned one (`Network1D.cpp:117`) | `Network.interval_not_positive_undefined` |
| C28 | an empty list of fixed chainages for the last polyline is dropped, and the call refused | `Network.empty_last_list_dropped` |
| C27 | removing disconnected regions through the API does not determine the faces anew (`MeshKernel.cpp:2774-2796`): after nodes were merged it deletes a region that is joined to the largest one, and it leaves alone a separate region drawn since | `Regions.stale_tables_remove_joined_face`, `Regions.stale_tables_keep_new_region` |
| C15 | After undo (or redo) of a moved node, node and edge queries answer from the coordinates before it: `CommitAction`/`RestoreAction` of `NodeTranslationAction` set no flag (`Mesh.cpp:1228-1231`). | `undo_of_move_leaves_stale_answer` |
| C15 | The flag of the faces tree is set by no edit (only by `SetNodes`/`SetEdges`), so face queries after an edit search the faces as they were. | `faces_tree_is_never_updated`, `deleted_face_is_found` |
| C15, C42 | All trees share one cached box (`Mesh.cpp:1161-1180`): nodes in box A, edges in box B, nodes in box B answers from box A. | `boxes_are_mixed_up` |
| C15 | A face query administrates the mesh, which invalidates unconnected nodes without setting the flag of the nodes tree; node queries still find them. | `administrated_node_is_found` |
| C42 | A query with a mask looks at one candidate only (`Mesh.cpp:685-709`, `RTree.hpp:264-282`) and throws when it is masked out; contacts with polygons fail as a whole. | `masked_query_misses_allowed_node` |
| C42 | `mkernel_mesh2d_get_node_index` ignores its bounding box (`MeshKernel.cpp:2821-2825`). | `node_index_ignores_box` |
| C39 | Moving a node to its own position divides by zero (`Mesh.cpp:724, 739`): the node, and all nodes at its position, get coordinates that are not a number. | `null_move_destroys_node` |
| C39 | In spherical coordinates `MoveNode` adds metres to degrees (`Mesh.cpp:720-721, 750`). | `spherical_move_misses_target` |
| C39 | `MoveNode` also moves deleted nodes (`Mesh.cpp:731-744` does not test validity): a node moved near (-999, -999) revives all deleted nodes. | `move_revives_deleted_node` |
| C36 | `GetNode` compares indices with the stored size, not with the visible size (`CurvilinearGrid.hpp:553-566`): a block for the boundary polygons may reach into lines that were removed. | `block_reaches_removed_line` |
| C35 | An extension whose upper end lies below the origin is accepted, because only the absolute height is looked at (`CurvilinearGridRectangular.cpp:188-206`); the grid goes up from the origin and misses the extension. | `extension_below_origin_goes_up` |
| C35 | A node with a coordinate equal to the missing value -999 is an invalid node of the new grid. | `node_at_missing_value_is_invalid` |
| C43 | At the south pole the cosine is zero, so the next latitude is the south pole again and the grid stops with two rows at the same latitude (`CurvilinearGridRectangular.cpp:141-186`). | `south_pole_extension_collapses` |
| C43 | Blocks that step over the pole are accepted; only steps that end close to a pole and are short are cut off (`CurvilinearGridRectangular.cpp:175-183`). | `large_block_leaves_globe` |
| C44 | A polygon is taken for a face found before when all its edges have a face and two of them have the same first face (`Mesh2D.cpp:443-458`); two neighbouring cells that share two edges satisfy this, so the second one is missing. | `cell_not_found` |
| C44 | When the polygon closes, the turn at the node where the search started is not examined (`Mesh2D.cpp:434`); a polygon that encloses part of the mesh joined to it in this node becomes a face, overlapping others. | `faces_overlap` |
| C45 | The walk for the edges of a face starts with whichever side is listed first at the first node (`Mesh2D.cpp:563-580`): the edges may come the other way around. | `given_edges_reversed` |
| C45 | Nodes without edges are removed before the faces are read; the faces are not renumbered (`Mesh.cpp:65`, `Mesh2D.cpp:66-68`). | `given_faces_shifted`, `given_faces_shifted_ub` |
| C45 | An edge between two nodes of a face that is not a side may be taken for one (`Mesh2D.cpp:568-570`); sides are then missing and read out of range. | `given_face_with_chord` |
| C45 | Only a fourth face at an edge is refused, the third is written behind an array of two (`Mesh2D.cpp:594-598`). | `given_third_face` |
| C46 | The test of the angle in `ClassifyNodes` is never reached: `firstNode` starts as missing and is compared with 0 (`Mesh2D.cpp:701, 710`). Corners with three or more edges may move along the boundary. | `angles_ignored`, `square_corner_may_move` |
| C46 | Edges without faces set the types of both ends to -1; edges at such nodes are skipped afterwards (`Mesh2D.cpp:673-682`). With hanging edges the types depend on the order of the edges, and nodes on the boundary may count as nodes inside. | `types_depend_on_order` |
| C46 | `DistanceFromLine` gives the distance -999 and a missing point for a line of length zero (`Operations.cpp:925-941`); the snapping takes it as the nearer one (`OrthogonalizationAndSmoothing.cpp:324`), and the node is lost. | `zero_edge_loses_node` |
| C46 | `DistanceFromLine` measures across the antimeridian but interpolates the raw longitudes (`Operations.cpp:931-938`). | `antimeridian_snaps_far` |
| C46 | Accurate spherical projection: with the factor 1 the smoother is asked for its connected nodes before it has computed any (`OrthogonalizationAndSmoothing.cpp:98-113`), and `m_localCoordinates` is never computed and indexed with the number of a node (447-448). | not modelled |
| C46 | `Initialize` administrates the mesh before it saves the nodes (`OrthogonalizationAndSmoothing.cpp:63`); undo does not bring back the nodes removed there. | not modelled (see C09) |
| C47 | `PointFaceIndices` tries only the faces at the edge whose middle is nearest (`Mesh2D.cpp:1892-1910`). A point inside a large face near a small one is reported to lie in no face, so 1d nodes get no contact. | `inside_not_matched` |
| C47 | `IsPointInPolygonNodes` answers true for every point of the bounding box on the line through a side (`Operations.cpp:229-232`), so a point outside the mesh may be matched with a face. | `outside_matched` |
| C48 | `ComputePointOnSplineAtAdimensionalDistance` gives the control point for parameters less than 1/100000 beyond it (`Operations.hpp:507-513`), so points there are not on the curve; with 100000 or more points between control points the control point is handed out twice. | `evaluation_jumps`, `control_point_repeated` |
| C48 | `mkernel_get_splines` stops a piece at the first point with a coordinate equal to the missing value (`MeshKernel.cpp:1624-1627`): points of a curve across x = −999 are left out, and the number of points is not what the caller allocated for. For control points other than the last one `values` is not written (lines 1617-1619). | `points_dropped` |
| C48 | `AddPointInExistingSpline` (`Splines.cpp:162-169`) does not update derivatives and length, so evaluating on the new piece reads out of range; the index check is off by one. | `added_point_not_evaluated`, `added_point_out_of_range` |
| C48 | `mkernel_splines_snap_to_landboundary` copies as many points as there are from the start index on (`MeshKernel.cpp:3182`), so any start index greater than zero reads beyond the points. Repeated points are dropped before snapping, but the result is copied back by the original indices (lines 3194-3200). | `snap_range_ub`, `snap_repeated_ub`, `snap_repeated_shifts` |
| C49 | An edge is marked as visited only when one of its faces is treated (`Mesh2DIntersections.cpp:272-312`). A polygon that crosses an edge without a face finds this edge as the seed again and again: `mkernel_mesh2d_intersections_from_polygon` and `mkernel_mesh2d_delete` never return. | `no_face_no_end`, `loose_edge_no_end` |
| C49 | `AreSegmentsCrossing` compares a determinant (an area) with a length (`Operations.cpp:1166-1170`): the diagonals of a square of side below 5e-6 do not cross, those of a larger one do. A segment along an edge does not cross it. | `small_square_not_crossing`, `large_square_crossing`, `along_not_crossing` |
| C49 | The edges of a face are sorted by the place within the segment, without the number of the segment (`Mesh2DIntersections.cpp:322-325`), so they do not come in the order of the polygon. | `order_not_along` |
| C49 | Other segments are tried up to 1000 before and after (`Mesh2DIntersections.cpp:124`), so with longer polygons a face may be listed without one of its crossed sides. A side crossed by two rings is listed twice for its face (lines 357-363). | `side_left_out`, `side_listed_twice` |
| C49 | The constructor (`Mesh2DIntersections.cpp:9-21`) administrates the mesh, without an undo action, before it throws for a mesh without faces, so a call that only asks a question changes the mesh. | – |
| C50 | `DeleteMesh` administrates through the constructor of `Mesh2DIntersections` (`Mesh2D.cpp:1695`, `Mesh2DIntersections.cpp:16`) without undo action: nodes on their own are deleted and undo does not bring them back; if there are no faces the call fails and they are gone all the same. | `undo_loses_single_node`, `failing_call_deletes_node` |
| C50 | Only edges all of whose faces are selected are deleted, so a selected face between faces that are not selected stays as it is: deleting inside a polygon around one inner face does nothing. An edge without a face is deleted whatever the polygon (`Mesh2D.cpp:1765-1788`). | `enclosed_face_stays`, `enclosed_face_witness`, `loose_edge_deleted` |
| C50 | `nodeEdgeCount` starts from the numbers of listed edges, which leave out repeated edges, and is counted down for these as well (`Mesh2D.cpp:1778-1786`): a node can get the count 0 with kept edges and is deleted with its faces. | `repeated_edges_destroy` |
| C51 | `mkernel_mesh2d_get_hanging_edges` and `mkernel_mesh2d_delete_hanging_edges` (`MeshKernel.cpp:1164-1203`) use the numbers of edges of the last administration; only the call that counts administrates. Deleting twice in a row does nothing the second time although edges hang. | `second_call_finds_nothing`, `hanging_edges_remain` |
| C52 | `ComputeBoundaryPolygons` with a polygon that cuts the boundary: the loop that is to reverse the first tail uses the number of a node as a place in the list of points (`Mesh2D.cpp:1571`), which is out of range or swaps unrelated points; when there is nothing to reverse, the second tail is put after the wrong end. All callers pass an empty polygon. | `cut_boundary_jumps`, `cut_boundary_out_of_range` |
| C52 | Two parts of a mesh that touch in a node may be returned as one polygon that passes this node twice; whether they are depends on the order of the edges. | `touching_parts_joined` |
| C53 | A face with six marked sides makes the function return before any edge is cut: the whole round is lost, a selected hexagon is never refined. (`MeshRefinement.cpp:637-640`) | `round_gives_up`, `hexagon_is_not_refined` |
| C53, C07 | A pentagon next to a refined face has a hanging node that cannot be connected; the call throws after the mesh was changed and before its undo action was recorded. (`MeshRefinement.cpp:494-497`) | `pentagon_makes_refinement_fail` |
| C53 | 0 stands both for "no side yet" and for the first side: marked neighbouring sides are recognised only when the first side is not one of them. (`MeshRefinement.cpp:1224-1248`) | `neighbouring_sides_missed` |
| C53 | The number of hanging edges is that of the face handled last, not of the face at hand. With a number left over a hexagon is handled as a quadrilateral and memory outside an array of four is written. (`MeshRefinement.cpp:1165`) | `stale_count_writes_out_of_range` |
| C53 | The test `!= or !=` always holds, so that hanging nodes are never left out when the sides of a face are counted: a triangle with a hanging node is split like a quadrilateral. (`MeshRefinement.cpp:643`) | in the model (`sidesKept`) |
| C54 | A node that a translation or rotation takes to a coordinate of -999 counts as deleted: the administration after the motion (`MeshTransformation.hpp`, `Mesh.cpp:249-293`) deletes its edges, and undo, which only swaps the node coordinates, leaves them deleted | `node_at_missing_value_lost` |
| C55 | The centre of an obtuse triangle with sides of a few micrometres lies outside the triangle: the crossing of the line to the circumcentre with the side is dismissed when the parallelogram is smaller than 1e-5 times the largest coordinate difference (`Operations.cpp:1166-1173`, `Mesh2D.cpp:918-933`) | `tiny_centre_outside` |
| C55 | Areas below 1e-8 are stored as 1e-8, so the smoothness between two such faces is 1 whatever their areas; the bound of 1e-12 in `GetSmoothness` (`Mesh2D.cpp:1214`) is never met | `tiny_faces_smooth` |
| C55 | `ComputeEdgesLengths` resizes its vector and skips deleted edges, so a deleted edge keeps its old length (`Mesh.cpp:552-568`) | `deleted_edge_keeps_length` |
| C55 | `mkernel_mesh2d_get_smoothness` copies as many values as the caller states without comparing with the number of edges (`MeshKernel.cpp:1572-1575`) | `api_smoothness` |
| C55 | `mkernel_mesh2d_insert_edge` (`MeshKernel.cpp:2175-2195`) does not administrate; `GetOrthogonality` and `GetSmoothness` then read `m_edgesFaces` beyond its end | `inserted_edge_ub` |
| C57 | Positive attraction along a line in the n-direction pushes the nodes away on every rectangular grid: the normal is turned to the left while columns run to the right (`CurvilinearGridLineAttractionRepulsion.cpp:38-115`; documented as attraction, `MeshKernel.hpp:430`) | `attract_repels_on_rectangles` |
| C57 | The copy of the grid that is read loses the offsets (`CurvilinearGrid.cpp:42-51`), so after undoing an added line distances and directions are those of other nodes | `attract_misreads_hidden_line` |
| C58 | A deleted node on the line becomes the valid node (-999, -999) plus a share of the moves (`CurvilinearGridLineShift.cpp:90-92`) | `shift_revives_deleted_node` |
| C58 | Undo restores the block only: a line outside the block stays shifted | `shift_undo_leaves_line` |
| C58 | The crossing test compares coordinates of parallel lines as if they were perpendicular and refuses the second line (`CurvilinearGridAlgorithm.cpp:76-88`) | `parallel_line_refused` |
| C58 | The calls of the session before its start follow a null pointer (`MeshKernel.cpp:4562-4672`) | `session_needs_initialize` |
| C58 | Setting a new grid leaves the session with the old one: the calls succeed and the grid shown does not change | `session_edits_replaced_grid` |
| C59 | From a missing node on the line a valid node is computed | `mirror_invents_node` |
| C59 | At the left side the saved block is a column with the number of the first row (`CurvilinearGridLineMirror.cpp:93-96`): after undo the mirrored nodes are only hidden and a later mirroring shows them | `mirror_left_undo_leaves_column` |
| C59 | For the same reason the call fails at the left side when the line starts beyond the number of columns, after the line was added | `mirror_left_fails` |
| C59 | A row of the interior from end to end is taken for a boundary line (`CurvilinearGrid.cpp:824-840`); no line is added and the first row is overwritten | `mirror_overwrites_first_row` |
| C59 | With a row hidden at the bottom, mirroring at the top reads beyond the node matrix (`CurvilinearGrid.cpp:835`, `CurvilinearGrid.hpp:553-566`) | `mirror_reads_outside` |
| C60 | The selecting polygon only selects land boundaries (`MeshKernel.cpp:3306-3307`); edges outside are flipped | `polygon_ignored` |
| C60 | One inner edge of a face that is not a triangle ends the whole flipping (`FlipEdges.cpp:98-101`), without the last administration; the result depends on the numbers of the edges | `not_independent_of_numbering` |
| C60 | A flip is accepted when the new edge only touches the old one at its end, which gives flat triangles on a straight boundary | `not_flat_free` |
| C60 | A face with a corner inwards is cut from its first corner outside the face (`Mesh2D.cpp:1363-1389`): the face stays and a triangle beside it is new | `not_triangulated` |
| C60 | After ten rounds with flips left an exception is thrown (`FlipEdges.cpp:241-244`): the mesh is changed and there is no undo action | `not_always_finished` |
| C60 | A flip may give a node 17 edges; sorting them writes beyond the table of angles (`Mesh.cpp:782-`) | `not_always_defined` |
| C61 | If the second face of the edge handed in is no quadrilateral, the edge is listed twice (SplitRowColumnOfMesh.cpp:288-291, 313-333), the first quadrilateral is entered from its far side, and `GetNextElement` reads `m_edgesFaces` at a missing index (95-112) | `row_beside_other_face_undefined` |
| C61 | A row that crosses itself: the call throws after nodes and edges have been added, with no undo action, or two new edges cross in the quadrilateral passed twice (SplitRowColumnOfMesh.cpp:66-93, 134-148) | `crossing_row_fails`, `crossing_row_crossing_edges` |
| C61 | The administration at the end (SplitRowColumnOfMesh.cpp:46) deletes nodes without edges and this is not recorded | `loose_node_lost` |
| C62 | The relative search radius is applied twice: once to the polygon of the face or node (AveragingInterpolation.cpp:115-121, Mesh2D.cpp:1451-1454) and again in the search polygon (AveragingInterpolation.cpp:142-172) | `radius_applied_twice` |
| C62 | A sample outside the face on the extension of a side is averaged (Operations.cpp, `IsPointInPolygonNodes`) | `extension_of_side_counts` |
| C62 | The box of the search tree is open, so that a sample at the corner that determines the circle may be left out although samples on sides count (RTree.hpp:214-225) | `corner_sample_left_out` |
| C62 | With a smallest number of 0, no sample in the face but one in the circle gives 0/0 | `nothing_required_gives_nan` |
| C62 | When samples are lowered, all samples in the circle around a face are, also those of its neighbours, which then are not refined (AveragingInterpolation.cpp:125-137) | `neighbour_uses_up_sample` |
| C62 | The closest sample is used only if there is none in the circle; one in the circle but outside the polygon gives a missing value (AveragingInterpolation.cpp:239-250) | `closest_not_used` |
| C62 | Values at nodes: a deleted node has an empty polygon whose first point is read (Mesh2D.cpp:1434); an edge without face makes the list of faces too short (1465-1469, 1424) | `deleted_node_undefined`, `edge_without_face_undefined` |
| C62 | Values at edges: for a deleted edge the results of nodes are read at the missing index (AveragingInterpolation.cpp:92-103) | `deleted_edge_undefined` |
| C63 | A node without edges is removed by the first administration (Mesh.cpp:437) but still in the search tree, which is built from positions read before (422, 441): a close node is merged into it and loses its edges | `merged_into_removed_node` |
| C63 | Without polygon invalid nodes are selected too (Polygons.cpp:293-296), but not put into the tree (RTree.hpp:169), while `DeleteNode` takes positions in the tree (RTree.hpp:292, Mesh.cpp:458): the wrong points are removed, so that nodes are merged into each other or memory outside is read | `deleted_nodes_shift_tree`, `deleted_nodes_undefined` |
| C63 | `mkernel_mesh2d_merge_nodes` reads the flags of the nodes of a deleted edge (Mesh.cpp:578-579) | `deleted_edge_undefined` |
| C63 | Only the first polygon selects (Mesh.cpp:965) | `only_first_polygon` |
| C63 | Undo does not restore nodes and edges removed by the administrations (Mesh.cpp:437 and 464) | `undo_misses_administration` |
| C63 | A node is moved along a chain of close nodes, further than the merging distance | `moved_along_chain` |
| C63 | Nodes exactly the merging distance apart are merged unless they lie along an axis (RTree.hpp:216-225) | `exact_distance_depends_on_direction` |
| C64 | With a constant cell size the index is rounded towards zero (BilinearInterpolationOnGriddedSamples.hpp:183-188), so a location up to one cell left of or below all samples is extrapolated | `extrapolated_before_origin` |
| C64 | A location on the last column or row has no value (BilinearInterpolationOnGriddedSamples.hpp:196, 223, 250) | `last_sample_missing` |
| C64 | With coordinates in falling order, such as rows from top to bottom, no location has a value and there is no error (BilinearInterpolationOnGriddedSamples.hpp:223, 250) | `falling_nothing` |
| C64 | Cell size zero (the default) and far locations: a cast that is undefined, or an index that wraps around to zero (BilinearInterpolationOnGriddedSamples.hpp:193-196) | `zero_size_undefined`, `far_undefined`, `wrapped_undefined` |
| C64 | An edge averages the missing value with a real one (BilinearInterpolationOnGriddedSamples.hpp:164) | `edge_half_missing` |
| C64 | With a deleted edge the results of nodes are read out of range (BilinearInterpolationOnGriddedSamples.hpp:163-164) | `deleted_edge_undefined` |
| C64 | Coordinates given for one direction only are ignored (Utils.hpp:548) | `one_direction_ignored` |
| C65 | A location beside a triangle, within its bounding box and on the line of an oblique side, counts as inside (Operations.cpp, `IsPointInPolygonNodes`), so its value is extrapolated beyond all samples (TriangulationInterpolation.cpp:118-124) | `not_only_in_triangles` |
| C65 | Cuts are found by `AreSegmentsCrossing` with a tolerance in units of length (Operations.cpp:1166-1173): between samples a few millionths apart the search stays in its first triangle (TriangulationInterpolation.cpp:140-159) | `lost_between_close_samples` |
| C65 | A triangle with an area below 5e-13 gives no value (Operations.cpp:1496-1521) | `small_triangle_missing` |
| C65 | A deleted edge is a location at (-999, -999) (Mesh.cpp:917-928) and has a value if samples lie around | `deleted_edge_has_value` |
| C66 | The number of the fourth node is unsigned: when nodes are given against the order of the polygon and counting back from the third node passes zero, it wraps to nearly 2^32 and memory outside the polygon is read (CurvilinearGridFromPolygon.cpp:130-141 and 209) | `backwards_reads_outside`, `reads_outside_iff` |
| C66 | Node numbers are not compared with the number of nodes (CurvilinearGridFromPolygon.cpp:43-57, 175) | `numbers_not_checked` |
| C66 | With more nodes than needed, the fourth side is as many nodes back from the first node and does not end at the fourth node (CurvilinearGridFromPolygon.cpp:153-156, 192-195): nodes of the polygon are left out, and the corner is not that of the third side | `skips_nodes` |
| C66 | The weights of the relaxation can be negative (Operations.cpp:1255-1472): for opposite sides divided differently, a node of the grid lies far outside a convex polygon | `node_outside` |
| C66 | With an odd number of nodes the grid of a triangle leaves out nodes of the polygon (CurvilinearGridFromPolygon.cpp:224-434) | `odd_leaves_out` |
| C66 | The point where the blocks of a triangle meet can lie outside of it (CurvilinearGridFromPolygon.cpp:224-434) | `middle_outside` |
| C66 | Repeated points are removed before the node numbers are used (Utils.hpp:57-77) | `numbers_shift` |
| C67 | Positions before the round are read without the offsets of hidden lines (CurvilinearGridSmoothing.cpp:184): the node of another line is used | `hidden_line_misread` |
| C67 | Loose nodes are removed before the block is checked, and are not part of the undo action (CurvilinearGridSmoothing.cpp:40-65, CurvilinearGrid.cpp:433-651) | `loose_node_lost` |
| C67 | An edge node moves half the way to the mean of three neighbours and itself, then back to the edge (CurvilinearGridSmoothing.cpp:178-276): for parallelograms the edge nodes move | `sheared_edge_moves` |
| C67 | If both feet are beyond the segments the mean of the two feet is taken, which is not on the edge (CurvilinearGridSmoothing.cpp:235-276) | `bent_edge_left` |
| C67 | Of two feet equally far the first is taken (CurvilinearGridSmoothing.cpp:235-276): a mirror axis is lost | `symmetry_lost` |
| C67 | The projection divides by the squared length of the segment (Operations.cpp:1560-1572) | `coinciding_nodes_no_number` |
| C67 | The number of rounds is converted to an unsigned number without a check (MeshKernel.cpp:4467 and 4514) | `negative_rounds` |
| C68 | The undo action keeps a pointer to the grid, and the smoothing changes that grid before a copy of it takes its place (MeshKernel.cpp:4519-4523, MKStateUndoAction.cpp:35-57) | `undo_does_nothing`, `moved_node_not_restored` |
| C68 | If both squared distances are below 1e-8 the node moves half the way to a neighbour (CurvilinearGridSmoothing.cpp:161-169) | `near_nodes_move`, `near_nodes_meet` |
| C68 | Hidden lines: as for C67; the result is a copy of the grid without its offsets (CurvilinearGridSmoothing.cpp:110, CurvilinearGrid.cpp:42-51) | `hidden_line_misread_along` |
| C69 | An edge between two faces with both ends on the outline is taken for a boundary edge (CurvilinearGrid.cpp:801-843); existing nodes are overwritten | `edge_between_faces_overwrites` |
| C69 | Nodes beyond the edge are moved even if they exist (CurvilinearGrid.cpp:862-922) | `existing_node_moved` |
| C69 | A node where two faces touch has no type, the edge is refused (CurvilinearGrid.cpp:436, 801-805) | `touching_faces_refused` |
| C69 | The nodes behind the edge are not checked (CurvilinearGrid.cpp:858, 877, 892, 912) | `image_of_missing_node` |
| C69 | Loose nodes are removed before the checks and are not part of the undo action (CurvilinearGrid.cpp:669-675) | `loose_node_lost_by_error`, `loose_node_not_restored` |
| C69 | A new node with a coordinate -999 is missing, the call succeeds | `new_node_lost` |
| C69 | Bounds are checked against the whole node matrix without the hidden lines (CurvilinearGrid.cpp:827, 835) | `insert_after_undo_outside` |
| C70 | One remembered box serves the trees of nodes, edges and faces (CurvilinearGrid.cpp:256, 265, 274): a tree built for another box is taken for up to date | `boxes_mixed_up`, `move_after_search_in_box` |
| C70 | Centres of edges and faces are computed with missing nodes (CurvilinearGrid.cpp:1288, 1443-1450) and stay in the tree | `edge_to_nowhere`, `face_to_nowhere` |
| C70 | Mirroring a line outside adds a row or column and leaves the table of node numbers as it was (CurvilinearGridLineMirror.cpp:48-130) | `move_after_mirror`, `search_after_mirror_reads_outside` |
| C71 | The check of a grid line reads the first face of every edge at the node, also of an edge without faces (Mesh2DToCurvilinear.cpp:308): undefined for a loose edge at a corner | `hanging_undefined` |
| C71 | It is never checked that a place is free (Mesh2DToCurvilinear.cpp:269-298): a node can take the place of another, which is then missing in the grid | `node_lost` |
| C71, C72 | The index -999 means that a node has no place (Constants.hpp:57), but is also a column and row number (Mesh2DToCurvilinear.cpp:242-245, 327-347): nodes 999 columns or rows before the first face are left out | `far_node_left_out` |
| C71 | Four nodes joined all round become a cell of the grid although the mesh has triangles between them | `cell_over_triangles` |
| C71 | The face is the one with the nearest centre (Mesh2DToCurvilinear.cpp:54), not the one that contains the point; a point in a large quadrilateral beside a small one is refused (71-74) | `convert_refused` |
| C73 | The size of the list of face polygons is not written when no face matches, so the caller reserves a size of before (MeshKernel.cpp:2462-2465) | `Listing.size_not_written` |
| C73 | Asking for face polygons or their size administrates the mesh: nodes without edges are deleted, without undo (MeshKernel.cpp:2420, 2450) | `Listing.query_deletes_nodes` |
| C73 | Edges at the border have the missing value -999, so faces at the border are filtered out for every sensible lower bound (Mesh2D.cpp:1668) | `Listing.border_faces_left_out` |
| C73 | The filtered calls do not administrate: after inserting an edge they read outside the tables (Mesh2D.cpp:1657) | `Listing.filter_after_insert_undefined` |
| C74 | Deleted nodes are tested like points at (-999, -999) and are listed as outside, or inside without polygons (Mesh2D.cpp:2076-2090) | `Listing.deleted_node_chosen` |
| C75 | An edge inserted from coordinates is not in the edge lists of its ends (CommitAction for AddEdge, Mesh.cpp:1197-1201, only marks the mesh), and FindEdge looks only there (Mesh.cpp:616-635): the same call made twice draws the edge twice | `edge_drawn_twice` |
| C75 | ComputeEdgesLengths gives a deleted edge the length -999 (Mesh.cpp:555); the search radius is then negative and every insertion is refused with "The first and the second node are coinciding" (MeshKernel.cpp:2222-2228) | `deleted_edge_blocks_insertion` |
| C75 | The nodes tree and the edges tree share one remembered box (Mesh.cpp:1152-1186): after a query for nodes in a smaller box and one for edges in the default box, a node outside of the smaller box is not found and a second node is added at the same place | `node_doubled` |
| C75 | An edge can be inserted into a mesh without nodes, but if all nodes have been deleted the search tree is empty and the call throws (RTree.hpp:239-242) | `deleted_nodes_block_insertion` |
| C76 | A node that coincides with its neighbour has smoothness 1, the best value (CurvilinearGridSmoothness.cpp:83-95) | `collapsed_is_smooth` |
| C77 | The radius is the length of one side times the cotangent of the angle opposite to it (CurvilinearGridCurvature.cpp:86), not the length over twice the sine: on a circle of radius R the curvature is 1000/(R√(2+2cos)) | `curvature_on_circle_partial`, `circle_not_reciprocal` |
| C77 | The same formula is not symmetric in the two neighbours | `curvature_not_symmetric` |
| C77 | If the angle at the third node is a right one the radius is zero and is replaced by 999999 (CurvilinearGridCurvature.cpp:89-92): a sharp turn is reported like a straight line, whose curvature is 1000/999999 | `sharp_turn_is_straight`, `curvature_straight` |
| C78 | A move smaller than 1e-5 of the coordinates counts as none (CurvilinearGridSnapping.cpp:165 with the relative tolerance of NumericFunctions.hpp:44-56), so that with usual coordinates in metres the neighbours do not follow moves of several metres | `neighbours_follow_only_near_origin` |
| C78 | Control points that are not on one grid line are accepted; all nodes of the block between them are treated as nodes of the line, and later rounds move nodes off the boundary again (CurvilinearGridSnapping.cpp:148-170) | `diagonal_line_misplaced` |
| C78 | The copy of the grid loses the offsets of hidden lines (CurvilinearGrid.cpp:42-51), so that other nodes are read; with a hidden first row a line there is not snapped | `hidden_row_not_snapped` |
| C79 | For a hole the offset of the outer ring is written instead of that of the hole, at an index from the number of nodes on (Polygons.cpp:211-221), which is behind the end of the list unless the inward flag is set | `offset_hole_ub` |
| C79 | The offsets of several polygons are written one after the other without separators (Polygons.cpp:201-224), so that the list is not a valid polygon and the call throws | `offset_two_throws` |
| C79 | The ring is moved to the right of its sides (Polygon.cpp:912-929), which is outside for a counterclockwise ring and inside for a clockwise one | `offset_depends_on_orientation` |
| C79 | The inward flag is documented as the inner offset (MeshKernel.hpp:1739) but returns the outer and the inner ring | `offset_inward_is_both` |
| C80 | The loop that copies the nodes back runs over the whole list of coordinates but reads from the one outer ring (MeshKernel.cpp:3272-3276): with several polygons, a hole or a repeated point it reads behind the end | `snap_beyond_ub` |
| C80 | The first point and its copy at the end are treated as separate nodes (Polygon.cpp:231-247), so that snapping a part opens the ring | `snap_opens_ring` |
| C81 | Only polygon 0 is tested (MeshKernel.cpp:2886-2889) | `included_ignores_others` |
| C81 | Points that repeat the one before them are dropped when the list is converted (Utils.hpp:67-75), and the answers after them are written too early | `included_repeats_shift` |
| C82 | `mkernel_mesh2d_delete_edge_by_index` passes the index on unchecked and `DeleteEdge` only tests for the missing value: any other index the mesh does not have is read behind the end of the list (MeshKernel.cpp:2362-2379, Mesh.cpp:520-531) | `index_not_checked` |
| C82 | undo of a moved node does not mark the trees as changed: deleting the edge at a point deletes another edge (Mesh.cpp:1152-1186) | `undo_of_move_deletes_other_edge` |
| C82 | the box is remembered for all trees together: after a query for nodes with another box the edge tree is taken for the one of that box, and an edge outside it is deleted (Mesh.cpp:1152-1186) | `box_of_other_query_deletes_outside` |
| C83 | points of a 1D mesh that are not the end of an edge are dropped when it is set, and the indices of the points behind them change (Mesh.cpp:54-65, Mesh.cpp:190-247) | `single_points_left_out` |
| C83 | node indices of the edges are not checked: the nodes are read behind their end (Mesh.cpp:140-162) | `index_not_refused` |
| C15, C82, C83 | undo and redo of an addition exchange nodes and edges without marking the search trees (Mesh.cpp:1238-1242,1292-1296): after an addition, a query and undo, the query finds an edge that is gone, and deleting it reads behind the end of the list | `undo_of_add_keeps_tree` |
| C84 | an empty list of contacts is refused (Contacts.cpp:478-486) | `no_contacts_refused` |
| C84 | the number of contacts passed for reading is not compared with the number there are (MeshKernel.cpp:1036-1040) | `more_contacts_read` |
| C85 | the index of the sample on the right is limited by the number of columns instead of rows: with two rows more than columns the strength of one row is halved (SamplesHessianCalculator.cpp:232, 234) | `strength_depends_on_row` |
| C85 | with three rows more than columns the strength is a division by zero even for values that are all zero (SamplesHessianCalculator.cpp:232-234, 163) | `tall_grid_not_a_number` |
| C85 | the gradient uses the value of one of its samples from before the smoothing (SamplesHessianCalculator.cpp:123, 163) | `smoothing_keeps_old_values` |
| C85 | a slope of -999 in the x direction is taken for a missing one (SamplesHessianCalculator.cpp:276-300) | `slope_taken_for_missing` |
| C85 | coordinates of columns and rows are read as if given for every sample (Utils.hpp:257-258) | `listed_coordinates_undefined` |
| C85 | smoothing a grid without columns computes 0 - 1 as an unsigned number and reads out of bounds (SamplesHessianCalculator.cpp:29) | `no_columns_undefined` |
| C86 | triangles with corners on a line are left out when faces are searched for, so the removal of degenerated triangles finds none (Mesh2D.cpp:463-468, 231-259) | `flat_triangle_stays` |
| C86 | a small triangle with two sides at the boundary pulls a corner of its neighbour with it: half of the neighbour is lost and an edge is left hanging (Mesh2D.cpp:1104-1133) | `neighbour_halved` |
| C86 | the numbers of inner edges are counted in the partly merged mesh, so the result depends on the order of the nodes (Mesh2D.cpp:1105-1111, 1121-1127) | `numbering_matters` |
| C87 | edges between nodes that stay are kept, also where they have been divided: old edges lie below the new ones (CasulliRefinement.cpp:206-222) | `old_edges_stay` |
| C87 | edges at a corner with more than four edges are added several times, as new edges are not in the lists that are searched (CasulliRefinement.cpp:501-567, Mesh.cpp:482-496, 616-635) | `corner_edges_doubled` |
| C87 | the step that joins new nodes across faces never joins any: it is entered only for faces without a node that is left alone, and joins only at faces with such a node (CasulliRefinement.cpp:298-377) | `no_diagonals` |
| C87 | an edge without a face makes the refinement throw after nodes have been added; the actions are lost, so the change cannot be undone (CasulliRefinement.cpp:379-499) | `faceless_edge_fails` |
| C87 | of two faces that share two edges one new node is not stored, and the mask is read at the missing index (CasulliRefinement.cpp:700-755) | `two_shared_edges_ub` |
| C87 | the call does not administrate the mesh first: after adding an edge the tables of the faces are read beyond their end (MeshKernel.cpp:2949-2994, CasulliRefinement.cpp:57-80) | `stale_tables_ub` |
| C88 | a row is made twice as wide whatever the number of nodes: with an odd number from 1337 on no face is drawn in the strip at 180 degrees (Mesh2DGenerateGlobal.cpp:126-131, 166) | `odd_strip_missing` |
| C88 | with one node the height of the first row comes out as -360 degrees, the row is widened to 720 degrees and the mesh is empty (Mesh2DGenerateGlobal.cpp:9-31, 126-131) | `one_node_empty` |
| C88 | only zero is refused: negative numbers become numbers above two thousand million (MeshKernel.cpp:1667-1677) | `negative_not_refused` |
| C88 | `pentagonFace` is reset inside the loop over the faces, so only the first face of a widened row gets the node halfway; the others get it only by the deletion of edges afterwards (Mesh2DGenerateGlobal.cpp:166-171) | `one_pentagon` |
| C89 | the projection of the nodes on a border does not look at the frozen nodes (CurvilinearGridOrthogonalization.cpp:132-175, 213-258) | `frozen_border_moved` |
| C89 | coefficients are computed from the second line of the block on and are zero before (CurvilinearGridOrthogonalization.cpp:388-397), but nodes are moved from the first line on if it is not the border of the grid (271-281): zero is divided by zero | `block_line_not_number` |
| C90 | graded rows begin at `block - block * g^(1 - u)`, which is zero only for one uniform row; the first node is not at the origin (CurvilinearGridGenerateCircularGrid.cpp:93-98) | `rows_not_from_origin` |
| C90 | the grading number of rows is that of columns, which grow on two sides, but rows grow on one side only: the last rows become higher than the maximum size (CurvilinearGridGenerateCircularGrid.cpp:91-97) | `row_too_high` |
| C90 | graded radii are increased before the first is stored, regular ones after (CurvilinearGridGenerateCircularGrid.cpp:141-147, 159-163): the first circle is not at the radius of curvature | `first_circle_outside` |
| C90 | a maximum size of zero is accepted (Parameters.hpp:94-95) and raised to a negative power (CurvilinearGridGenerateCircularGrid.cpp:93): coordinates are infinite | `zero_size_not_numbers` |
| C90 | fractions have no upper limit (Parameters.hpp:92-93); the product with the size is converted to `int` without a check (CurvilinearGridGenerateCircularGrid.cpp:33, 89), which is undefined for large ones | `fraction_undefined` |
| C90 | the fraction and maximum size of columns are not used for circular grids (CurvilinearGridGenerateCircularGrid.cpp:169-191) | `columns_settings_ignored` |
| C91 | An edge with six close edges is not refused: the sixth is written behind an array of five (`ConnectMeshes.cpp:152`, `ConnectMeshes.hpp:66`, `:77`), before the error for too many hanging nodes can be raised | `six_undefined` |
| C91 | The table that marks nodes has the size of the number of edges and is indexed by nodes (`ConnectMeshes.cpp:242`, `:174`, `:180`, `:308`); with an edge without a face there can be more nodes than edges | `loose_edge_undefined` |
| C91 | For two or more hanging nodes the opposite edge is deleted (`ConnectMeshes.cpp:423`, `:490`, `:574`); if that is a boundary edge close to another mesh, its missing nodes are used as indices later (`ConnectMeshes.cpp:257`, `:174`) | `strip_undefined` |
| C91 | A node is put on the list of merges for the first of its edges only (`ConnectMeshes.cpp:174-184`) and is not used after a merge (`ConnectMeshes.cpp:308-315`): where four blocks meet, close nodes are left apart | `crossing_left` |
| C92 | At a node with three or more edges only the first two edges count (Mesh1D.cpp:107-111): the segment can run along the third edge | `branch_ignored` |
| C92 | Where the two neighbours of a node are at the same place, the length is zero (Mesh1D.cpp:113-116) and no contact is sought | `turned_back` |
| C93 | Asking for the accurate projection succeeds, but a Cartesian mesh becomes spherical and a spherical mesh Cartesian (MeshKernel.cpp:1091-1104, ProjectionConversions.hpp:76-79, 143-146) | `accurate_not_made` |
| C93 | Nodes without edges become missing in the administration after the conversion (MeshConversion.hpp:142, Mesh.cpp:164-188) | `loose_node_lost` |
| C93 | Only the 2D mesh is converted; the projection of the kernel changes and the 1D mesh keeps its own (MeshKernel.cpp:1095-1103) | `line_left` |
| C93 | Undo of a conversion does not mark the search trees (Mesh.cpp:1287-1290): a search after convert, search and undo looks at the converted nodes | `undo_search_stale` |
| C94 | The lengths of the edges of the 1D mesh are computed once and not renewed when the mesh grows (Mesh.cpp:888-891, 971-1012): compute boundary contacts without a radius, or multiple contacts, add to the 1D mesh, compute again: reads out of bounds | `added_after_undefined` |
| C94 | Undo does not renew the lengths either (Mesh.cpp:1292-1296): after another addition faces are sought as far as the edges of the mesh that was undone were long | `replaced_wrong` |
| C95 | Without elements the first element is taken nevertheless and its mark is written out of bounds (CasulliDeRefinement.cpp:262-266, 308) | `empty_undefined` |
| C95 | Marks spread from one element only, and for at most a thousand rounds (CasulliDeRefinement.cpp:308-311, CasulliDeRefinement.hpp:61): other parts of the mesh, and elements far away, are left as they are | `far_kept`, `other_part_kept` |

## 5. Tests against wrong programs

`seeded/LOG.jsonl` has one line per attempt, also for attempts no theorem noticed. `theorems_failed`
lists the first theorems that no longer check. Often this is a lemma. The property theorem that
uses it is then not reached by the build, so such a line shows that the proof breaks, and not by
itself that the statement of the property is false of the edited program.
