import Verif.Casulli.CheckLemmas
import Verif.Casulli.DiagonalLemmas
import Verif.Casulli.UndoLemmas
import Verif.Mesh.History
import Verif.Ortho.TypesModel
import Verif.Quality.Props
/-!
# C87: Casulli refinement
-/
namespace Verif.Casulli
open Verif.Mesh Verif.Faces
open Verif.Polygons (Pt)

/-! ## Example meshes -/

/-- Halfway. -/
def mid (a b : Pt) : Pt := ⟨(a.x + b.x) / 2, (a.y + b.y) / 2⟩

/-- The mean of the points; stands for the circumcentre. -/
def mean (nodes : List (Option Pt)) (ns : List Nat) : Pt :=
  let ps := ns.filterMap (fun n => (nodes[n]?).join)
  ⟨(ps.map (·.x)).sum / ps.length, (ps.map (·.y)).sum / ps.length⟩

/-- The types of the nodes of a mesh without sharp angles. -/
def typesOf (m : Mesh Pt) (s : State) : List Int :=
  match Ortho.classify m.edges m.nodesEdges s.numFaces (fun _ _ _ => false) m.nodes.length with
  | .ok l => l
  | _ => []

/-- The tables of an administrated mesh. -/
def tablesOf (r : Mesh Pt × State) : Tables Pt := ⟨r.2, typesOf r.1 r.2, r.2.facesNodes.map (mean r.1.nodes)⟩

/-- Refinement of a drawing that has been administrated. -/
def refined (m : Mesh Pt) (sel : Nat → Bool) : Res (List (Act Pt) × Mesh Pt) :=
  compute (fun _ l => l) mid (runOf m).1 (tablesOf (runOf m)) sel

/-- The edges in use after the refinement. -/
def edgesOf (r : Res (List (Act Pt) × Mesh Pt)) : List Edge :=
  match r with
  | .ok q => q.2.edges.filter (· ≠ noEdge)
  | _ => []

/-- Two by two squares. -/
def squares : Mesh Pt where
  nodes := [some ⟨0, 0⟩, some ⟨1, 0⟩, some ⟨2, 0⟩, some ⟨0, 1⟩, some ⟨1, 1⟩, some ⟨2, 1⟩, some ⟨0, 2⟩, some ⟨1, 2⟩, some ⟨2, 2⟩]
  edges := [(0, 1), (1, 2), (3, 4), (4, 5), (6, 7), (7, 8), (0, 3), (3, 6), (1, 4), (4, 7), (2, 5), (5, 8)]
  nodesEdges := []
  numEdges := []

/-- One square. -/
def square : Mesh Pt where
  nodes := [some ⟨0, 0⟩, some ⟨4, 0⟩, some ⟨4, 4⟩, some ⟨0, 4⟩]
  edges := [(0, 1), (1, 2), (2, 3), (3, 0)]
  nodesEdges := []
  numEdges := []

/-- Three triangles that meet at node 0; two of them share an edge. -/
def fans : Mesh Pt where
  nodes := [some ⟨0, 0⟩, some ⟨2, 0⟩, some ⟨1, 2⟩, some ⟨-1, 2⟩, some ⟨-1, -2⟩, some ⟨1, -2⟩]
  edges := [(0, 1), (0, 2), (0, 3), (1, 2), (2, 3), (0, 4), (0, 5), (4, 5)]
  nodesEdges := []
  numEdges := []

/-- A square with an edge that belongs to no face. -/
def whisker : Mesh Pt where
  nodes := [some ⟨0, 0⟩, some ⟨2, 0⟩, some ⟨2, 2⟩, some ⟨0, 2⟩, some ⟨4, 0⟩]
  edges := [(0, 1), (1, 2), (2, 3), (3, 0), (1, 4)]
  nodesEdges := []
  numEdges := []

/-- A square divided by two edges that meet inside. -/
def bent : Mesh Pt where
  nodes := [some ⟨0, 0⟩, some ⟨2, 0⟩, some ⟨2, 2⟩, some ⟨0, 2⟩, some ⟨1, 1⟩]
  edges := [(0, 1), (1, 2), (2, 3), (3, 0), (0, 4), (4, 2)]
  nodesEdges := []
  numEdges := []

/-! ## Undo -/

/-- **Refining is undone and redone exactly.**  Whatever the tables of the faces say, if the refinement succeeds then undoing it gives the nodes and
edges of before, and redoing it the nodes and edges of the refined mesh. -/
theorem refinement_undo {P : Type} {order : Nat → List Nat → List Nat} {mid : P → P → P} {m m' : Mesh P} {t : Tables P} {sel : Nat → Bool}
    {as : List (Act P)} (h : compute order mid m t sel = .ok (as, m')) (hc : m.numEdges.length = m.nodes.length) :
    ∃ bs m1, Undo.restoreAll (meshSem P) (committed as) (.ok m') = (bs, .ok m1) ∧ content m1 = content m ∧
      ∃ cs m2, Undo.commitAll (meshSem P) bs (.ok m1) = (cs, .ok m2) ∧ content m2 = content m' :=
  (compute_good h).undo_redo hc

example : (∃ q, refined squares (fun _ => true) = .ok q) ∧ (runOf squares).1.numEdges.length = (runOf squares).1.nodes.length ∧
    (edgesOf (refined squares (fun _ => true))).length = 60 := by
  have h : (match refined squares (fun _ => true) with | .ok _ => true | _ => false) = true := by decide +kernel
  refine ⟨?_, by decide +kernel, by decide +kernel⟩
  split at h
  · rename_i q hq
    exact ⟨q, hq⟩
  · cases h

/-! ## The step that should join nodes across a face -/

/-- **The step that joins new nodes across the faces joins nothing.**  It runs only for faces without a node that is left alone, and then joins only at
faces with such a node: in the transition between the refined part and the rest no edges are added. -/
theorem no_diagonals {P : Type} {s : State} {f : Nat} {ns es : List Nat} {r r' : Run P} (hf : FaceOf r.mesh s f ns es)
    (h : connectFace s f r = .ok r') : r' = r := connectFace_same hf h

/-- The number of edges before and after that step for the first face of a square, when one of its nodes is left alone and when none is. -/
def diagonalStep (mask : List Mask) : Res (Nat × Nat) := do
  let r ← computeNewNodes mid (tablesOf (runOf square))
    ⟨[], (runOf square).1, mask ++ List.replicate 36 .unassigned, List.replicate 4 [missing, missing, missing, missing]⟩
  let r1 ← connectFace (runOf square).2 0 r
  .ok (r.mesh.edges.length, r1.mesh.edges.length)

example : diagonalStep [.unassigned, .corner, .corner, .corner] = .ok (4, 4) ∧ diagonalStep [.corner, .corner, .corner, .corner] = .ok (4, 4) := by
  decide +kernel

/-! ## The refined mesh -/

/-- **What the refinement draws.**  In an administrated mesh with proper tables, in which each edge has a face, two faces share at most one edge, and
each node of the boundary that is no corner has two boundary edges, the refinement succeeds.  Nodes of the mesh before that take part and are no corners
are gone.  The others keep their edges to each other.  New nodes are halfway between the nodes and the centres of their faces or the middles of their
boundary edges, with the numbers `num`; joined are exactly the pairs in `Link`.  Nodes without an edge are removed.

Missing for the full property: it asks for a mesh without overlapping edges, and `old_edges_stay` shows that there are some; meshes with edges without a
face or with faces that share two edges are left out, see `faceless_edge_fails` and `two_shared_edges_ub`. -/
theorem refined_partial {P : Type} (order : Nat → List Nat → List Nat) (mid : P → P → P) {m : Mesh P} {t : Tables P} (h : Net m t) (sel : Nat → Bool)
    (hroom : ((tasks m t.faces).filter (active (masks m t sel))).length ≤ 9 * m.nodes.length)
    (hfits : m.nodes.length + ((tasks m t.faces).filter (active (masks m t sel))).length ≤ missing)
    (htwo : ∀ n, OnRim m t.faces n → t.types[n]? = some 3 ∨ ∃ a b, a ≠ b ∧ ∀ e, Rim t.faces e ∧ touches (edgeAt m e) n ↔ e = a ∨ e = b) :
    ∃ as m', compute order mid m t sel = .ok (as, m') ∧ Refined mid m t (masks m t sel) m' := compute_net h order sel hroom hfits htwo

/-- The squares are a mesh as described. -/
theorem squares_net : Net (runOf squares).1 (tablesOf (runOf squares)) := by
  have r := Quality.ready_of_run (m := squares) (by decide) (by decide) (runOf_eq (by decide) (by decide)) (by decide +kernel)
  exact net_of_check r.consistent (by decide +kernel)

example (sel : Nat → Bool) : Net (runOf squares).1 (tablesOf (runOf squares)) ∧
    ((tasks (runOf squares).1 (runOf squares).2).filter (active (masks (runOf squares).1 (tablesOf (runOf squares)) sel))).length ≤ 81 ∧
    (∀ n, OnRim (runOf squares).1 (runOf squares).2 n → (tablesOf (runOf squares)).types[n]? = some 3 ∨
      ∃ a b, a ≠ b ∧ ∀ e, Rim (runOf squares).2 e ∧ touches (edgeAt (runOf squares).1 e) n ↔ e = a ∨ e = b) :=
  ⟨squares_net, (List.length_filter_le _ _).trans (by decide +kernel), rims_of_check squares_net (by decide +kernel)⟩

/-- **Nothing selected, nothing drawn.**  When no node is selected the edges stay the same. -/
theorem nothing_selected {P : Type} (order : Nat → List Nat → List Nat) (mid : P → P → P) {m : Mesh P} {t : Tables P} (h : Net m t)
    (htwo : ∀ n, OnRim m t.faces n → t.types[n]? = some 3 ∨ ∃ a b, a ≠ b ∧ ∀ e, Rim t.faces e ∧ touches (edgeAt m e) n ↔ e = a ∨ e = b) :
    ∃ as m', compute order mid m t (fun _ => false) = .ok (as, m') ∧ m'.nodes.length = m.nodes.length ∧ ∀ i j, Adj m' i j ↔ Adj m i j :=
  compute_nothing h order htwo

/-! ## What goes wrong -/

/-- **Old edges stay below the new ones.**  In a mesh of one square the nodes are corners and stay, and so do the four edges between them: edge (0,1)
lies below the edges (0,8), (8,9) and (1,9) it was divided into. -/
theorem old_edges_stay : [(0, 1), (0, 8), (8, 9), (1, 9)] ⊆ edgesOf (refined square (fun _ => true)) := by decide +kernel

/-- **Edges are added three times.**  At a corner with more than four edges each new edge is added again, because the edges added are not in the lists
that are searched. -/
theorem corner_edges_doubled : (edgesOf (refined fans (fun _ => true))).countP (· = (0, 6)) = 3 := by decide +kernel

/-- Outcome of the part that adds the edges, after the nodes have been added. -/
def whiskerRun : Res (Nat × Bool) := do
  let mask ← initialMask (runOf whisker).1 (tablesOf (runOf whisker)) (fun _ => true)
  let r ← computeNewNodes mid (tablesOf (runOf whisker))
    ⟨[], (runOf whisker).1, mask, List.replicate (runOf whisker).1.edges.length [missing, missing, missing, missing]⟩
  .ok (r.mesh.nodes.length, match connectNewNodes (runOf whisker).2 5 5 r with | .throw => true | _ => false)

/-- **An edge without a face makes the refinement fail halfway.**  Twelve nodes have been added to the mesh when joining the nodes throws; the actions
are lost, so that the mesh stays as it is then. -/
theorem faceless_edge_fails : (match refined whisker (fun _ => true) with | .throw => true | _ => false) = true ∧
    whiskerRun = .ok (17, true) := by decide +kernel

/-- **Two faces that share two edges: out of bounds.**  The new node of the second face at the node between the two edges is not stored, and the mask is
read at the missing number. -/
theorem two_shared_edges_ub : (match refined bent (fun _ => true) with | .ub => true | _ => false) = true := by decide +kernel

/-- **After an edit the tables are out of date: out of bounds.**  Refining does not administrate the mesh first.  After adding an edge, the number of
faces of that edge is read beyond the end of the table. -/
theorem stale_tables_ub : (match connectNodesU (runOf square).1 0 2 with
    | .ok q => (match compute (fun _ l => l) mid q.2 (tablesOf (runOf square)) (fun _ => true) with | .ub => true | _ => false)
    | _ => false) = true := by decide +kernel

end Verif.Casulli
