import Verif.SplitRow.Props
import Verif.Flip.StartLemmas
import Verif.Cross.Model
/-!
# Splitting a row: examples, and where it falls short
-/
namespace Verif.SplitRow
open Verif.Mesh Verif.Faces
open Verif.Polygons (Pt)
open Verif.Flip (Exact)

/-- The mean of two points. -/
def midPt (p q : Pt) : Pt := ⟨(p.x + q.x) / 2, (p.y + q.y) / 2⟩

/-- Faces of the edges, and corners and sides of the faces, after the administration. -/
def tables (m : Mesh Pt) : Option (List (Nat × Nat) × List (List Nat) × List (List Nat)) :=
  match doAdministrationCartesian m with
  | .ok (_, s) => some (s.edgesFaces, s.facesNodes, s.facesEdges)
  | _ => none

/-- Outcome of splitting at edge `e` after the administration: the edges; `none` if nothing happens. -/
def outcome (m : Mesh Pt) (e : Nat) : Res (Option (List Edge)) :=
  match doAdministrationCartesian m with
  | .ok (m1, s) => (match split midPt s m1 e with
    | .ok r => .ok (r.map (·.2.edges))
    | .throw => .throw
    | .ub => .ub)
  | _ => .ok none

/-- The run is undefined. -/
def isUndefined {α : Type} (r : Res α) : Bool :=
  match r with
  | .ub => true
  | _ => false

/-- The run throws. -/
def isThrown {α : Type} (r : Res α) : Bool :=
  match r with
  | .throw => true
  | _ => false

/-- The edges after a normal end. -/
def edgesAfter (r : Res (Option (List Edge))) : Option (List Edge) :=
  match r with
  | .ok r => r
  | _ => none

/-! ## Two squares in a row, with a pentagon behind them -/

/-- Two squares, and a pentagon to the left of them. -/
def strip : Mesh Pt where
  nodes := [some ⟨0, 0⟩, some ⟨1, 0⟩, some ⟨2, 0⟩, some ⟨0, 1⟩, some ⟨1, 1⟩, some ⟨2, 1⟩, some ⟨-1, 0⟩, some ⟨-1, 1⟩, some ⟨-2, 1 / 2⟩]
  edges := [(0, 1), (1, 2), (3, 4), (4, 5), (0, 3), (1, 4), (2, 5), (0, 6), (3, 7), (6, 8), (7, 8)]
  nodesEdges := List.replicate 9 []
  numEdges := List.replicate 9 0

theorem strip_manageable : Manageable strip := manageable_of_check (by decide +kernel)

theorem strip_tables : tables strip = some
    ([(0, missing), (1, missing), (0, missing), (1, missing), (0, 2), (0, 1), (1, missing), (2, missing), (2, missing), (2, missing), (2, missing)],
     [[0, 1, 4, 3], [1, 2, 5, 4], [0, 3, 7, 8, 6]], [[0, 5, 2, 4], [1, 6, 3, 5], [4, 8, 10, 9, 7]]) := by decide +kernel

theorem tables_of {m m1 : Mesh Pt} {s : State} {t : List (Nat × Nat) × List (List Nat) × List (List Nat)} (h : doAdministrationCartesian m = .ok (m1, s))
    (ht : tables m = some t) : s.edgesFaces = t.1 ∧ s.facesNodes = t.2.1 ∧ s.facesEdges = t.2.2 := by
  unfold tables at ht
  rw [h] at ht
  obtain rfl := Option.some.inj ht
  exact ⟨rfl, rfl, rfl⟩

/-- `row_ends_or_closes`, `collecting_returns`, `api_split_row`, `row_split_partial`: the row through the edge between the squares ends at the boundary and at the pentagon. -/
example : ∃ m1 s, Exact m1 s ∧ Room m1 ∧ s.edgesFaces[5]? = some (0, 1) ∧ Borders s 0 5 ∧ Arm s 5 0 [4] [0] ∧ Arm s 5 1 [6] [1] ∧
    ([1].reverse ++ [0] : List Nat).Nodup ∧ ([1].reverse ++ [0] : List Nat) ≠ [] := by
  obtain ⟨_, m1, s, _, h1, h2, _, h4, h5⟩ := Flip.administrateAll_ok strip_manageable (by decide) (by decide)
  obtain ⟨t1, t2, t3⟩ := tables_of h1 strip_tables
  simp only at t1 t2 t3
  refine ⟨m1, s, h2, ?_, by rw [t1]; rfl, ⟨[0, 5, 2, 4], by rw [t3]; rfl, by decide⟩, ?_, ?_, by decide, by decide⟩
  · unfold Room
    rw [h4, h5]
    exact ⟨by decide, by decide⟩
  · refine ⟨4, 2, .step (g := 2) ⟨⟨[0, 1, 4, 3], by rw [t2]; rfl, rfl⟩, [0, 5, 2, 4], 1, by rw [t3]; rfl, rfl, rfl⟩ ⟨(0, 2), by rw [t1]; rfl, Or.inl rfl⟩ (.nil _ _), ?_⟩
    rintro ⟨ns, hn, hl⟩
    rw [t2] at hn
    obtain rfl := Option.some.inj hn
    simp at hl
  · refine ⟨6, missing, .step (g := missing) ⟨⟨[1, 2, 5, 4], by rw [t2]; rfl, rfl⟩, [1, 6, 3, 5], 3, by rw [t3]; rfl, rfl, rfl⟩ ⟨(1, missing), by rw [t1]; rfl, Or.inl rfl⟩ (.nil _ _), ?_⟩
    rintro ⟨ns, hn, hl⟩
    rw [t2] at hn
    simp [missing] at hn

/-- `row_split_partial`: what it gives in this case.  Nodes 9 and 10 are new, 5 and 6 are gone. -/
theorem strip_split : edgesAfter (outcome strip 5) = some [(0, 1), (1, 2), (3, 4), (4, 5), (0, 3), noEdge, noEdge, (0, 6), (3, 7), (6, 8), (7, 8),
    (2, 9), (9, 5), (1, 10), (10, 4), (9, 10), (0, 10), (10, 3)] := by decide +kernel

/-- The mesh after the split at edge `e`. -/
def meshAfter (m : Mesh Pt) (e : Nat) : Option (Mesh Pt) :=
  match doAdministrationCartesian m with
  | .ok (m1, s) => (match split midPt s m1 e with
    | .ok (some r) => some r.2
    | _ => none)
  | _ => none

/-- `split_recorded`, `split_undone_partial`: the mesh after the split can be administrated. -/
example : (meshAfter strip 5).all manageableCheck = true ∧ (meshAfter strip 5).isSome = true := by
  constructor <;> decide +kernel

/-- Seen from the edge between the square and the pentagon, the row is the same.  But the call runs out of the tables: the second face of this edge is no
quadrilateral, and then the edge is listed twice, so that the first square is entered from the wrong side. -/
theorem row_beside_other_face_undefined : isUndefined (outcome strip 4) = true := by decide +kernel

/-! ## A frame of four quadrilaterals -/

/-- Four quadrilaterals around a square. -/
def frame : Mesh Pt where
  nodes := [some ⟨0, 0⟩, some ⟨3, 0⟩, some ⟨3, 3⟩, some ⟨0, 3⟩, some ⟨1, 1⟩, some ⟨2, 1⟩, some ⟨2, 2⟩, some ⟨1, 2⟩]
  edges := [(0, 1), (1, 2), (2, 3), (3, 0), (4, 5), (5, 6), (6, 7), (7, 4), (0, 4), (1, 5), (2, 6), (3, 7)]
  nodesEdges := List.replicate 8 []
  numEdges := List.replicate 8 0

theorem frame_manageable : Manageable frame := manageable_of_check (by decide +kernel)

theorem frame_tables : tables frame = some
    ([(0, missing), (2, missing), (3, missing), (1, missing), (0, 4), (2, 4), (3, 4), (1, 4), (0, 1), (0, 2), (2, 3), (1, 3)],
     [[0, 1, 5, 4], [0, 4, 7, 3], [1, 2, 6, 5], [2, 3, 7, 6], [4, 5, 6, 7]], [[0, 9, 4, 8], [8, 7, 11, 3], [1, 10, 5, 9], [2, 11, 6, 10], [4, 5, 6, 7]]) := by
  decide +kernel

/-- `ring_split`: the row through a diagonal edge closes. -/
example : ∃ m1 s, Exact m1 s ∧ Room m1 ∧ s.edgesFaces[8]? = some (0, 1) ∧ Ring s 8 0 [9, 10, 11, 8] [0, 2, 3, 1] ∧ [0, 2, 3, 1].Nodup := by
  obtain ⟨_, m1, s, _, h1, h2, _, h4, h5⟩ := Flip.administrateAll_ok frame_manageable (by decide) (by decide)
  obtain ⟨t1, t2, t3⟩ := tables_of h1 frame_tables
  simp only at t1 t2 t3
  refine ⟨m1, s, h2, ?_, by rw [t1]; rfl, ⟨?_, by decide⟩, by decide⟩
  · unfold Room
    rw [h4, h5]
    exact ⟨by decide, by decide⟩
  · refine .step (g := 2) ⟨⟨[0, 1, 5, 4], by rw [t2]; rfl, rfl⟩, [0, 9, 4, 8], 3, by rw [t3]; rfl, rfl, rfl⟩ ⟨(0, 2), by rw [t1]; rfl, Or.inl rfl⟩ ?_
    refine .step (g := 3) ⟨⟨[1, 2, 6, 5], by rw [t2]; rfl, rfl⟩, [1, 10, 5, 9], 3, by rw [t3]; rfl, rfl, rfl⟩ ⟨(2, 3), by rw [t1]; rfl, Or.inl rfl⟩ ?_
    refine .step (g := 1) ⟨⟨[2, 3, 7, 6], by rw [t2]; rfl, rfl⟩, [2, 11, 6, 10], 3, by rw [t3]; rfl, rfl, rfl⟩ ⟨(1, 3), by rw [t1]; rfl, Or.inr rfl⟩ ?_
    refine .step (g := 0) ⟨⟨[0, 4, 7, 3], by rw [t2]; rfl, rfl⟩, [8, 7, 11, 3], 2, by rw [t3]; rfl, rfl, rfl⟩ ⟨(0, 1), by rw [t1]; rfl, Or.inr rfl⟩ ?_
    exact .nil _ _

/-! ## A row that crosses itself -/

/-- Six quadrilaterals: a row that goes through the first of them twice. -/
def crossing : Mesh Pt where
  nodes := [some ⟨0, 0⟩, some ⟨1, 0⟩, some ⟨1, 1⟩, some ⟨0, 1⟩, some ⟨2, 0⟩, some ⟨3, 1⟩, some ⟨2, -1⟩, some ⟨3, -2⟩, some ⟨1, -1⟩, some ⟨0, -2⟩]
  edges := [(0, 1), (1, 2), (2, 3), (3, 0), (1, 4), (4, 5), (5, 2), (4, 6), (6, 7), (7, 5), (6, 8), (8, 9), (9, 7), (8, 1), (0, 9)]
  nodesEdges := List.replicate 10 []
  numEdges := List.replicate 10 0

theorem crossing_manageable : Manageable crossing := manageable_of_check (by decide +kernel)

/-- The call fails for this row, when it starts at an edge of the quadrilateral passed twice; nodes and edges have been added by then, and there is nothing to undo. -/
theorem crossing_row_fails : isThrown (outcome crossing 1) = true := by decide +kernel

/-- Started from another edge of the row, the call ends, but the two new edges through the quadrilateral passed twice cross: both have their middle in
`(1/2, 1/2)`, where there is no node. -/
theorem crossing_row_crossing_edges : ∃ m', meshAfter crossing 5 = some m' ∧ (10, 11) ∈ m'.edges ∧ (15, 16) ∈ m'.edges ∧
    m'.nodes[10]? = some (some ⟨1 / 2, 1⟩) ∧ m'.nodes[11]? = some (some ⟨1 / 2, 0⟩) ∧ m'.nodes[15]? = some (some ⟨1, 1 / 2⟩) ∧
    m'.nodes[16]? = some (some ⟨0, 1 / 2⟩) ∧ some ⟨1 / 2, 1 / 2⟩ ∉ m'.nodes := by
  have h : (meshAfter crossing 5).any (fun m' => decide ((10, 11) ∈ m'.edges ∧ (15, 16) ∈ m'.edges ∧
    m'.nodes[10]? = some (some ⟨1 / 2, 1⟩) ∧ m'.nodes[11]? = some (some ⟨1 / 2, 0⟩) ∧ m'.nodes[15]? = some (some ⟨1, 1 / 2⟩) ∧
    m'.nodes[16]? = some (some ⟨0, 1 / 2⟩) ∧ some ⟨1 / 2, 1 / 2⟩ ∉ m'.nodes)) = true := by decide +kernel
  cases hes : meshAfter crossing 5 with
  | none => rw [hes] at h; simp at h
  | some m' =>
    rw [hes, Option.any_some, decide_eq_true_eq] at h
    exact ⟨m', rfl, h⟩

/-! ## A loose node -/

/-- A square, and a node without edges. -/
def loose : Mesh Pt where
  nodes := [some ⟨0, 0⟩, some ⟨1, 0⟩, some ⟨1, 1⟩, some ⟨0, 1⟩, some ⟨5, 5⟩]
  edges := [(0, 1), (1, 2), (2, 3), (3, 0)]
  nodesEdges := [[0, 3], [0, 1], [1, 2], [2, 3], []]
  numEdges := [2, 2, 2, 2, 0]

/-- The tables of the square. -/
def looseTables : State where
  numFaces := [1, 1, 1, 1]
  edgesFaces := [(0, missing), (0, missing), (0, missing), (0, missing)]
  facesNodes := [[0, 1, 2, 3]]
  facesEdges := [[0, 1, 2, 3]]

/-- The fifth node after the split at edge 0, and after undo. -/
def fifthAfter : Option (Option Pt × Option Pt) :=
  match compute midPt (fun _ l => l) looseTables loose 0 with
  | .ok (some (acts, m1)) => (match Undo.restoreAll (meshSem Pt) (committed acts) (.ok m1) with
    | (_, .ok m2) => some ((m1.nodes[4]?).join, (m2.nodes[4]?).join)
    | _ => none)
  | _ => none

/-- A node without edges is lost at the end of the call, and undo does not bring it back. -/
theorem loose_node_lost : fifthAfter = some (none, none) := by decide +kernel

end Verif.SplitRow
