import Verif.ToCurvi.Props
import Verif.Flip.Props
import Verif.Faces.Props
import Verif.Quality.Lemmas
/-!
# Turning a mesh into a curvilinear grid: examples, and where it falls short
-/
namespace Verif.ToCurvi
open Verif.Mesh Verif.Faces Verif.Refine Verif.Curvi
open Verif.Polygons (Pt)

/-! ## Checks -/

/-- The order of the edges around the nodes that `DoAdministration` makes. -/
def orderOf (m : Mesh Pt) : Nat → List Nat → List Nat := ccwOrder (runOf m).1.nodes (runOf m).1.edges

theorem run_eq {m : Mesh Pt} (hn : m.nodes.length ≤ missing) (hb : inBounds m = true) :
    doAdministration (orderOf m) clockwise m = .ok ((runOf m).1, (runOf m).2) := by
  have h := runOf_eq hn hb
  obtain ⟨m0, m1, s, h1, h2, h3, _, h5, _⟩ := cartesian_run m hn hb
  have e : runOf m = (m1, s) := by unfold runOf; rw [h5]
  unfold doAdministrationCartesian at h
  rw [h1, Res.ok_bind] at h
  unfold orderOf
  rw [e] at h ⊢
  rw [h2, h3]
  exact h

/-- `Linked`, computed. -/
def linkedCheck (m : Mesh Pt) (s : State) (a b : Nat) : Bool :=
  (List.range s.facesEdges.length).any fun f => (((s.facesNodes[f]?).getD []).length == 4) &&
    ((s.facesEdges[f]?).getD []).any fun e => (edgeAt m e == (a, b)) || (edgeAt m e == (b, a))

theorem linked_iff_check {m : Mesh Pt} {s : State} {a b : Nat} : Linked m s a b ↔ linkedCheck m s a b = true := by
  unfold Linked linkedCheck Borders Quad joins
  simp only [List.any_eq_true, List.mem_range, Bool.and_eq_true, Bool.or_eq_true, beq_iff_eq]
  constructor
  · rintro ⟨e, f, ns, h1, ⟨es, h2, h3⟩, h4, h5⟩
    refine ⟨f, (List.getElem?_eq_some_iff.1 h2).1, by rw [h4]; exact h5, e, by rw [h2]; exact h3, h1⟩
  · rintro ⟨f, h1, h2, e, h3, h4⟩
    refine ⟨e, f, (s.facesNodes[f]?).getD [], h4, ⟨_, List.getElem?_eq_getElem h1, by rw [List.getElem?_eq_getElem h1] at h3; exact h3⟩, ?_, h2⟩
    cases hx : s.facesNodes[f]? with
    | none => rw [hx] at h2; simp at h2
    | some x => simp

/-- The corners of the quadrilaterals. -/
def cornersOf (s : State) : List Nat := (s.facesNodes.filter fun ns => ns.length == 4).flatten

theorem mem_cornersOf {s : State} {f0 n : Nat} (h : Corner s f0 n) : n ∈ cornersOf s := by
  obtain ⟨f, ns, _, h2, h3⟩ := h
  unfold cornersOf
  exact List.mem_flatten.2 ⟨ns, List.mem_filter.2 ⟨List.mem_of_getElem? h2.1, by simp [h2.2]⟩, h3⟩

/-- `Bordered`, computed. -/
def borderedCheck (m : Mesh Pt) (s : State) : Bool :=
  (cornersOf s).all fun n => (n != missing) && m.edges.zipIdx.all fun e => !((e.1.1 == n) || (e.1.2 == n)) ||
    s.facesEdges.any fun es => es.contains e.2

theorem bordered_of_check {m : Mesh Pt} {s : State} (h : borderedCheck m s = true) (f0 : Nat) : Bordered m s f0 := by
  intro n e h1 h2
  unfold borderedCheck at h
  simp only [List.all_eq_true, Bool.and_eq_true, Bool.or_eq_true, Bool.not_eq_true', bne_iff_ne, ne_eq, List.any_eq_true] at h
  obtain ⟨h3, h4⟩ := h n (mem_cornersOf h1)
  have hlt : e < m.edges.length := by
    by_contra hlt
    unfold edgeAt at h2
    rw [List.getElem?_eq_none (by omega)] at h2
    rcases h2 with h2 | h2 <;> exact h3 h2.symm
  have h5 : edgeAt m e = m.edges[e] := by unfold edgeAt; rw [List.getElem?_eq_getElem hlt]; rfl
  rw [h5] at h2
  rcases h4 (m.edges[e], e) (List.mem_zipIdx_iff_getElem?.2 (List.getElem?_eq_getElem hlt)) with h6 | ⟨es, h6, h7⟩
  · exfalso
    rcases h2 with h2 | h2 <;> simp [h2] at h6
  · obtain ⟨g, h8⟩ := List.getElem?_of_mem h6
    exact ⟨g, es, h8, by simpa using h7⟩

/-- `NoTwin`, computed. -/
def noTwinCheck (m : Mesh Pt) (s : State) : Bool :=
  s.facesNodes.all fun ns => match ns with
    | [a, b, c, d] => (cornersOf s).all fun x => (!(linkedCheck m s a x && linkedCheck m s c x) || x == b || x == d) &&
        (!(linkedCheck m s b x && linkedCheck m s d x) || x == a || x == c)
    | _ => true

theorem noTwin_of_check {m : Mesh Pt} {s : State} (h : noTwinCheck m s = true) (f0 : Nat) : NoTwin m s f0 := by
  intro f a b c d x _ h2 h3
  have h4 := List.all_eq_true.1 h _ (List.mem_of_getElem? h2)
  simp only [List.all_eq_true] at h4
  have h5 := h4 x (mem_cornersOf h3)
  simp only [linked_iff_check]
  simp only [Bool.and_eq_true, Bool.or_eq_true, Bool.not_eq_true', beq_iff_eq, Bool.and_eq_false_iff] at h5
  refine ⟨fun h6 h7 => ?_, fun h6 h7 => ?_⟩
  · have := h5.1; simp [h6, h7] at this; exact this
  · have := h5.2; simp [h6, h7] at this; exact this

/-- `Cell`, computed. -/
def cellCheck (p0 p1 p2 p3 : Int × Int) : Bool :=
  [(1, 1), (1, -1), (-1, 1), ((-1 : Int), (-1 : Int))].any fun w =>
    ((p1 == (p0.1 + w.1, p0.2)) && (p2 == (p0.1 + w.1, p0.2 + w.2)) && (p3 == (p0.1, p0.2 + w.2))) ||
    ((p1 == (p0.1, p0.2 + w.2)) && (p2 == (p0.1 + w.1, p0.2 + w.2)) && (p3 == (p0.1 + w.1, p0.2)))

theorem cell_of_check {p0 p1 p2 p3 : Int × Int} (h : cellCheck p0 p1 p2 p3 = true) : Cell p0 p1 p2 p3 := by
  unfold cellCheck at h
  obtain ⟨w, h1, h2⟩ := List.any_eq_true.1 h
  simp only [Bool.and_eq_true, Bool.or_eq_true, beq_iff_eq] at h2
  refine ⟨w.1, w.2, ?_, ?_, ?_⟩
  · simp only [List.mem_cons, List.not_mem_nil, or_false] at h1
    rcases h1 with rfl | rfl | rfl | rfl <;> simp
  · simp only [List.mem_cons, List.not_mem_nil, or_false] at h1
    rcases h1 with rfl | rfl | rfl | rfl <;> simp
  · rcases h2 with ⟨⟨a, b⟩, c⟩ | ⟨⟨a, b⟩, c⟩
    · exact .inl ⟨a, b, c⟩
    · exact .inr ⟨a, b, c⟩

instance (p q : Int × Int) : Decidable (Beside p q) := by unfold Beside; infer_instance

/-- `Lattice`, computed. -/
def latticeCheck (m : Mesh Pt) (s : State) (spot : Nat → Int × Int) : Bool :=
  (s.facesNodes.all fun ns => match ns with
    | [a, b, c, d] => cellCheck (spot a) (spot b) (spot c) (spot d)
    | _ => true) &&
  (cornersOf s).all fun n => (cornersOf s).all fun n' => (!(spot n == spot n') || n == n') &&
    (linkedCheck m s n n' == decide (Beside (spot n) (spot n')))

theorem lattice_of_check {m : Mesh Pt} {s : State} {spot : Nat → Int × Int} (h : latticeCheck m s spot = true) (f0 : Nat) :
    Lattice m s f0 spot := by
  unfold latticeCheck at h
  rw [Bool.and_eq_true] at h
  have hp : ∀ n n', Corner s f0 n → Corner s f0 n' → (!(spot n == spot n') || n == n') = true ∧
      (linkedCheck m s n n' == decide (Beside (spot n) (spot n'))) = true := by
    intro n n' h1 h2
    have h3 := List.all_eq_true.1 (List.all_eq_true.1 h.2 n (mem_cornersOf h1)) n' (mem_cornersOf h2)
    rw [Bool.and_eq_true] at h3
    exact h3
  refine ⟨fun f a b c d _ h2 => ?_, fun n n' h1 h2 h3 => ?_, fun n n' h1 h2 => ?_⟩
  · exact cell_of_check (List.all_eq_true.1 h.1 _ (List.mem_of_getElem? h2))
  · have := (hp n n' h1 h2).1
    simp [h3] at this
    exact this
  · have := (hp n n' h1 h2).2
    rw [beq_iff_eq] at this
    rw [linked_iff_check, this, decide_eq_true_iff]

/-- `Narrow`, computed. -/
def narrowCheck (s : State) (spot : Nat → Int × Int) : Bool :=
  (cornersOf s).all fun n => (cornersOf s).all fun n' => decide ((spot n).1 - (spot n').1 < 999 ∧ (spot n).2 - (spot n').2 < 999)

theorem narrow_of_check {s : State} {spot : Nat → Int × Int} (h : narrowCheck s spot = true) (f0 : Nat) : Narrow s f0 spot := by
  intro n n' h1 h2
  exact of_decide_eq_true (List.all_eq_true.1 (List.all_eq_true.1 h n (mem_cornersOf h1)) n' (mem_cornersOf h2))

/-! ## Examples -/

/-- Three squares around a corner, and a triangle on one of them. -/
def elbow : Mesh Pt where
  nodes := [some ⟨0, 0⟩, some ⟨1, 0⟩, some ⟨2, 0⟩, some ⟨0, 1⟩, some ⟨1, 1⟩, some ⟨2, 1⟩, some ⟨0, 2⟩, some ⟨1, 2⟩, some ⟨3, 0⟩]
  edges := [(0, 1), (1, 2), (3, 4), (4, 5), (6, 7), (0, 3), (1, 4), (2, 5), (3, 6), (4, 7), (2, 8), (5, 8)]
  nodesEdges := []
  numEdges := []

/-- The places of the nodes of `elbow`. -/
def elbowSpot (n : Nat) : Int × Int := (([0, 1, 2, 0, 1, 2, 0, 1, 3][n]?).getD 0, ([0, 0, 0, 1, 1, 1, 2, 2, 0][n]?).getD 0)

theorem elbow_run : doAdministration (orderOf elbow) clockwise elbow = .ok ((runOf elbow).1, (runOf elbow).2) := run_eq (by decide) (by decide)

/-- The nodes of the grid that comes out, row by row. -/
def nodesAfter (r : Res (Grid (Option Pt) × Mesh Pt)) : Option (List (List (Option (Rat × Rat)))) :=
  match r with
  | .ok (g, _) => some ((List.range g.rows).map fun r => (List.range g.cols).map fun c => (g.cell r c).map fun p => (p.x, p.y))
  | _ => none

/-- `convert_laid_partial`, `convert_total_partial`, `convert_lattice_partial`: the three squares become a grid with one empty corner. -/
example : Manageable elbow ∧ (∀ n l, (orderOf elbow n l).Perm l) ∧
    doAdministration (orderOf elbow) clockwise elbow = .ok ((runOf elbow).1, (runOf elbow).2) ∧
    (runOf elbow).2.facesNodes.length ≤ missing ∧ (runOf elbow).1.nodes.length < 1000 ∧
    Start (fun _ => .ok 1) (fun _ => true) (runOf elbow).1 (runOf elbow).2 1 ∧ Bordered (runOf elbow).1 (runOf elbow).2 1 ∧
    NoTwin (runOf elbow).1 (runOf elbow).2 1 ∧ Lattice (runOf elbow).1 (runOf elbow).2 1 elbowSpot ∧ Narrow (runOf elbow).2 1 elbowSpot ∧
    nodesAfter (convert (orderOf elbow) clockwise (fun _ => .ok 1) (fun _ => true) elbow) =
      some [[some (2, 0), some (2, 1), none], [some (1, 0), some (1, 1), some (1, 2)], [some (0, 0), some (0, 1), some (0, 2)]] :=
  ⟨manageable_of_check (by decide +kernel), ccwOrder_perm _ _, elbow_run, by decide +kernel, by decide +kernel,
    ⟨rfl, 0, 1, 4, 3, by decide +kernel, rfl⟩, bordered_of_check (by decide +kernel) _, noTwin_of_check (by decide +kernel) _,
    lattice_of_check (by decide +kernel) _, narrow_of_check (by decide +kernel) _, by decide +kernel⟩

/-- `convert_refused`: the face found for the point is a triangle. -/
example : (fun _ => Res.ok 0 : State → Res Nat) (runOf elbow).2 = .ok 0 ∧ 0 < (runOf elbow).2.facesNodes.length ∧
    ¬ Start (fun _ => .ok 0) (fun _ => true) (runOf elbow).1 (runOf elbow).2 0 := by
  refine ⟨rfl, by decide +kernel, ?_⟩
  rintro ⟨-, a, b, c, d, h, -⟩
  have : (runOf elbow).2.facesNodes[0]? = some [2, 8, 5] := by decide +kernel
  rw [this] at h
  simp at h

/-! ## Where it falls short -/

/-- Two squares with a loose edge at a corner. -/
def hanging : Mesh Pt where
  nodes := [some ⟨0, 0⟩, some ⟨1, 0⟩, some ⟨1, 1⟩, some ⟨0, 1⟩, some ⟨2, 0⟩, some ⟨2, 1⟩, some ⟨2, 2⟩]
  edges := [(5, 6), (0, 1), (1, 2), (2, 3), (3, 0), (1, 4), (4, 5), (5, 2)]
  nodesEdges := []
  numEdges := []

/-- A mesh with crossing edges: nodes 2 and 3 are both joined to 1, 4 and 6, so that both belong at one place. -/
def twins : Mesh Pt where
  nodes := [some ⟨0, 0⟩, some ⟨2, 0⟩, some ⟨9/5, 3/2⟩, some ⟨11/5, 3/2⟩, some ⟨0, 2⟩, some ⟨4, 0⟩, some ⟨4, 2⟩, some ⟨0, -2⟩, some ⟨2, -2⟩, some ⟨4, -2⟩,
    some ⟨4, 5⟩, some ⟨9/5, 5⟩, some ⟨0, 4⟩, some ⟨11/5, 4⟩]
  edges := [(0, 1), (1, 2), (2, 4), (4, 0), (1, 5), (5, 6), (6, 3), (3, 1), (0, 7), (7, 8), (8, 1), (8, 9), (9, 5), (2, 6), (6, 10), (10, 11), (11, 2),
    (4, 3), (3, 13), (13, 12), (12, 4)]
  nodesEdges := []
  numEdges := []

/-- Eight squares around two triangles. -/
def ring : Mesh Pt where
  nodes := [some ⟨0, 0⟩, some ⟨1, 0⟩, some ⟨2, 0⟩, some ⟨3, 0⟩, some ⟨0, 1⟩, some ⟨1, 1⟩, some ⟨2, 1⟩, some ⟨3, 1⟩,
    some ⟨0, 2⟩, some ⟨1, 2⟩, some ⟨2, 2⟩, some ⟨3, 2⟩, some ⟨0, 3⟩, some ⟨1, 3⟩, some ⟨2, 3⟩, some ⟨3, 3⟩]
  edges := [(0, 1), (1, 2), (2, 3), (4, 5), (5, 6), (6, 7), (8, 9), (9, 10), (10, 11), (12, 13), (13, 14), (14, 15),
    (0, 4), (4, 8), (8, 12), (1, 5), (5, 9), (9, 13), (2, 6), (6, 10), (10, 14), (3, 7), (7, 11), (11, 15), (5, 10)]
  nodesEdges := []
  numEdges := []

/-- A loose edge at a corner: the check of the neighbours reads the number of corners of a face that is not there
(`Mesh2DToCurvilinear.cpp:308`), so `Bordered` cannot be left out. -/
theorem hanging_undefined : Manageable hanging ∧ Start (fun _ => .ok 0) (fun _ => true) (runOf hanging).1 (runOf hanging).2 0 ∧
    NoTwin (runOf hanging).1 (runOf hanging).2 0 ∧
    ((convert (orderOf hanging) clockwise (fun _ => .ok 0) (fun _ => true) hanging) matches .ub) = true :=
  ⟨manageable_of_check (by decide +kernel), ⟨rfl, 0, 1, 2, 3, by decide +kernel, rfl⟩, noTwin_of_check (by decide +kernel) _, by decide +kernel⟩

/-- Two nodes at one place: node 2, a corner of the face that contains the point, is not in the grid; node 3 took its place, because it is never
checked that a place is free (`Mesh2DToCurvilinear.cpp:269-298`). -/
theorem node_lost : Manageable twins ∧ Start (fun _ => .ok 0) (fun _ => true) (runOf twins).1 (runOf twins).2 0 ∧
    Bordered (runOf twins).1 (runOf twins).2 0 ∧ (runOf twins).2.facesNodes[0]? = some [0, 1, 2, 4] ∧ twins.nodes[2]? = some (some ⟨9/5, 3/2⟩) ∧
    nodesAfter (convert (orderOf twins) clockwise (fun _ => .ok 0) (fun _ => true) twins) =
      some [[some (4, -2), some (4, 0), some (4, 2)], [some (2, -2), some (2, 0), some (11 / 5, 3 / 2)], [some (0, -2), some (0, 0), some (0, 2)]] :=
  ⟨manageable_of_check (by decide +kernel), ⟨rfl, 0, 1, 2, 4, by decide +kernel, rfl⟩, bordered_of_check (by decide +kernel) _, by decide +kernel,
    rfl, by decide +kernel⟩

/-- The grid may have a cell where the mesh has two triangles. -/
theorem cell_over_triangles : Start (fun _ => .ok 3) (fun _ => true) (runOf ring).1 (runOf ring).2 3 ∧
    Bordered (runOf ring).1 (runOf ring).2 3 ∧ NoTwin (runOf ring).1 (runOf ring).2 3 ∧ [5, 6, 10] ∈ (runOf ring).2.facesNodes ∧
    nodesAfter (convert (orderOf ring) clockwise (fun _ => .ok 3) (fun _ => true) ring) =
      some [[some (3, 0), some (3, 1), some (3, 2), some (3, 3)], [some (2, 0), some (2, 1), some (2, 2), some (2, 3)],
        [some (1, 0), some (1, 1), some (1, 2), some (1, 3)], [some (0, 0), some (0, 1), some (0, 2), some (0, 3)]] :=
  ⟨⟨rfl, 1, 2, 6, 5, by decide +kernel, rfl⟩, bordered_of_check (by decide +kernel) _, noTwin_of_check (by decide +kernel) _, by decide +kernel,
    by decide +kernel⟩

/-- A node 999 columns or rows before the second corner of the first face is not copied to the grid, whatever the mesh: its index is the one for
nodes without a place (`Mesh2DToCurvilinear.cpp:342`, `Constants.hpp:57`). -/
theorem far_node_left_out {P : Type} (nodes : List (Option P)) (t : Front) (ei ej : Int × Int) (n : Nat) (c : Nat → Nat → Option P) {i j : Int}
    (hi : vget t.i n = .ok i) (hj : vget t.j n = .ok j) (h : i = -999 ∨ j = -999) : copyNode nodes t ei ej n c = .ok c := by
  unfold copyNode
  rw [hi, hj, Res.ok_bind, Res.ok_bind, if_neg (fun e => by unfold noIndex at e; omega)]

/-- Two nodes, one of them too far: one column comes out. -/
example : (match matrix (⟨[some ⟨0, 0⟩, some ⟨1, 0⟩], [], [], []⟩ : Mesh Pt) ⟨[-999, -998], [0, 0], Mapping.new⟩ with
    | .ok (r, k, c) => decide (r = 1 ∧ k = 1 ∧ (c 0 0).map (fun p => p.x) = some 1)
    | _ => false) = true := by decide +kernel

end Verif.ToCurvi
