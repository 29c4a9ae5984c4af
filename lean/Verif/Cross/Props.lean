import Verif.Cross.RingLemmas
import Verif.Cross.SegmentLemmas
import Verif.Faces.Props
/-!
# C49: the edges and faces a polygon crosses are found exactly
-/
namespace Verif.Cross
open Verif.Polygons (Pt)
open Verif.Mesh

/-! ## Two segments -/

/-- **C49.** The test of two segments in the Cartesian projection: they cross precisely when they have a point in common and
are not nearly parallel. -/
theorem segments_cross_iff (p q a b : Pt) : crossing p q a b = true ↔ Meet p q a b ∧ Apart p q a b := crossing_iff p q a b

example : crossing ⟨0, 0⟩ ⟨2, 2⟩ ⟨0, 2⟩ ⟨2, 0⟩ = true ∧ crossing ⟨0, 0⟩ ⟨2, 2⟩ ⟨2, 0⟩ ⟨4, 0⟩ = false ∧ crossing ⟨0, 0⟩ ⟨2, 0⟩ ⟨2, 0⟩ ⟨2, 5⟩ = true := by
  decide +kernel

/-- The threshold has the wrong dimension: the diagonals of a small square are not found to cross, whereas those of a large one are. -/
theorem small_square_not_crossing {c : ℚ} (h0 : 0 < c) (h1 : c < 5 / 1000000) :
    Meet ⟨0, 0⟩ ⟨c, c⟩ ⟨0, c⟩ ⟨c, 0⟩ ∧ crossing ⟨0, 0⟩ ⟨c, c⟩ ⟨0, c⟩ ⟨c, 0⟩ = false := by
  refine ⟨⟨1 / 2, 1 / 2, by norm_num, by norm_num, by norm_num, by norm_num, ?_, ?_⟩, ?_⟩
  · show 0 + 1 / 2 * (c - 0) = 0 + 1 / 2 * (c - 0); rfl
  · show 0 + 1 / 2 * (c - 0) = c + 1 / 2 * (0 - c); ring
  · unfold crossing
    rw [if_pos]
    refine lt_of_lt_of_le ?_ (le_max_left _ _)
    unfold det
    simp only [sub_zero, zero_sub]
    have e1 : c * c - -c * c = 2 * c * c := by ring
    rw [e1, abs_of_pos (show 0 < 2 * c * c by positivity), abs_neg, abs_of_pos h0, max_self, max_self]
    have := mul_lt_mul_of_pos_right h1 h0
    linarith

theorem large_square_crossing {c : ℚ} (h1 : 5 / 1000000 ≤ c) : crossing ⟨0, 0⟩ ⟨c, c⟩ ⟨0, c⟩ ⟨c, 0⟩ = true := by
  have h0 : 0 < c := lt_of_lt_of_le (by norm_num) h1
  rw [crossing_iff]
  refine ⟨⟨1 / 2, 1 / 2, by norm_num, by norm_num, by norm_num, by norm_num, ?_, ?_⟩, ?_⟩
  · show 0 + 1 / 2 * (c - 0) = 0 + 1 / 2 * (c - 0); rfl
  · show 0 + 1 / 2 * (c - 0) = c + 1 / 2 * (0 - c); ring
  · unfold Apart eps det
    simp only [sub_zero, zero_sub]
    have e1 : c * c - -c * c = 2 * c * c := by ring
    rw [e1, abs_of_pos (show 0 < 2 * c * c by positivity), abs_neg, abs_of_pos h0, max_self, max_self]
    have h2 := mul_le_mul_of_nonneg_right h1 h0.le
    have h3 : denormMin ≤ (5 / 1000000) * (5 / 1000000) := by decide +kernel
    have h4 := mul_le_mul_of_nonneg_left h1 (show (0 : ℚ) ≤ 5 / 1000000 by norm_num)
    refine max_le ?_ ?_ <;> linarith

/-- A segment that runs along an edge does not cross it. -/
theorem along_not_crossing (p q : Pt) : crossing p q p q = false := by
  unfold crossing
  rw [if_pos]
  have : det p q p q = 0 := by unfold det; ring
  rw [this, abs_zero]
  exact eps_pos p q p q

/-! ## The walk, for any test -/

/-- **C49.** For any test of segments against edges, any mesh whose faces and edges agree and in which every crossed edge has a face:
the search ends, without access out of range; the edges found are the crossed ones, each with a segment that crosses it; the
faces found are those with a crossed side, each with crossed sides of its own without repetition, with all of them when the polyline has at most
1001 segments. -/
theorem walk_exact {w : Data} (hw : Fits w) (hf : CrossedHaveFaces w) :
    ∃ s, (∀ k, 8 * w.edgesFaces.length + 1 ≤ k → walk w k = .ok (some s)) ∧ Exact w s ∧
      (w.numSeg ≤ 1001 → ∀ (f : Nat) l, s.faces[f]? = some l → ∀ e, e ∈ l ↔ Side w f e ∧ Crossed w e) :=
  walk_ok hw hf

/-- **C49.** The same for the rings of a polygon one after the other: an edge has the first ring that crosses it. -/
theorem rings_exact_partial {E : Nat} {F : List (List Nat)} (ws : List (Data × (St → List Nat → List Nat)))
    (hw : ∀ w ∈ ws, Fits w.1 ∧ CrossedHaveFaces w.1 ∧ w.1.edgesFaces.length = E ∧ w.1.facesEdges = F ∧ ∀ s l, (w.2 s l).Perm l) :
    ∃ res, (∀ k, 8 * E + 1 ≤ k → rings k 0 ws (noResult E F.length) = .ok (some res)) ∧
      (∀ e r i : Nat, res.edges[e]? = some (some (r, i)) → ∃ w, (ws.map (·.1))[r]? = some w ∧ i < w.numSeg ∧ w.hit i e = true) ∧
      (∀ e, e < E → (∃ w ∈ ws.map (·.1), Crossed w e) → ∃ x, res.edges[e]? = some (some x)) ∧
      (∀ (f : Nat) l, res.faces[f]? = some l → (l ≠ [] ↔ ∃ e, (∃ es, F[f]? = some es ∧ e ∈ es) ∧ ∃ w ∈ ws.map (·.1), Crossed w e)) ∧
      (∀ (f : Nat) l, res.faces[f]? = some l → ∀ e ∈ l, (∃ es, F[f]? = some es ∧ e ∈ es) ∧ ∃ w ∈ ws.map (·.1), Crossed w e) := by
  obtain ⟨res, h1, h2⟩ := rings_ok ws [] _ hw (found_start E F)
  exact ⟨res, h1, by simpa using h2.sound, by simpa using h2.complete, by simpa using h2.faces, by simpa using h2.sides⟩

/-- The search never ends when the edge found next has no face. -/
theorem no_face_no_end {w : Data} {e i : Nat} (hs : seed w (start w) = some (e, i)) (hp : w.edgesFaces[e]? = some (missing, missing)) (k : Nat) :
    walk w k = .ok none :=
  rounds_stuck hs rfl hp k

/-! ## A mesh and a polyline -/

/-- The tests for the mesh after the administration. -/
def dataOf (m1 : Mesh Pt) (fs : Faces.State) (poly : List Pt) : Data := data m1.nodes m1.edges fs.facesEdges fs.edgesFaces poly

/-- **C49.** In the Cartesian projection, for every mesh of valid indices and every polyline: if every edge the polyline meets has a
face, the search ends and finds exactly the edges that have a point in common with the polyline and are not nearly parallel to it there,
each with a segment it meets, and exactly the faces with such a side. -/
theorem crossings_exact_partial (m : Mesh Pt) (hn : m.nodes.length ≤ missing) (he : m.edges.length ≤ missing) (hb : inBounds m = true) (poly : List Pt) :
    ∃ m1 fs, Faces.doAdministrationCartesian m = .ok (m1, fs) ∧ Fits (dataOf m1 fs poly) ∧
      ((∀ i e, Met m1.nodes m1.edges poly i e → ∃ f, Faces.Borders fs f e) →
        ∃ s, (∀ k, 8 * m1.edges.length + 1 ≤ k → walk (dataOf m1 fs poly) k = .ok (some s)) ∧
          (∀ e i : Nat, s.found[e]? = some (some i) → Met m1.nodes m1.edges poly i e) ∧
          (∀ i e, Met m1.nodes m1.edges poly i e → ∃ j, s.found[e]? = some (some j)) ∧
          (∀ (f : Nat) l, s.faces[f]? = some l → (l ≠ [] ↔ ∃ e i, Faces.Borders fs f e ∧ Met m1.nodes m1.edges poly i e)) ∧
          (∀ (f : Nat) l, s.faces[f]? = some l → l.Nodup ∧ ∀ e ∈ l, Faces.Borders fs f e ∧ ∃ i, Met m1.nodes m1.edges poly i e) ∧
          (poly.length ≤ 1002 → ∀ (f : Nat) l, s.faces[f]? = some l → ∀ e, e ∈ l ↔ Faces.Borders fs f e ∧ ∃ i, Met m1.nodes m1.edges poly i e)) := by
  obtain ⟨m0, m1, fs, h0, h1, h2, _, h3, h4, _, _⟩ := Faces.cartesian_run m hn hb
  obtain ⟨m0', h0', _, hl, _⟩ := setUnconnectedInvalid_ok hn hb
  rw [h0] at h0'
  obtain rfl := Res.ok.inj h0'
  have he1 : m1.edges.length ≤ missing := by rw [h2, hl]; exact he
  have hw : Fits (dataOf m1 fs poly) := fits_of_consistent h4 he1 rfl rfl (fun _ _ h => near_of_hit h)
  have hE : (dataOf m1 fs poly).edgesFaces.length = m1.edges.length := h4.edgesFaces
  have hsize : ∀ {i e}, Met m1.nodes m1.edges poly i e → i < poly.length - 1 ∧ e < m1.edges.length := by
    rintro i e ⟨p, q, a, b, hp, hq, _⟩
    constructor
    · unfold piece at hp
      split at hp
      · rename_i _ _ _ h5
        have := (List.getElem?_eq_some_iff.1 h5).1
        omega
      · simp at hp
    · unfold ends at hq
      obtain ⟨ed, h5, _⟩ := Option.bind_eq_some_iff.1 hq
      exact (List.getElem?_eq_some_iff.1 h5).1
  have hC : ∀ {e}, Crossed (dataOf m1 fs poly) e ↔ ∃ i, Met m1.nodes m1.edges poly i e := by
    intro e
    constructor
    · rintro ⟨i, _, h5⟩; exact ⟨i, (hit_iff i e).1 h5⟩
    · rintro ⟨i, h5⟩; exact ⟨i, (hsize h5).1, (hit_iff i e).2 h5⟩
  refine ⟨m1, fs, h3, hw, fun hf => ?_⟩
  obtain ⟨s, a1, a2, a3⟩ := walk_ok hw (by
    intro e _ hc
    obtain ⟨i, h5⟩ := hC.1 hc
    exact hf i e h5)
  rw [hE] at a1
  refine ⟨s, a1, ?_, ?_, ?_, ?_, ?_⟩
  · intro e i h5
    exact (hit_iff i e).1 (a2.sound e i h5).2
  · intro i e h5
    exact a2.complete e (by rw [hE]; exact (hsize h5).2) (hC.2 ⟨i, h5⟩)
  · intro f l hl
    rw [a2.faces f l hl]
    constructor
    · rintro ⟨e, h5, h6⟩
      obtain ⟨i, h7⟩ := hC.1 h6
      exact ⟨e, i, h5, h7⟩
    · rintro ⟨e, i, h5, h6⟩
      exact ⟨e, h5, hC.2 ⟨i, h6⟩⟩
  · intro f l hl
    obtain ⟨h5, h6⟩ := a2.sides f l hl
    exact ⟨h5, fun e he => ⟨(h6 e he).1, hC.1 (h6 e he).2⟩⟩
  · intro hp f l hl e
    rw [a3 (show poly.length - 1 ≤ 1001 by omega) f l hl e, hC]
    rfl

/-- A polyline across the two triangles of the example. -/
def across : List Pt := [⟨-1, 1/2⟩, ⟨3, 1/2⟩]

example : Faces.halves.nodes.length ≤ missing ∧ Faces.halves.edges.length ≤ missing ∧ inBounds Faces.halves = true := by decide

/-- What is found in the example. -/
example : (match walk (dataOf (Faces.runOf Faces.halves).1 (Faces.runOf Faces.halves).2 across) 41 with
    | .ok (some s) => (s.found, s.faces)
    | _ => ([], [])) = ([none, some 0, none, some 0, some 0], [[1, 4], [4, 3]]) := by decide +kernel

/-- Every edge of the example has a face. -/
example : ∀ e, e < Faces.halves.edges.length → ∃ f, Faces.Borders (Faces.runOf Faces.halves).2 f e := by
  have h : ∀ e, e < 5 → ∃ f ∈ [0, 1], e ∈ ((Faces.runOf Faces.halves).2.facesEdges[f]?).getD [] := by decide +kernel
  intro e he
  obtain ⟨f, _, hf⟩ := h e he
  refine ⟨f, ?_⟩
  unfold Faces.Borders
  cases hg : (Faces.runOf Faces.halves).2.facesEdges[f]? with
  | none => rw [hg] at hf; simp at hf
  | some es => rw [hg] at hf; exact ⟨es, rfl, hf⟩

/-! ## What is not so -/

/-- A triangle with a loose edge. -/
def tailed : Mesh Pt where
  nodes := [some ⟨0, 0⟩, some ⟨2, 0⟩, some ⟨0, 2⟩, some ⟨4, 0⟩]
  edges := [(0, 1), (1, 2), (2, 0), (1, 3)]
  nodesEdges := []
  numEdges := []

/-- A polygon that crosses an edge without a face keeps the program in a loop for ever. -/
theorem loose_edge_no_end : ∃ (m m1 : Mesh Pt) (fs : Faces.State) (poly : List Pt), m.nodes.length ≤ missing ∧ inBounds m = true ∧
    Faces.doAdministrationCartesian m = .ok (m1, fs) ∧ fs.facesEdges ≠ [] ∧ ∀ k, walk (dataOf m1 fs poly) k = .ok none :=
  ⟨tailed, (Faces.runOf tailed).1, (Faces.runOf tailed).2, [⟨3, -1⟩, ⟨3, 1⟩, ⟨5, 1⟩, ⟨5, -1⟩, ⟨3, -1⟩], by decide, by decide,
    Faces.runOf_eq (by decide) (by decide), by decide +kernel,
    fun k => no_face_no_end (e := 3) (i := 0) (by decide +kernel) (by decide +kernel) k⟩

/-- One square. -/
def square : Mesh Pt where
  nodes := [some ⟨0, 0⟩, some ⟨2, 0⟩, some ⟨2, 2⟩, some ⟨0, 2⟩]
  edges := [(0, 1), (1, 2), (2, 3), (3, 0)]
  nodesEdges := []
  numEdges := []

/-- The edges of a face are put in the order of the place within the segment, whatever the segment: a polyline that enters through
the left side in its first segment and leaves through the right in its second has the right side listed first. -/
theorem order_not_along : ∃ (m m1 : Mesh Pt) (fs : Faces.State) (poly : List Pt) (s : St), Faces.doAdministrationCartesian m = .ok (m1, fs) ∧
    walk (dataOf m1 fs poly) 33 = .ok (some s) ∧ s.found = [none, some 1, none, some 0] ∧
    (merge 0 (byPlace m1.nodes m1.edges poly s) s (noResult 4 1)).faces = [[1, 3]] := by
  refine ⟨square, (Faces.runOf square).1, (Faces.runOf square).2, [⟨-3, 1⟩, ⟨1, 1⟩, ⟨9, 1⟩],
    ⟨[false, true, false, true], [true, false, false, false], [none, some 1, none, some 0], [[1, 3]], []⟩, Faces.runOf_eq (by decide) (by decide), ?_, rfl, ?_⟩
  · decide +kernel
  · decide +kernel

/-- Two triangles with a common side, edge 0, and a long polyline: segment 0 crosses the other sides, the last segment edge 0. -/
def far : Data where
  numSeg := 1003
  hit i e := (decide (i = 0) && decide (1 ≤ e)) || (decide (i = 1002) && decide (e = 0))
  near _ _ := true
  facesEdges := [[0, 1, 2], [0, 3, 4]]
  edgesFaces := [(0, 1), (0, missing), (0, missing), (1, missing), (1, missing)]

/-- With more segments a face may be listed without one of its crossed sides. -/
theorem side_left_out : CrossedHaveFaces far ∧ ∃ s, walk far 41 = .ok (some s) ∧ s.faces = [[1, 2, 0], [3, 4]] ∧ Side far 1 0 ∧ Crossed far 0 := by
  refine ⟨?_, ⟨[true, true, true, true, true], [true, true, false, false, false], [some 1002, some 0, some 0, some 0, some 0], [[1, 2, 0], [3, 4]], []⟩, ?_, rfl, ?_, ?_⟩
  · intro e he _
    have : ∀ e, e < 5 → ∃ f ∈ [0, 1], e ∈ far.facesEdges.getD f [] := by decide
    obtain ⟨f, hf, h⟩ := this e he
    refine ⟨f, far.facesEdges.getD f [], ?_, h⟩
    rcases List.mem_cons.1 hf with rfl | hf
    · rfl
    · obtain rfl := List.mem_singleton.1 hf
      rfl
  · decide +kernel
  · exact ⟨_, rfl, by decide⟩
  · exact ⟨1002, by decide, by decide⟩

/-- Two rings that cross the same side: it is listed twice for the face, and only the first ring is reported for the edge. -/
theorem side_listed_twice : ∃ (m m1 : Mesh Pt) (fs : Faces.State) (p q : List Pt), Faces.doAdministrationCartesian m = .ok (m1, fs) ∧
    rings 33 0 [(dataOf m1 fs p, byPlace m1.nodes m1.edges p), (dataOf m1 fs q, byPlace m1.nodes m1.edges q)] (noResult 4 1) =
      .ok (some ⟨[none, some (0, 0), none, none], [[1, 1]]⟩) :=
  ⟨square, (Faces.runOf square).1, (Faces.runOf square).2, [⟨1, 1⟩, ⟨3, 1⟩], [⟨1, 3/2⟩, ⟨3, 3/2⟩], Faces.runOf_eq (by decide) (by decide), by decide +kernel⟩

end Verif.Cross
