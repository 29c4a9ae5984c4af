import Verif.Listing.Props
/-!
# C73, C74: examples and where the properties fail
-/
namespace Verif.Listing
open Verif.Mesh Verif.Faces Verif.Quality
open Verif.Polygons (Pt Enclosure ringInside isPointInPolygons InArea InHole)

theorem administer_cartesian (m : Mesh Pt) : administer ccwOrder clockwise m = doAdministrationCartesian m := rfl

/-- Two triangles and a square as in `small`, and a node without edges. -/
def withLoose : Mesh Pt := { small with nodes := small.nodes ++ [some ⟨9, 9⟩] }

/-- Two squares side by side and two above them. -/
def fourSquares : Mesh Pt where
  nodes := [some ⟨0, 0⟩, some ⟨1, 0⟩, some ⟨2, 0⟩, some ⟨0, 1⟩, some ⟨1, 1⟩, some ⟨2, 1⟩, some ⟨0, 2⟩, some ⟨1, 2⟩, some ⟨2, 2⟩]
  edges := [(0, 1), (1, 2), (3, 4), (4, 5), (6, 7), (7, 8), (0, 3), (3, 6), (1, 4), (4, 7), (2, 5), (5, 8)]
  nodesEdges := []
  numEdges := []

def nodesAfter (r : Res (Mesh Pt × Int)) : Option (List (Option Pt) × Int) := match r with
  | .ok r => some (r.1.nodes, r.2)
  | _ => none

def outOf (r : Res (Mesh Pt × List (Option Pt))) : Option (List (Option Pt)) := match r with
  | .ok r => some r.2
  | _ => none

example : ∀ v e n l, (ccwOrder v e n l).Perm l := ccwOrder_perm

example : withLoose.nodes.length ≤ missing ∧ inBounds withLoose = true := ⟨by decide, by decide⟩

/-- The two triangles: four values each and a separator. -/
example : (nodesAfter (getFacePolygonsDimension ccwOrder clockwise small 3 (-5))).map (·.2) = some 9 := by decide +kernel

example : outOf (getFacePolygons ccwOrder clockwise small 3 (List.replicate 10 (some ⟨7, 7⟩))) =
    some [some ⟨0, 0⟩, some ⟨2, 0⟩, some ⟨2, 2⟩, some ⟨0, 0⟩, none, some ⟨0, 0⟩, some ⟨2, 2⟩, some ⟨0, 2⟩, some ⟨0, 0⟩, some ⟨7, 7⟩] := by decide +kernel

/-- **C73 violated.** When no face has the asked number of edges the size is not written: the caller keeps any value of before. -/
theorem size_not_written : ∃ m : Mesh Pt, m.nodes.length ≤ missing ∧ inBounds m = true ∧ ∀ d : Int,
    ∃ m1, getFacePolygonsDimension ccwOrder clockwise m 5 d = .ok (m1, d) := by
  refine ⟨small, by decide, by decide, fun d => ?_⟩
  obtain ⟨m1, s, h1, h2⟩ := face_polygons_size ccwOrder_perm clockwise (m := small) (by decide) (by decide)
  refine ⟨m1, (h2 5 d).2 ?_⟩
  rw [administer_cartesian, runOf_eq (by decide) (by decide)] at h1
  obtain ⟨rfl, rfl⟩ := Prod.mk.inj (Res.ok.inj h1)
  rw [List.map_eq_nil_iff]
  decide +kernel

/-- **C73 violated.** Asking for the size deletes the nodes without edges; no undo step is recorded. -/
theorem query_deletes_nodes : ∃ (m m1 : Mesh Pt) (d : Int), m.nodes[6]? = some (some ⟨9, 9⟩) ∧
    getFacePolygonsDimension ccwOrder clockwise m 3 0 = .ok (m1, d) ∧ m1.nodes[6]? = some none := by
  have h : (nodesAfter (getFacePolygonsDimension ccwOrder clockwise withLoose 3 0)).map (fun r => r.1[6]?) = some (some none) := by decide +kernel
  cases hr : getFacePolygonsDimension ccwOrder clockwise withLoose 3 0 with
  | ok r =>
    rw [hr] at h
    exact ⟨withLoose, r.1, r.2, rfl, hr, Option.some.inj h⟩
  | throw => rw [hr] at h; simp [nodesAfter] at h
  | ub => rw [hr] at h; simp [nodesAfter] at h

/-- **C73 violated.** A face with an edge at the border of the mesh is never among the filtered faces, whatever the upper bound, unless the lower bound
is as low as the missing value. -/
theorem border_faces_left_out (other : List Pt → List Nat → Pt) {m m1 : Mesh Pt} {s : State} (hn : m.nodes.length ≤ missing) (hb : inBounds m = true)
    (hrun : doAdministrationCartesian m = .ok (m1, s)) (hF : s.facesNodes.length ≤ missing) (lo hi : ℝ) (hlo : -999 < lo) {f e : Nat}
    (hf : Borders s f e) (he : ∀ g g', Borders s g e → Borders s g' e → g = g') {mask : List Bool}
    (hm : filterBasedOnMetric 0 (orthogonalityValues (tables other m1 s)) s.facesEdges lo hi = .ok mask) : mask[f]? ≠ some true := by
  by_cases h0 : m1.nodes.length ≠ 0
  · obtain ⟨l, mask', h1, h2, h3, h4, _⟩ := filtered_polygons_exact other hn hb hrun hF h0 lo hi
    obtain ⟨l', k1, k2, k3⟩ := orthogonality_exact other hn hb hrun hF
    rw [h1] at k1
    obtain rfl := Res.ok.inj k1
    obtain ⟨es, hes, hin⟩ := hf
    have hr := ready_of_run hn hb hrun hF
    have hlt : e < m1.edges.length := by
      have hfn : f < s.facesNodes.length := by rw [hr.consistent.lengths]; exact (List.getElem?_eq_some_iff.1 hes).1
      have hp := (hr.consistent.proper f _ es (List.getElem?_eq_getElem hfn) hes).1
      obtain ⟨i, hi, hie⟩ := List.getElem_of_mem hin
      obtain ⟨_, _, e', p, _, _, j3, j4, _⟩ := hp.sides i (by rw [← hp.len]; exact hi)
      rw [List.getElem?_eq_getElem hi, hie] at j3
      obtain rfl := Option.some.inj j3
      exact (List.getElem?_eq_some_iff.1 j4).1
    have hnone := (k3 e hlt).2 he
    have hvals : orthogonalityValues (tables other m1 s) = .ok (l.map fun v => v.getD (-999)) := by rw [orthogonalityValues, h1]; rfl
    rw [filterBasedOnMetric, if_neg (by simp), hvals, Res.ok_bind] at hm
    intro hc
    have hedges : ∀ es ∈ s.facesEdges, ∀ e ∈ es, e < (l.map fun v => v.getD (-999)).length := by
      intro es hes e he
      obtain ⟨f, hf, hg⟩ := List.getElem_of_mem hes
      have hf' : f < s.facesNodes.length := by rw [hr.consistent.lengths]; exact hf
      have hp := (hr.consistent.proper f _ es (List.getElem?_eq_getElem hf') (by rw [List.getElem?_eq_getElem hf, hg])).1
      obtain ⟨i, hi, hie⟩ := List.getElem_of_mem he
      obtain ⟨_, _, e', p, _, _, h3, h4, _⟩ := hp.sides i (by rw [← hp.len]; exact hi)
      rw [List.getElem?_eq_getElem hi, hie] at h3
      obtain rfl := Option.some.inj h3
      rw [List.length_map, k2]
      exact (List.getElem?_eq_some_iff.1 h4).1
    obtain ⟨bs, b1, _, b3⟩ := filterFaces_ok (lo := lo) (hi := hi) hedges
    rw [b1] at hm
    obtain rfl := Res.ok.inj hm
    have := ((b3 f es hes).1 hc e hin _ (by rw [List.getElem?_map, hnone]; rfl)).1
    simp only [Option.getD_none] at this
    linarith
  · intro _
    obtain ⟨es, hes, hin⟩ := hf
    have hr := ready_of_run hn hb hrun hF
    have hfn : f < s.facesNodes.length := by rw [hr.consistent.lengths]; exact (List.getElem?_eq_some_iff.1 hes).1
    have hp := (hr.consistent.proper f _ es (List.getElem?_eq_getElem hfn) hes).1
    have h3 := hp.atLeast
    have := validNode_lt (hr.valid f _ (List.getElem?_eq_getElem hfn) s.facesNodes[f][0] (List.getElem_mem (by omega)))
    omega

theorem sides_once_of_check {s : State} {e : Nat} (h : (List.range s.facesEdges.length).countP (fun f => (s.facesEdges[f]?.getD []).contains e) ≤ 1) :
    ∀ g g', Borders s g e → Borders s g' e → g = g' := by
  intro g g' ⟨a, ha, ha'⟩ ⟨b, hb, hb'⟩
  by_contra hne
  have l1 := (List.getElem?_eq_some_iff.1 ha).1
  have l2 := (List.getElem?_eq_some_iff.1 hb).1
  have hsub : [g, g'] ⊆ (List.range s.facesEdges.length).filter (fun f => (s.facesEdges[f]?.getD []).contains e) := by
    intro x hx
    simp only [List.mem_cons, List.not_mem_nil, or_false] at hx
    rcases hx with rfl | rfl
    · exact List.mem_filter.2 ⟨List.mem_range.2 l1, by rw [ha]; simpa using ha'⟩
    · exact List.mem_filter.2 ⟨List.mem_range.2 l2, by rw [hb]; simpa using hb'⟩
  have hnd : [g, g'].Nodup := by simp [hne]
  have := (List.Nodup.subperm hnd hsub).length_le
  rw [← List.countP_eq_length_filter, List.length_cons, List.length_cons] at this
  omega

/-- All four faces of a small grid are at its border: none is ever listed. -/
example : doAdministrationCartesian fourSquares = .ok ((runOf fourSquares).1, (runOf fourSquares).2) ∧
    (runOf fourSquares).2.facesNodes.length = 4 ∧ Borders (runOf fourSquares).2 0 0 ∧
    ∀ g g', Borders (runOf fourSquares).2 g 0 → Borders (runOf fourSquares).2 g' 0 → g = g' :=
  ⟨runOf_eq (by decide) (by decide), by decide +kernel, borders_of_check (by decide +kernel), sides_once_of_check (by decide +kernel)⟩

/-- **C73 violated.** After an edge is inserted through the interface both filtered calls read beyond the end of a vector. -/
theorem filter_after_insert_undefined (other : List Pt → List Nat → Pt) {m m1 m2 : Mesh Pt} {s : State} (hn : m.nodes.length ≤ missing)
    (hb : inBounds m = true) (hrun : doAdministrationCartesian m = .ok (m1, s)) (hF : s.facesNodes.length ≤ missing) (h0 : m2.nodes.length ≠ 0)
    {x y : Nat} {as : List (Act Pt)} (hc : connectNodesU m1 x y = .ok (as, m2)) (hnew : as ≠ []) (lo hi : ℝ) (buf : List (Option Pt)) :
    getFilteredDimension m2.nodes s (orthogonalityValues { tables other m1 s with edges := m2.edges }) 0 lo hi = .ub ∧
      getFiltered m2.nodes s (orthogonalityValues { tables other m1 s with edges := m2.edges }) 0 lo hi buf = .ub := by
  have h := (inserted_edge_ub other hn hb hrun hF hc hnew).1
  have hv : orthogonalityValues { tables other m1 s with edges := m2.edges } = .ub := by rw [orthogonalityValues, h]; rfl
  have hf : filterBasedOnMetric 0 (.ub : Res (List ℝ)) s.facesEdges lo hi = .ub := by rw [filterBasedOnMetric, if_neg (by simp)]; rfl
  rw [hv, getFilteredDimension, getFiltered, if_neg (by omega), if_neg (by omega), hf]
  exact ⟨rfl, rfl⟩

example : doAdministrationCartesian small = .ok ((runOf small).1, (runOf small).2) ∧ (runOf small).2.facesNodes.length ≤ missing ∧
    (runOf small).1.nodes.length ≠ 0 ∧ ∃ as m2, connectNodesU (runOf small).1 1 3 = .ok (as, m2) ∧ as ≠ [] ∧ m2.nodes.length ≠ 0 := by
  refine ⟨runOf_eq (by decide) (by decide), by decide +kernel, by decide +kernel, ?_⟩
  have h : (match connectNodesU (runOf small).1 1 3 with | .ok r => decide (r.1.length ≠ 0) && decide (r.2.nodes.length ≠ 0) | _ => false) = true := by
    decide +kernel
  cases hr : connectNodesU (runOf small).1 1 3 with
  | ok r =>
    rw [hr] at h
    simp only [Bool.and_eq_true, decide_eq_true_eq] at h
    exact ⟨r.1, r.2, rfl, fun hh => h.1 (by rw [hh]; rfl), h.2⟩
  | throw => rw [hr] at h; simp at h
  | ub => rw [hr] at h; simp at h

/-! ## Nodes -/

/-- The choice of the nodes of `small`. -/
def chosenOf (r : Res (List Int)) : Option (List Int) := match r with
  | .ok l => some l
  | _ => none

example : chosenOf (getNodesInPolygons ringInside [leftPart] small.nodes 1 [7, 7]) = some [0, 7] := by decide +kernel
example : chosenOf (getNodesInPolygons ringInside [leftPart] small.nodes 0 [7, 7, 7, 7, 7]) = some [1, 2, 3, 4, 5] := by decide +kernel

/-- **C74 violated.** A deleted node is among the chosen ones: outside of any polygons, and inside when no polygon is given. -/
theorem deleted_node_chosen (test : List Pt → Pt → Bool) (es : List Enclosure) (nodes : List (Option Pt)) (inside : Int) {i : Nat}
    (hi : nodes[i]? = some none) (h : (es ≠ [] ∧ inside ≠ 1) ∨ (es = [] ∧ inside = 1)) (buf : List Int) {l : List Int}
    (hl : getNodesInPolygons test es nodes inside buf = .ok l) : (i : Int) ∈ l := by
  have hlen := mask_length test es nodes (decide (inside = 1))
  rw [getNodesInPolygons, forRange, Nat.sub_zero, select_loop _ _ (by omega) _ _ (by omega)] at hl
  have hmem : i ∈ chosenFrom (nodeMaskFromPolygon test es nodes (decide (inside = 1))) 0 := by
    rw [mem_chosen, hlen, mask_get test es nodes _ i none hi]
    refine ⟨(List.getElem?_eq_some_iff.1 hi).1, ?_⟩
    rcases h with ⟨h1, h2⟩ | ⟨h1, h2⟩
    · rw [invalid_outside test h1 (by decide +kernel : (stored none).isValid = false)]
      simp [h2]
    · rw [h1, (Polygons.no_polygon_contains_everything test _ 0).1]
      simp [h2]
  split at hl
  · obtain rfl := Res.ok.inj hl
    simp only [List.mem_append, List.mem_map]
    exact Or.inl (Or.inr ⟨i, hmem, rfl⟩)
  · simp at hl

example : chosenOf (getNodesInPolygons ringInside [leftPart] [some ⟨0, 0⟩, none, some ⟨5, 5⟩] 0 [7, 7]) = some [1, 2] := by decide +kernel

end Verif.Listing
