import Verif.Locate.Spec
import Verif.Faces.Props
import Verif.Polygons.ContainsProps
/-!
# Lemmas on locating points
-/
namespace Verif.Locate
open Verif.Mesh Verif.Faces
open Verif.Polygons (Pt OnSegment sides turns ringOf inPolygonNodes area2 RingNodes)

theorem positions_ok {m : Mesh Pt} : ∀ {ns : List Nat}, (∀ n ∈ ns, n < m.nodes.length) → positions m ns = .ok (ns.map (position m.nodes))
  | [], _ => rfl
  | n :: ns, h => by
    have hn : n < m.nodes.length := h n (by simp)
    have h1 : vget m.nodes n = .ok m.nodes[n] := by
      unfold vget
      rw [List.getElem?_eq_getElem hn]
    simp only [positions, h1, positions_ok (ns := ns) (fun k hk => h k (by simp [hk])), Res.ok_bind, List.map_cons]

/-- What the administration leaves. -/
structure Administrated (m : Mesh Pt) (s : State) : Prop where
  cons : Consistent m.edges (clockwise m.nodes) s
  corners : ∀ (f : Nat) ns, s.facesNodes[f]? = some ns → ∀ n ∈ ns, validNode m.nodes n = true

theorem administrated {m0 m : Mesh Pt} {s : State} (hn : m0.nodes.length ≤ missing) (hb : inBounds m0 = true)
    (h : doAdministrationCartesian m0 = .ok (m, s)) : Administrated m s := by
  obtain ⟨_, m1, s1, _, _, _, _, h2, h3, h4, _⟩ := cartesian_run m0 hn hb
  rw [h] at h2
  obtain ⟨rfl, rfl⟩ := Prod.mk.inj (Res.ok.inj h2)
  exact ⟨h3, h4⟩

theorem outline_eq {m : Mesh Pt} {s : State} {f : Nat} {ns : List Nat} (h : s.facesNodes[f]? = some ns) :
    outline m s f = ringOf (ns.map (position m.nodes)) := by
  unfold outline
  have : s.facesNodes.getD f [] = ns := by rw [List.getD_eq_getElem?_getD, h]; rfl
  rw [this]

theorem closedPolygon_ok {m : Mesh Pt} {s : State} (hA : Administrated m s) {f : Nat} (hf : f < s.facesNodes.length) :
    closedPolygon m s f = .ok (outline m s f) := by
  have hf' : f < s.facesEdges.length := by rw [← hA.cons.lengths]; exact hf
  have h1 := List.getElem?_eq_getElem hf
  have h2 := List.getElem?_eq_getElem hf'
  have hp := (hA.cons.proper f _ _ h1 h2).1
  have hlt : ∀ n ∈ s.facesNodes[f], n < m.nodes.length := fun n hn => validNode_lt (hA.corners f _ h1 n hn)
  have e1 : vget s.facesEdges f = .ok s.facesEdges[f] := by unfold vget; rw [h2]
  have e2 : vget s.facesNodes f = .ok s.facesNodes[f] := by unfold vget; rw [h1]
  rw [outline_eq h1]
  unfold closedPolygon
  rw [e1, e2]
  simp only [Res.ok_bind]
  rw [if_neg (by rw [hp.len]; omega), List.take_of_length_le (by rw [hp.len]), positions_ok hlt]
  simp only [Res.ok_bind]
  have h3 := hp.atLeast
  cases hns : s.facesNodes[f] with
  | nil => rw [hns] at h3; simp at h3
  | cons a l => simp [ringOf]

theorem ringNodes_outline {m : Mesh Pt} {s : State} (hA : Administrated m s) (hv : NodesValid m) {f : Nat} (hf : f < s.facesNodes.length) :
    RingNodes (outline m s f) := by
  have hf' : f < s.facesEdges.length := by rw [← hA.cons.lengths]; exact hf
  have h1 := List.getElem?_eq_getElem hf
  have hp := (hA.cons.proper f _ _ h1 (List.getElem?_eq_getElem hf')).1
  have h3 := hp.atLeast
  have hq : ∀ n ∈ s.facesNodes[f], (position m.nodes n).isValid = true := by
    intro n hn
    have h := hA.corners f _ h1 n hn
    have hlt := validNode_lt h
    unfold validNode at h
    unfold position
    rw [List.getElem?_eq_getElem hlt] at h ⊢
    cases hx : m.nodes[n] with
    | none => rw [hx] at h; simp at h
    | some q => exact hv q (hx ▸ List.getElem_mem hlt)
  rw [outline_eq h1]
  cases hns : s.facesNodes[f] with
  | nil => rw [hns] at h3; simp at h3
  | cons a l =>
    rw [hns] at h3 hq
    refine ⟨by simp [ringOf] at h3 ⊢; omega, by simp [ringOf, List.getLast?_cons], ?_⟩
    intro q hq'
    simp only [ringOf, List.map_cons, List.head?_cons, Option.toList_some, List.mem_append, List.mem_cons, List.mem_map, List.not_mem_nil, or_false] at hq'
    rcases hq' with (rfl | ⟨n, hn, rfl⟩) | rfl
    · exact hq a (by simp)
    · exact hq n (by simp [hn])
    · exact hq a (by simp)

theorem inPolygon_iff {ring : List Pt} (hr : RingNodes ring) {p : Pt} (hv : p.isValid = true) (hp : p.Finite)
    (hl : ∀ g ∈ sides ring, area2 g.1 g.2 p ≠ 0) (o : Pt) (ho : ∀ q ∈ ring, ¬ OnSegment o q p) :
    inPolygonNodes ring p = true ↔ (∃ g ∈ sides ring, OnSegment g.1 g.2 p) ∨ turns o ring p ≠ 0 := by
  have hd : ∀ g ∈ sides ring, g.1 ≠ g.2 := by
    intro g hg h
    apply hl g hg
    unfold area2; rw [h]; ring
  obtain ⟨b, h1, h2⟩ := Polygons.contains_iff_turns ring hr hd p hv hp o ho
  rw [Polygons.nodes_test_agrees_partial ring hr p hv hp hl] at h1
  rw [Res.ok.inj h1]
  exact h2

theorem inRing_of_inPolygon {ring : List Pt} (hr : RingNodes ring) {p : Pt} (hv : p.isValid = true) (hp : p.Finite)
    (hl : ∀ g ∈ sides ring, area2 g.1 g.2 p ≠ 0) (h : inPolygonNodes ring p = true) : InRing ring p := by
  by_cases hb : ∃ g ∈ sides ring, OnSegment g.1 g.2 p
  · exact .inl hb
  · right
    intro o ho
    exact ((inPolygon_iff hr hv hp hl o ho).1 h).resolve_left hb

/-- The faces listed at an edge. -/
theorem placesOf_ok {c : Nat} {q : Nat × Nat} {l : List Nat} (h : Places c q l) : placesOf c q = .ok l := by
  cases h <;> rfl

theorem pointFace_eq {m : Mesh Pt} {s : State} (hA : Administrated m s) {e : Nat} (he : e < m.edges.length) (p : Pt) :
    ∃ l, l.Nodup ∧ (∀ f, f ∈ l ↔ Borders s f e) ∧ pointFace m s p e = tryFaces m s p l := by
  obtain ⟨c, q, l, h1, h2, h3, h4, h5⟩ := hA.cons.faces e he
  refine ⟨l, h4, h5, ?_⟩
  have e1 : vget s.numFaces e = .ok c := by unfold vget; rw [h1]
  have e2 : vget s.edgesFaces e = .ok q := by unfold vget; rw [h2]
  unfold pointFace
  rw [e1, e2]
  simp only [Res.ok_bind, placesOf_ok h3]

theorem borders_lt {m : Mesh Pt} {s : State} (hA : Administrated m s) {f e : Nat} (h : Borders s f e) : f < s.facesNodes.length := by
  obtain ⟨es, h1, _⟩ := h
  rw [hA.cons.lengths]
  exact (List.getElem?_eq_some_iff.1 h1).1

/-- The first face of the list that passes the test, or none. -/
theorem tryFaces_eq {m : Mesh Pt} {s : State} (hA : Administrated m s) (p : Pt) :
    ∀ {l : List Nat}, (∀ f ∈ l, f < s.facesNodes.length) →
      tryFaces m s p l = .ok ((l.find? (fun f => inPolygonNodes (outline m s f) p)).getD missing)
  | [], _ => rfl
  | f :: l, h => by
    simp only [tryFaces, closedPolygon_ok hA (h f (by simp)), Res.ok_bind]
    by_cases hc : inPolygonNodes (outline m s f) p = true
    · rw [if_pos hc, List.find?_cons, hc]; rfl
    · rw [if_neg hc, List.find?_cons, Bool.eq_false_iff.2 hc, tryFaces_eq hA p (fun g hg => h g (by simp [hg]))]

theorem centre_lt {m : Mesh Pt} {e : Nat} {c : Pt} (h : centre m e = some c) : e < m.edges.length := by
  by_contra hc
  unfold centre at h
  rw [List.getElem?_eq_none (by omega)] at h
  simp at h

/-- The answer for an edge: a face next to it that passes the test, if there is one. -/
theorem pointFace_cases {m : Mesh Pt} {s : State} (hA : Administrated m s) {e : Nat} (he : e < m.edges.length) (p : Pt) :
    ∃ g, pointFace m s p e = .ok g ∧ ((Borders s g e ∧ inPolygonNodes (outline m s g) p = true) ∨
      (g = missing ∧ ∀ f, Borders s f e → inPolygonNodes (outline m s f) p = false)) := by
  obtain ⟨l, _, h2, h3⟩ := pointFace_eq hA he p
  rw [h3, tryFaces_eq hA p (fun f hf => borders_lt hA ((h2 f).1 hf))]
  cases hc : l.find? (fun f => inPolygonNodes (outline m s f) p) with
  | none =>
    refine ⟨missing, rfl, .inr ⟨rfl, ?_⟩⟩
    intro f hf
    have := List.find?_eq_none.1 hc f ((h2 f).2 hf)
    simpa using this
  | some g =>
    exact ⟨g, rfl, .inl ⟨(h2 g).1 (List.mem_of_find?_eq_some hc), by simpa using List.find?_some hc⟩⟩

theorem pointFaces_ok {m : Mesh Pt} {s : State} {search : Pt → Res Nat} :
    ∀ {ps : List Pt}, (∀ p ∈ ps, ∃ e g, search p = .ok e ∧ pointFace m s p e = .ok g) →
      ∃ fs, pointFaces m s search ps = .ok fs ∧ fs.length = ps.length ∧
        ∀ (i : Nat) p, ps[i]? = some p → ∃ e g, search p = .ok e ∧ pointFace m s p e = .ok g ∧ fs[i]? = some g
  | [], _ => ⟨[], rfl, rfl, by simp⟩
  | p :: ps, h => by
    obtain ⟨e, g, h1, h2⟩ := h p (by simp)
    obtain ⟨fs, h3, h4, h5⟩ := pointFaces_ok (ps := ps) (fun q hq => h q (by simp [hq]))
    refine ⟨g :: fs, by simp only [pointFaces, h1, h2, h3, Res.ok_bind], by simp [h4], ?_⟩
    intro i q hq
    cases i with
    | zero =>
      simp only [List.getElem?_cons_zero, Option.some.injEq] at hq
      subst hq
      exact ⟨e, g, h1, h2, by simp⟩
    | succ i => simpa using h5 i q (by simpa using hq)

/-! ## The nearest middle in a uniform grid -/

/-- Between two lines of the grid, the middle of the row is the nearest of all middles. -/
theorem mid_nearest {u h : ℚ} (h0 : 0 < u) (h1 : u < h) {d : Int} (hd : d ≠ 0) :
    (u - 1 / 2 * h) * (u - 1 / 2 * h) < (u - (d + 1 / 2) * h) * (u - (d + 1 / 2) * h) := by
  have hh : 0 < h := lt_trans h0 h1
  have key : (u - ((d : ℚ) + 1 / 2) * h) * (u - (d + 1 / 2) * h) - (u - 1 / 2 * h) * (u - 1 / 2 * h) = (d * h) * (d * h - 2 * u + h) := by ring
  have : 0 < (d * h) * (d * h - 2 * u + h) := by
    rcases lt_or_gt_of_ne hd with hlt | hgt
    · have : (d : ℚ) ≤ -1 := by exact_mod_cast (by omega : d ≤ -1)
      have h2 : d * h ≤ -h := by nlinarith
      exact mul_pos_of_neg_of_neg (by linarith) (by linarith)
    · have : (1 : ℚ) ≤ d := by exact_mod_cast (by omega : 1 ≤ d)
      have h2 : h ≤ d * h := by nlinarith
      exact mul_pos (by linarith) (by linarith)
  linarith

/-- Between two lines of the grid, one of them is the nearest of all lines. -/
theorem line_nearest {u w : ℚ} (h0 : 0 < u) (h1 : u < w) (d : Int) :
    d = 0 ∨ d = 1 ∨ u * u < (u - d * w) * (u - d * w) ∨ (u - w) * (u - w) < (u - d * w) * (u - d * w) := by
  have hw : 0 < w := lt_trans h0 h1
  by_cases ha : d = 0
  · exact .inl ha
  by_cases hb : d = 1
  · exact .inr (.inl hb)
  rcases lt_or_gt_of_ne ha with hlt | hgt
  · right; right; left
    have : (d : ℚ) ≤ -1 := by exact_mod_cast (by omega : d ≤ -1)
    have h2 : d * w ≤ -w := by nlinarith
    nlinarith
  · right; right; right
    have : (2 : ℚ) ≤ d := by exact_mod_cast (by omega : 2 ≤ d)
    have h2 : 2 * w ≤ d * w := by nlinarith
    nlinarith

end Verif.Locate
