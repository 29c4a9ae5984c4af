import Verif.Sampling.FaceLemmas
import Verif.Flip.Spec
import Verif.Polygons.AreaProps
/-!
# Lemmas: the polygons around the nodes
-/
namespace Verif.Sampling
open Verif.Polygons Verif.Faces Verif.Mesh
open Verif.Averaging (Val)
open Verif.Quality (massOf)

theorem nextForward_mod {e n : Nat} (h : e < n) : Circular.nextForward e n = .ok ((e + 1) % n) := by
  unfold Circular.nextForward
  rw [if_neg (by omega), if_neg (by omega)]
  split
  · rename_i h'
    rw [h', Nat.sub_add_cancel (by omega), Nat.mod_self]
  · rw [Nat.mod_eq_of_lt (by omega)]

theorem places_first {c : Nat} {p : Nat × Nat} {l : List Nat} (h : Places c p l) (hc : c ≠ 0) :
    p.1 ∈ l ∧ ((c > 1 ∧ l = [p.1, p.2]) ∨ (c = 1 ∧ l = [p.1])) := by
  cases h with
  | none => exact absurd rfl hc
  | one f => exact ⟨by simp, .inr ⟨rfl, rfl⟩⟩
  | two f g => exact ⟨by simp, .inl ⟨by omega, rfl⟩⟩

theorem placeIn_of {es : List Nat} {e : Nat} (h : e ∈ es) : placeIn es e = es.idxOf e := by
  unfold placeIn
  rw [if_pos (List.idxOf_lt_length_iff.2 h)]

theorem mass_get {m : Mesh Pt} {s : State} {f : Nat} (h : f < s.facesNodes.length) : vget (around m s).masses f = .ok (massOf m s f) := by
  rw [vget_eq_ok]
  simp [around, massOf, h]

theorem follows_iff {es : List Nat} {e' e : Nat} : follows es e' e = true ↔ ∃ j, es[j]? = some e' ∧ es[(j + 1) % es.length]? = some e := by
  simp only [follows, List.any_eq_true, List.mem_range, Bool.and_eq_true, decide_eq_true_eq]
  constructor
  · rintro ⟨j, _, h⟩; exact ⟨j, h⟩
  · rintro ⟨j, h⟩; exact ⟨j, (List.getElem?_eq_some_iff.1 h.1).1, h⟩

theorem mem_cornerFaces {s : State} {f e' e : Nat} : f ∈ cornerFaces s e' e ↔ ∃ es, s.facesEdges[f]? = some es ∧ follows es e' e = true := by
  simp only [cornerFaces, List.mem_filter, List.mem_range]
  constructor
  · rintro ⟨h1, h2⟩
    exact ⟨s.facesEdges[f], List.getElem?_eq_getElem h1, by simpa [h1] using h2⟩
  · rintro ⟨es, h1, h2⟩
    exact ⟨(List.getElem?_eq_some_iff.1 h1).1, by simpa [List.getD, h1] using h2⟩

/-- The face found between two successive edges of a node. -/
theorem faceBetween_ok {m : Mesh Pt} {s : State} (hl : Flip.Linked m.edges s) {first second c : Nat} (he : first < m.edges.length)
    (hc : s.numFaces[first]? = some c) (h0 : c ≠ 0) (hreg : (cornerFaces s second first).length = 1 ∨ (cornerFaces s second first = [] ∧ c = 1)) :
    faceBetween (around m s) first second c = .ok ((cornerFaces s second first).headD missing) := by
  obtain ⟨c', p, l, e1, e2, e3, -, e5⟩ := hl.faces first he
  rw [hc] at e1
  obtain rfl := Option.some.inj e1
  obtain ⟨hp, hcase⟩ := places_first e3 h0
  obtain ⟨es, g1, g2⟩ := (e5 p.1).1 hp
  have hf : p.1 < s.facesEdges.length := (List.getElem?_eq_some_iff.1 g1).1
  have hf' : p.1 < s.facesNodes.length := by rw [hl.lengths]; exact hf
  have hns : s.facesNodes[p.1]? = some s.facesNodes[p.1] := List.getElem?_eq_getElem hf'
  have hpr := hl.proper _ _ _ hns g1
  have hnd := hpr.edgesDistinct
  have hidx := List.idxOf_lt_length_iff.2 g2
  have hat : es[es.idxOf first]? = some first := by rw [List.getElem?_eq_getElem hidx, List.getElem_idxOf]
  -- the place before
  have hprev : ∃ j, Circular.nextBackward (es.idxOf first) es.length = .ok j ∧ j < es.length ∧ (j + 1) % es.length = es.idxOf first := by
    unfold Circular.nextBackward
    rw [if_neg (by omega), if_neg (by omega)]
    refine ⟨_, rfl, ?_, ?_⟩
    · split <;> omega
    · split
      · rename_i h
        rw [h, Nat.sub_add_cancel (by omega), Nat.mod_self]
      · rw [Nat.sub_add_cancel (by omega), Nat.mod_eq_of_lt hidx]
  obtain ⟨j, j1, j2, j3⟩ := hprev
  have hrun : faceBetween (around m s) first second c = .ok (if es[j] = second then p.1 else if c > 1 then p.2 else missing) := by
    unfold faceBetween
    have a1 : vget (around m s).edgesFaces first = .ok p := vget_eq_ok.2 e2
    have a2 : vget (around m s).facesEdges p.1 = .ok es := vget_eq_ok.2 g1
    rw [a1, Res.ok_bind, a2, Res.ok_bind, placeIn_of g2, j1, Res.ok_bind, vget_ok j2, Res.ok_bind]
  have hfirst : p.1 ∈ cornerFaces s second first ↔ es[j] = second := by
    rw [mem_cornerFaces]
    constructor
    · rintro ⟨es', i1, i0⟩
      obtain ⟨i, i2, i3⟩ := follows_iff.1 i0
      rw [g1] at i1
      obtain rfl := Option.some.inj i1
      have hi : i < es.length := (List.getElem?_eq_some_iff.1 i2).1
      have hmod : (i + 1) % es.length = es.idxOf first := by
        have hlt : (i + 1) % es.length < es.length := Nat.mod_lt _ (by omega)
        exact (List.getElem?_inj hlt hnd).1 (i3.trans hat.symm)
      have : i = j := by
        rw [← j3] at hmod
        rcases Nat.lt_or_ge (i + 1) es.length with h1 | h1 <;> rcases Nat.lt_or_ge (j + 1) es.length with h2 | h2
        · rw [Nat.mod_eq_of_lt h1, Nat.mod_eq_of_lt h2] at hmod; omega
        · have : j + 1 = es.length := by omega
          rw [Nat.mod_eq_of_lt h1, this, Nat.mod_self] at hmod; omega
        · have : i + 1 = es.length := by omega
          rw [Nat.mod_eq_of_lt h2, this, Nat.mod_self] at hmod; omega
        · omega
      subst this
      exact (List.getElem?_eq_some_iff.1 i2).2
    · intro hs
      exact ⟨es, g1, follows_iff.2 ⟨j, by rw [List.getElem?_eq_getElem j2, hs], by rw [j3]; exact hat⟩⟩
  have hmem : ∀ g ∈ cornerFaces s second first, g ∈ l := by
    intro g hg
    obtain ⟨es', i1, i0⟩ := mem_cornerFaces.1 hg
    obtain ⟨i, i2, i3⟩ := follows_iff.1 i0
    exact (e5 g).2 ⟨es', i1, List.mem_of_getElem? i3⟩
  rw [hrun]
  congr 1
  rcases hreg with h1 | ⟨h1, h2⟩
  · obtain ⟨g, hg⟩ := List.length_eq_one_iff.1 h1
    rw [hg] at hfirst hmem ⊢
    rw [List.mem_singleton] at hfirst
    rw [List.headD_cons]
    by_cases hs : es[j] = second
    · rw [if_pos hs]
      exact hfirst.2 hs
    · rw [if_neg hs]
      have hgl := hmem g (by simp)
      rcases hcase with ⟨c1, c2⟩ | ⟨_, c2⟩
      · rw [if_pos c1]
        rw [c2, List.mem_cons, List.mem_singleton] at hgl
        rcases hgl with h | h
        · exact absurd (hfirst.1 h.symm) hs
        · exact h.symm
      · rw [c2, List.mem_singleton] at hgl
        exact absurd (hfirst.1 hgl.symm) hs
  · rw [h1] at hfirst ⊢
    rw [if_neg (fun h => by simpa using hfirst.2 h), if_neg (by omega)]
    rfl

/-- The face in the corner after place `k`. -/
def faceAfter (s : State) (es : List Nat) (k : Nat) : Nat := (cornerFaces s (es.getD ((k + 1) % es.length) 0) (es.getD k 0)).headD missing

theorem sortedLoop_ok {m : Mesh Pt} {s : State} (hl : Flip.Linked m.edges s) {es : List Nat} (he : ∀ e ∈ es, e < m.edges.length)
    (hc : ∀ e ∈ es, ∃ c, s.numFaces[e]? = some c ∧ c ≠ 0)
    (hreg : ∀ k < es.length, (cornerFaces s (es.getD ((k + 1) % es.length) 0) (es.getD k 0)).length = 1 ∨
      (cornerFaces s (es.getD ((k + 1) % es.length) 0) (es.getD k 0) = [] ∧ s.numFaces[es.getD k 0]? = some 1)) : ∀ (k i : Nat), i + k = es.length →
    sortedLoop (around m s) es es.length k i = .ok ((List.range' i k).map (faceAfter s es))
  | 0, i, _ => rfl
  | k + 1, i, hk => by
    have ih := sortedLoop_ok hl he hc hreg k (i + 1) (by omega)
    have hi : i < es.length := by omega
    have hm : (i + 1) % es.length < es.length := Nat.mod_lt _ (by omega)
    obtain ⟨c, c1, c2⟩ := hc es[i] (List.getElem_mem hi)
    have d1 : es.getD i 0 = es[i] := by simp [hi]
    have d2 : es.getD ((i + 1) % es.length) 0 = es[(i + 1) % es.length] := by simp [hm]
    have hr := hreg i hi
    rw [d1, d2, c1] at hr
    have f1 := faceBetween_ok hl (second := es[(i + 1) % es.length]) (he _ (List.getElem_mem hi)) c1 c2 (by simpa using hr)
    rw [sortedLoop, vget_ok hi, Res.ok_bind]
    have a1 : vget (around m s).numFaces es[i] = .ok c := vget_eq_ok.2 c1
    rw [a1, Res.ok_bind, if_neg c2, nextForward_mod hi, Res.ok_bind, vget_ok hm, Res.ok_bind, f1, Res.ok_bind, ih, Res.ok_bind, List.range'_succ,
      List.map_cons, faceAfter, d1, d2]

theorem edgeCentre_ok {m : Mesh Pt} {s : State} (hn : m.nodes.length ≤ missing) {e : Nat} {p : Edge} (hp : m.edges[e]? = some p)
    (h1 : validNode m.nodes p.1 = true) (h2 : validNode m.nodes p.2 = true) : edgeCentre (around m s) e = .ok (middleOf m e) := by
  have l1 := validNode_lt h1
  have l2 := validNode_lt h2
  unfold edgeCentre
  have a1 : vget (around m s).edges e = .ok p := vget_eq_ok.2 hp
  rw [a1, Res.ok_bind, if_neg (by omega)]
  have a2 : vget (around m s).nodes p.1 = .ok m.nodes[p.1] := vget_ok l1
  have a3 : vget (around m s).nodes p.2 = .ok m.nodes[p.2] := vget_ok l2
  rw [a2, Res.ok_bind, a3, Res.ok_bind]
  have hd : m.edges.getD e noEdge = p := by simp [List.getD, hp]
  have b1 : Quality.stored m.nodes[p.1] = position m.nodes p.1 := by
    unfold position Quality.stored; rw [List.getElem?_eq_getElem l1]; rfl
  have b2 : Quality.stored m.nodes[p.2] = position m.nodes p.2 := by
    unfold position Quality.stored; rw [List.getElem?_eq_getElem l2]; rfl
  rw [b1, b2]
  simp only [middleOf, hd, Pt.add, Pt.scale]
  congr 2 <;> ring

theorem dualLoop_ok {m : Mesh Pt} {s : State} (x : Flip.Exact m s) {n : Nat} (hn : validNode m.nodes n = true) {es : List Nat}
    (hes : m.nodesEdges[n]? = some es) : ∀ (k i : Nat), i + k = es.length →
    dualLoop (around m s) n es ((List.range' 0 es.length).map (faceAfter s es)) k i = .ok ((List.range' i k).flatMap (fun k =>
      [middleOf m (es.getD k 0), between m s n (es.getD ((k + 1) % es.length) 0) (es.getD k 0)]))
  | 0, i, _ => rfl
  | k + 1, i, hk => by
    have ih := dualLoop_ok x hn hes k (i + 1) (by omega)
    have hi : i < es.length := by omega
    obtain ⟨p, p1, p2⟩ := (x.listed n es hes es[i]).1 (List.getElem_mem hi)
    have hpe : validNode m.nodes p.1 = true ∧ validNode m.nodes p.2 = true := by
      rcases x.ends _ p p1 with rfl | ⟨v1, v2, _⟩
      · exfalso
        have := validNode_lt hn
        have := x.nodesFit
        rcases p2 with e | e <;> simp only [noEdge] at e <;> omega
      · exact ⟨v1, v2⟩
    have hf : vget ((List.range' 0 es.length).map (faceAfter s es)) i = .ok (faceAfter s es i) := by
      rw [vget_eq_ok]
      simp [hi]
    have hq : centreAt (around m s) n (faceAfter s es i) = .ok (between m s n (es.getD ((i + 1) % es.length) 0) (es.getD i 0)) := by
      unfold centreAt faceAfter between
      cases h : cornerFaces s (es.getD ((i + 1) % es.length) 0) (es.getD i 0) with
      | nil =>
        have hnl := validNode_lt hn
        have a : vget (around m s).nodes n = .ok m.nodes[n] := vget_ok hnl
        rw [List.headD_nil, if_pos rfl, a, Res.ok_bind, List.head?_nil]
        unfold position Quality.stored
        rw [List.getElem?_eq_getElem hnl]
        rfl
      | cons f l =>
        have hmem : f ∈ cornerFaces s (es.getD ((i + 1) % es.length) 0) (es.getD i 0) := by rw [h]; simp
        have hlt : f < s.facesNodes.length := by
          obtain ⟨fe, h, _⟩ := mem_cornerFaces.1 hmem
          rw [x.linked.lengths]
          exact (List.getElem?_eq_some_iff.1 h).1
        have hne : f ≠ missing := by have := x.facesFit; omega
        rw [List.headD_cons, if_neg hne, mass_get hlt, List.head?_cons]
    have d1 : es.getD i 0 = es[i] := by simp [hi]
    rw [dualLoop, vget_ok hi, Res.ok_bind, edgeCentre_ok x.nodesFit p1 hpe.1 hpe.2, Res.ok_bind, hf, Res.ok_bind, hq, Res.ok_bind, ih, Res.ok_bind,
      List.range'_succ, List.flatMap_cons, d1]
    rfl

/-- The polygon around a node with edges that all have faces. -/
theorem dualFace_ok {m : Mesh Pt} {s : State} (x : Flip.Exact m s) {n : Nat} (hn : validNode m.nodes n = true) (r : ℚ) (hreg : Regular m s n)
    (hface : ∀ (e : Nat) p, m.edges[e]? = some p → (p.1 = n ∨ p.2 = n) → ∃ f, Borders s f e) :
    dualFace (around m s) r n = .ok (scaledRing r (centreFound (dualPolygon m s n)) (dualPolygon m s n)) := by
  have hlt : n < m.nodesEdges.length := by rw [x.lists]; exact validNode_lt hn
  have hes : m.nodesEdges[n]? = some m.nodesEdges[n] := List.getElem?_eq_getElem hlt
  have hd : m.nodesEdges.getD n [] = m.nodesEdges[n] := by simp [hlt]
  generalize hese : m.nodesEdges[n] = es at hes hd
  have hcount : vget (around m s).numEdges n = .ok es.length := by
    rw [vget_eq_ok]
    show m.numEdges[n]? = _
    rw [x.counts, List.getElem?_map, hes]
    rfl
  have he : ∀ e ∈ es, e < m.edges.length := by
    intro e h
    obtain ⟨p, p1, _⟩ := (x.listed n es hes e).1 h
    exact (List.getElem?_eq_some_iff.1 p1).1
  have hc : ∀ e ∈ es, ∃ c, s.numFaces[e]? = some c ∧ c ≠ 0 := by
    intro e h
    obtain ⟨p, p1, p2⟩ := (x.listed n es hes e).1 h
    obtain ⟨c, q, l, e1, _, e3, _, e5⟩ := x.linked.faces e (he e h)
    refine ⟨c, e1, ?_⟩
    rintro rfl
    obtain ⟨f, hf⟩ := hface e p p1 p2
    have := (e5 f).2 hf
    cases e3
    simp at this
  simp only [Regular, hd] at hreg
  have f1 := sortedLoop_ok x.linked he hc hreg es.length 0 (by omega)
  have l1 := dualLoop_ok x hn hes es.length 0 (by omega)
  have hne : 0 < es.length := by
    obtain ⟨e, p, p1, p2⟩ := x.used n hn
    exact List.length_pos_of_mem ((x.listed n es hes e).2 ⟨p, p1, p2⟩)
  have hl : dualPolygon m s n = (List.range' 0 es.length).flatMap (fun k =>
      [middleOf m (es.getD k 0), between m s n (es.getD ((k + 1) % es.length) 0) (es.getD k 0)]) := by
    simp only [dualPolygon, hd, List.range_eq_range']
  have l2 : (dualPolygon m s n).length = 2 * es.length := by
    rw [hl]
    simp [List.length_flatMap]
    omega
  rw [← hl] at l1
  generalize dualPolygon m s n = l at l1 l2
  cases l with
  | nil => rw [List.length_nil] at l2; omega
  | cons a l =>
    have hlen3 : ¬ (a :: l ++ [a]).length < 3 := by simp at l2 ⊢; omega
    have hd : (a :: l ++ [a]).dropLast = a :: l := List.dropLast_concat
    unfold dualFace sortedFaces
    have a2 : vget (around m s).nodesEdges n = .ok es := vget_eq_ok.2 hes
    rw [hcount, Res.ok_bind, a2, Res.ok_bind, f1, Res.ok_bind, Res.ok_bind, Res.ok_bind, l1, Res.ok_bind, vget_ok (by simp), Res.ok_bind]
    unfold faceArea
    simp only [List.getElem_cons_zero]
    rw [if_neg hlen3, Res.ok_bind, hd]
    simp only [scaledRing, centreFound, ringOf, List.head?_cons, Option.toList_some, List.map_append, List.map_cons, List.map_nil]
    rfl

theorem centreFound_eq {l : List Pt} (h : minArea ≤ |shoelace l|) : centreFound l = centroid l := by
  simp only [centreFound]
  rw [areaFinish_eq _ _ h]

end Verif.Sampling
