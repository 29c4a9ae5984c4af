import Mathlib.Data.List.Nodup
import Mathlib.Data.List.Sort
import Verif.Faces.Spec
/-!
# Lemmas about the search for faces
-/
namespace Verif.Faces
open Verif.Mesh

theorem neighboursEqual_sorted (l : List Nat) (h : l.Pairwise (· ≤ ·)) : neighboursEqual l = false ↔ l.Nodup := by
  induction l with
  | nil => simp [neighboursEqual]
  | cons a l ih =>
    cases l with
    | nil => simp [neighboursEqual]
    | cons b l =>
      have h2 := List.pairwise_cons.1 h
      rw [neighboursEqual, Bool.or_eq_false_iff, ih h2.2, List.nodup_cons (a := a)]
      constructor
      · rintro ⟨h3, h4⟩
        refine ⟨fun hm => ?_, h4⟩
        have hne : b ≠ a := by simpa using h3
        have hab := h2.1 b (by simp)
        rcases List.mem_cons.1 hm with h5 | h5
        · exact hne h5.symm
        · have := (List.pairwise_cons.1 h2.2).1 a h5
          omega
      · rintro ⟨h3, h4⟩
        refine ⟨?_, h4⟩
        simp only [decide_eq_false_iff_not]
        rintro rfl
        exact h3 (by simp)

theorem hasDuplicates_iff (k : Nat) (l : List Nat) (h : l.length = k) : hasDuplicates k l = false ↔ l.Nodup := by
  unfold hasDuplicates
  simp only
  split
  · next hk =>
    subst hk
    match l, h with
    | [a, b, c], _ => simp
  · split
    · next hk =>
      subst hk
      match l, h with
      | [a, b, c, d], _ => simp; tauto
    · rw [neighboursEqual_sorted, (List.perm_insertionSort _ l).nodup_iff]
      exact List.pairwise_insertionSort _ l

theorem joins_other {p : Edge} {n : Nat} (h : p.1 = n ∨ p.2 = n) : Joins p n (otherNode p n) := by
  unfold Joins otherNode
  obtain ⟨a, b⟩ := p
  simp only at h ⊢
  split
  · left; simp [*]
  · next hne =>
    right
    rcases h with h | h
    · exact absurd h.symm hne
    · rw [h]

theorem joins_unique {p : Edge} {a b c d : Nat} (h : Joins p a b) (h' : Joins p c d) : (a = c ∧ b = d) ∨ (a = d ∧ b = c) := by
  unfold Joins at *
  rcases h with rfl | rfl <;> rcases h' with h' | h' <;> simp only [Prod.mk.injEq] at h' <;> omega

/-- The sides of a polygon with at least three different nodes are different edges. -/
theorem sides_nodup {edges : List Edge} {ns es : List Nat} (h3 : 3 ≤ ns.length) (hl : es.length = ns.length) (hn : ns.Nodup)
    (hs : ∀ i, i < ns.length → Side edges ns es i) : es.Nodup := by
  rw [List.nodup_iff_injective_get]
  intro ⟨i, hi⟩ ⟨j, hj⟩ hij
  simp only [List.get_eq_getElem] at hij
  simp only [Fin.mk.injEq]
  obtain ⟨a, b, e, p, h1, h2, h3', h4, h5⟩ := hs i (by omega)
  obtain ⟨a', b', e', p', g1, g2, g3, g4, g5⟩ := hs j (by omega)
  have ee : e = e' := by
    rw [List.getElem?_eq_getElem hi] at h3'; rw [List.getElem?_eq_getElem hj] at g3
    have := Option.some.inj h3'; have := Option.some.inj g3
    omega
  subst ee
  have pp : p = p' := by rw [h4] at g4; exact Option.some.inj g4
  subst pp
  have inj : ∀ (x y v : Nat), x < ns.length → y < ns.length → ns[x]? = some v → ns[y]? = some v → x = y := by
    intro x y v hx hy h h'
    exact (List.getElem?_inj hx hn).1 (h.trans h'.symm)
  rcases joins_unique h5 g5 with ⟨r1, r2⟩ | ⟨r1, r2⟩
  · exact inj i j a (by omega) (by omega) h1 (by rw [r1]; exact g1)
  · have hm1 : (i + 1) % ns.length < ns.length := Nat.mod_lt _ (by omega)
    have hm2 : (j + 1) % ns.length < ns.length := Nat.mod_lt _ (by omega)
    have e1 := inj i ((j + 1) % ns.length) a (by omega) hm2 h1 (by rw [r1]; exact g2)
    have e2 := inj ((i + 1) % ns.length) j b hm1 (by omega) h2 (by rw [r2]; exact g1)
    rcases Nat.lt_or_ge (i + 1) ns.length with hi1 | hi1
    · rw [Nat.mod_eq_of_lt hi1] at e2
      rcases Nat.lt_or_ge (j + 1) ns.length with hj1 | hj1
      · rw [Nat.mod_eq_of_lt hj1] at e1; omega
      · have : j + 1 = ns.length := by omega
        rw [this, Nat.mod_self] at e1; omega
    · have : i + 1 = ns.length := by omega
      rw [this, Nat.mod_self] at e2
      rcases Nat.lt_or_ge (j + 1) ns.length with hj1 | hj1
      · rw [Nat.mod_eq_of_lt hj1] at e1; omega
      · omega

/-! ## Storing a face -/

/-- What `markEdges` does to the edge `e`. -/
structure Marked (f : Nat) (es : List Nat) (s s' : State) : Prop where
  nodes : s'.facesNodes = s.facesNodes
  edges : s'.facesEdges = s.facesEdges
  len1 : s'.numFaces.length = s.numFaces.length
  len2 : s'.edgesFaces.length = s.edgesFaces.length
  other : ∀ (e : Nat), e ∉ es → s'.numFaces[e]? = s.numFaces[e]? ∧ s'.edgesFaces[e]? = s.edgesFaces[e]?
  same : ∀ (e : Nat) c p l, e ∈ es → s.numFaces[e]? = some c → s.edgesFaces[e]? = some p → Places c p l →
    ∃ c' p', s'.numFaces[e]? = some c' ∧ s'.edgesFaces[e]? = some p' ∧ Places c' p' (l ++ [f])

theorem markEdge_ok {f e : Nat} {s : State} {c : Nat} {p : Nat × Nat} {l : List Nat} (h1 : s.numFaces[e]? = some c)
    (h2 : s.edgesFaces[e]? = some p) (h3 : Places c p l) (hc : c < 2) :
    ∃ s', markEdge f e s = .ok s' ∧ Marked f [e] s s' := by
  have l1 : e < s.numFaces.length := (List.getElem?_eq_some_iff.1 h1).1
  have l2 : e < s.edgesFaces.length := (List.getElem?_eq_some_iff.1 h2).1
  have key : ∃ q, setSlot p c f = .ok q ∧ Places (c + 1) q (l ++ [f]) := by
    cases h3 with
    | none => exact ⟨_, rfl, .one f⟩
    | one g => exact ⟨_, rfl, .two g f⟩
    | two g g' => omega
  obtain ⟨q, q1, q2⟩ := key
  refine ⟨{ s with numFaces := s.numFaces.set e (c + 1), edgesFaces := s.edgesFaces.set e q }, ?_,
    ⟨rfl, rfl, by simp, by simp, ?_, ?_⟩⟩
  · unfold markEdge
    rw [vget_eq_ok.2 h1, Res.ok_bind, vget_eq_ok.2 h2, Res.ok_bind, q1, Res.ok_bind]
  · intro e' he'
    have hne : e ≠ e' := fun h => he' (by simp [h])
    simp [hne]
  · intro e' c' p' l' he' g1 g2 g3
    have : e' = e := by simpa using he'
    subst this
    rw [h1] at g1; rw [h2] at g2
    obtain rfl := Option.some.inj g1
    obtain rfl := Option.some.inj g2
    have hl : l' = l := by cases h3 <;> cases g3 <;> rfl
    subst hl
    exact ⟨c + 1, q, by simp [l1], by simp [l2], q2⟩

theorem markEdges_ok {f : Nat} {es : List Nat} {s : State} (hn : es.Nodup)
    (h : ∀ e ∈ es, ∃ c p l, s.numFaces[e]? = some c ∧ s.edgesFaces[e]? = some p ∧ Places c p l ∧ c < 2) :
    ∃ s', markEdges f es s = .ok s' ∧ Marked f es s s' := by
  induction es generalizing s with
  | nil => exact ⟨s, rfl, rfl, rfl, rfl, rfl, fun _ _ => ⟨rfl, rfl⟩, fun _ _ _ _ he => by simp at he⟩
  | cons e es ih =>
    obtain ⟨hne, hn'⟩ := List.nodup_cons.1 hn
    obtain ⟨c, p, l, h1, h2, h3, hc⟩ := h e (by simp)
    obtain ⟨s1, m1, k1⟩ := markEdge_ok (f := f) h1 h2 h3 hc
    obtain ⟨s2, m2, k2⟩ := ih (s := s1) hn' (by
      intro e' he'
      have : e' ∉ [e] := by
        intro h; simp at h; exact hne (h ▸ he')
      rw [(k1.other e' this).1, (k1.other e' this).2]
      exact h e' (by simp [he']))
    refine ⟨s2, by rw [markEdges, m1, Res.ok_bind, m2], ⟨k2.nodes.trans k1.nodes, k2.edges.trans k1.edges,
      k2.len1.trans k1.len1, k2.len2.trans k1.len2, ?_, ?_⟩⟩
    · intro e' he'
      simp only [List.mem_cons, not_or] at he'
      obtain ⟨a, b⟩ := k2.other e' he'.2
      obtain ⟨a', b'⟩ := k1.other e' (by simp [he'.1])
      exact ⟨a.trans a', b.trans b'⟩
    · intro e' c' p' l' he' g1 g2 g3
      by_cases hee : e' = e
      · subst hee
        obtain ⟨c2, p2, r1, r2, r3⟩ := k1.same e' c' p' l' (by simp) g1 g2 g3
        obtain ⟨a, b⟩ := k2.other e' hne
        exact ⟨c2, p2, a.trans r1, b.trans r2, r3⟩
      · obtain ⟨a, b⟩ := k1.other e' (by simp [hee])
        exact k2.same e' c' p' l' (by simpa [hee] using he') (a.trans g1) (b.trans g2) g3

/-- The faces found so far stay. -/
structure Extends (s t : State) : Prop where
  nodes : s.facesNodes <+: t.facesNodes
  edges : s.facesEdges <+: t.facesEdges

theorem Extends.refl (s : State) : Extends s s := ⟨List.prefix_rfl, List.prefix_rfl⟩
theorem Extends.trans {s t u : State} (h : Extends s t) (h' : Extends t u) : Extends s u :=
  ⟨h.nodes.trans h'.nodes, h.edges.trans h'.edges⟩

theorem Extends.borders {s t : State} (h : Extends s t) {f e : Nat} (hb : Borders s f e) : Borders t f e := by
  obtain ⟨es, h1, h2⟩ := hb
  obtain ⟨r, hr⟩ := h.edges
  refine ⟨es, ?_, h2⟩
  rw [← hr, List.getElem?_append_left (List.getElem?_eq_some_iff.1 h1).1]; exact h1

theorem storeFace_ok {edges : List Edge} {cw : List Nat → Bool} {s : State} (hs : Consistent edges cw s) {ns es : List Nat}
    (hp : Proper edges ns es) (hcw : cw ns = false) (hc : ∀ e ∈ es, ∃ c, s.numFaces[e]? = some c ∧ c < 2)
    (hdup : oneEdgeHasNoFace es s = true ∨ hasDuplicateEdgeFaces ns.length es s = false) :
    ∃ s', storeFace ns es s = .ok s' ∧ Consistent edges cw s' ∧ Extends s s' ∧ s'.facesEdges = s.facesEdges ++ [es] ∧
      s'.facesNodes = s.facesNodes ++ [ns] := by
  have hrange : ∀ e ∈ es, e < edges.length := by
    intro e he
    obtain ⟨c, h, _⟩ := hc e he
    rw [← hs.numFaces]; exact (List.getElem?_eq_some_iff.1 h).1
  have hpl : ∀ e ∈ es, ∃ c p l, s.numFaces[e]? = some c ∧ s.edgesFaces[e]? = some p ∧ Places c p l ∧ c < 2 := by
    intro e he
    obtain ⟨c, p, l, h1, h2, h3, _⟩ := hs.faces e (hrange e he)
    obtain ⟨c', h1', h4⟩ := hc e he
    rw [h1] at h1'
    obtain rfl := Option.some.inj h1'
    exact ⟨c, p, l, h1, h2, h3, h4⟩
  obtain ⟨s1, m1, k1⟩ := markEdges_ok (f := s.facesNodes.length) hp.edgesDistinct hpl
  refine ⟨{ s1 with facesNodes := s1.facesNodes ++ [ns], facesEdges := s1.facesEdges ++ [es] }, ?_, ?_, ?_, ?_, ?_⟩
  · unfold storeFace; rw [m1, Res.ok_bind]
  · have hB : ∀ f e, Borders { s1 with facesNodes := s1.facesNodes ++ [ns], facesEdges := s1.facesEdges ++ [es] } f e ↔
        Borders s f e ∨ (f = s.facesNodes.length ∧ e ∈ es) := by
      intro f e
      unfold Borders
      simp only [k1.edges]
      rw [hs.lengths]
      constructor
      · rintro ⟨es', h1, h2⟩
        rcases Nat.lt_trichotomy f s.facesEdges.length with h | h | h
        · rw [List.getElem?_append_left h] at h1
          exact Or.inl ⟨es', h1, h2⟩
        · subst h
          rw [List.getElem?_concat_length] at h1
          obtain rfl := Option.some.inj h1
          exact Or.inr ⟨rfl, h2⟩
        · rw [List.getElem?_eq_none (by simp; omega)] at h1
          cases h1
      · rintro (⟨es', h1, h2⟩ | ⟨rfl, h2⟩)
        · exact ⟨es', by rw [List.getElem?_append_left (List.getElem?_eq_some_iff.1 h1).1]; exact h1, h2⟩
        · exact ⟨es, List.getElem?_concat_length, h2⟩
    -- the new face has other edges than each old one
    have hnew : ∀ (g : Nat) es', s.facesEdges[g]? = some es' → ¬ ∀ e, e ∈ es ↔ e ∈ es' := by
      intro g es' hg hsame
      have hone : ∀ e ∈ es, s.numFaces[e]? = some 1 ∧ firstFace s e = g := by
        intro e he
        obtain ⟨c, p, l, h1, h2, h3, h4, h5⟩ := hs.faces e (hrange e he)
        obtain ⟨c', h1', h6⟩ := hc e he
        rw [h1] at h1'
        obtain rfl := Option.some.inj h1'
        have hgl : g ∈ l := (h5 g).2 ⟨es', hg, (hsame e).1 he⟩
        cases h3 with
        | none => simp at hgl
        | one f =>
          have : g = f := by simpa using hgl
          refine ⟨h1, ?_⟩
          simp [firstFace, List.getD_eq_getElem?_getD, h2, this]
        | two f f' => omega
      rcases hdup with h | h
      · unfold oneEdgeHasNoFace at h
        rw [List.any_eq_true] at h
        obtain ⟨e, he, h0⟩ := h
        rw [List.getD_eq_getElem?_getD, (hone e he).1] at h0
        simp at h0
      · unfold hasDuplicateEdgeFaces at h
        rw [hasDuplicates_iff _ _ (by rw [List.length_map, hp.len])] at h
        have h3 := hp.atLeast
        have hl := hp.len
        match es, hl with
        | [], hl => simp at hl; omega
        | [_], hl => simp at hl; omega
        | e :: e' :: _, _ =>
          simp only [List.map_cons, List.nodup_cons, List.mem_cons, not_or] at h
          exact h.1.1 ((hone e (by simp)).2.trans (hone e' (by simp)).2.symm)
    refine ⟨?_, ?_, ?_, ?_, ?_, ?_⟩
    · simp only [List.length_append, k1.nodes, k1.edges, hs.lengths]; rfl
    · intro f ns' es' h1 h2
      simp only [k1.nodes, k1.edges] at h1 h2
      rcases Nat.lt_trichotomy f s.facesNodes.length with h | h | h
      · rw [List.getElem?_append_left h] at h1
        rw [List.getElem?_append_left (by rw [← hs.lengths]; exact h)] at h2
        exact hs.proper f ns' es' h1 h2
      · rw [h, List.getElem?_concat_length] at h1
        rw [h, hs.lengths, List.getElem?_concat_length] at h2
        obtain rfl := Option.some.inj h1
        obtain rfl := Option.some.inj h2
        exact ⟨hp, hcw⟩
      · rw [List.getElem?_eq_none (by simp; omega)] at h1
        cases h1
    · exact k1.len1.trans hs.numFaces
    · exact k1.len2.trans hs.edgesFaces
    · intro e he
      obtain ⟨c, p, l, h1, h2, h3, h4, h5⟩ := hs.faces e he
      by_cases hin : e ∈ es
      · obtain ⟨c', p', r1, r2, r3⟩ := k1.same e c p l hin h1 h2 h3
        refine ⟨c', p', l ++ [s.facesNodes.length], r1, r2, r3, ?_, ?_⟩
        · rw [List.nodup_append]
          refine ⟨h4, by simp, ?_⟩
          intro a ha b hb
          have : b = s.facesNodes.length := by simpa using hb
          subst this
          rintro rfl
          obtain ⟨es', g1, _⟩ := (h5 _).1 ha
          have := (List.getElem?_eq_some_iff.1 g1).1
          rw [hs.lengths] at this
          omega
        · intro f
          rw [hB, List.mem_append, h5 f]
          simp [hin]
      · obtain ⟨r1, r2⟩ := k1.other e hin
        refine ⟨c, p, l, r1.trans h1, r2.trans h2, h3, h4, ?_⟩
        intro f
        rw [hB, h5 f]
        simp [hin]
    · intro f g es1 es2 hfg h1 h2
      simp only [k1.edges] at h1 h2
      have cases1 : ∀ (f : Nat) es', (s.facesEdges ++ [es])[f]? = some es' →
          s.facesEdges[f]? = some es' ∨ (f = s.facesEdges.length ∧ es' = es) := by
        intro f es' h
        rcases Nat.lt_trichotomy f s.facesEdges.length with h' | h' | h'
        · rw [List.getElem?_append_left h'] at h; exact Or.inl h
        · subst h'
          rw [List.getElem?_concat_length] at h
          exact Or.inr ⟨rfl, (Option.some.inj h).symm⟩
        · rw [List.getElem?_eq_none (by simp; omega)] at h
          cases h
      rcases cases1 f es1 h1 with a | ⟨a, rfl⟩ <;> rcases cases1 g es2 h2 with b | ⟨b, rfl⟩
      · exact hs.once f g es1 es2 hfg a b
      · intro hsame
        exact hnew f es1 a (fun e => (hsame e).symm)
      · exact hnew g es2 b
      · omega
  · exact ⟨by simp [k1.nodes], by simp [k1.edges]⟩
  · simp [k1.edges]
  · simp [k1.nodes]

end Verif.Faces
