import Verif.Delete.Lemmas
/-!
# Lemmas about the faces that are kept
-/
namespace Verif.Delete
open Verif.Mesh Verif.Faces Verif.Regions
variable {P : Type}

theorem allInside_ok {flags : List Bool} : ∀ (ns : List Nat), (∀ n ∈ ns, n < flags.length) →
    allInside flags ns = .ok (ns.all (fun n => flags[n]?.getD false))
  | [], _ => rfl
  | n :: ns, h => by
    have hn := h n (by simp)
    unfold allInside
    rw [vget_ok hn, Res.ok_bind, allInside_ok ns (fun k hk => h k (by simp [hk]))]
    rw [List.all_cons, List.getElem?_eq_getElem hn]
    cases flags[n] <;> simp

theorem includedFaces_ok {flags : List Bool} : ∀ (fs : List (List Nat)), (∀ ns ∈ fs, ∀ n ∈ ns, n < flags.length) →
    includedFaces flags fs = .ok (fs.map (fun ns => ns.all (fun n => flags[n]?.getD false)))
  | [], _ => rfl
  | ns :: fs, h => by
    unfold includedFaces
    rw [allInside_ok ns (h ns (by simp)), Res.ok_bind, includedFaces_ok fs (fun k hk => h k (by simp [hk])), Res.ok_bind]
    rfl

theorem insideNodes_get (inside : P → Bool) (nodes : List (Option P)) (n : Nat) :
    (insideNodes inside nodes)[n]?.getD false = true ↔ ∃ p, nodes[n]? = some (some p) ∧ inside p = true := by
  unfold insideNodes
  rw [List.getElem?_map]
  cases nodes[n]? with
  | none => simp
  | some v => cases v <;> simp

/-- The faces of an edge, read from the tables. -/
theorem facesOf {edges : List Edge} {cw : List Nat → Bool} {s : State} (hc : Consistent edges cw s) {e : Nat} (he : e < edges.length) :
    ∃ c p l, vget s.numFaces e = .ok c ∧ vget s.edgesFaces e = .ok p ∧ Places c p l ∧ ∀ f, f ∈ l ↔ Borders s f e := by
  obtain ⟨c, p, l, h1, h2, h3, _, h4⟩ := hc.faces e he
  exact ⟨c, p, l, by simp [vget, h1], by simp [vget, h2], h3, h4⟩

theorem borders_lt {s : State} {f e : Nat} (h : Borders s f e) : f < s.facesEdges.length := by
  obtain ⟨es, h1, _⟩ := h
  exact (List.getElem?_eq_some_iff.1 h1).1

/-- The sides of a face join valid nodes. -/
theorem borders_edge {m : Mesh P} {cw : List Nat → Bool} {s : State} (hc : Consistent m.edges cw s)
    (hv : ∀ (f : Nat) ns, s.facesNodes[f]? = some ns → ∀ n ∈ ns, validNode m.nodes n = true) (hfit : m.nodes.length ≤ missing) {f e : Nat}
    (h : Borders s f e) : e < m.edges.length ∧ edgeAt m e ≠ noEdge := by
  obtain ⟨es, h1, h2⟩ := h
  have hf : f < s.facesNodes.length := by rw [hc.lengths]; exact (List.getElem?_eq_some_iff.1 h1).1
  have h3 := List.getElem?_eq_getElem hf
  obtain ⟨pr, _⟩ := hc.proper f _ es h3 h1
  obtain ⟨i, hi, hie⟩ := List.getElem_of_mem h2
  obtain ⟨a, b, e', p, s1, s2, s3, s4, s5⟩ := pr.sides i (by rw [← pr.len]; exact hi)
  have : e' = e := by
    rw [List.getElem?_eq_getElem hi, hie] at s3
    exact (Option.some.inj s3).symm
  subst this
  refine ⟨(List.getElem?_eq_some_iff.1 s4).1, ?_⟩
  have e1 : edgeAt m e' = p := by simp [edgeAt, s4]
  have ha : a < m.nodes.length := by
    have := hv f _ h3 a (List.mem_of_getElem? s1)
    unfold validNode at this
    rcases Nat.lt_or_ge a m.nodes.length with h | h
    · exact h
    · rw [List.getElem?_eq_none h] at this; simp at this
  rw [e1]
  intro hp
  rw [hp] at s5
  rcases s5 with s5 | s5
  · have := congrArg Prod.fst s5
    simp only [noEdge] at this
    omega
  · have := congrArg Prod.snd s5
    simp only [noEdge] at this
    omega

theorem excludedFace_iff (c : Choice) (invert : Bool) (a b : Bool) :
    excludedFace c invert a b = true ↔ ¬ (if invert then ¬ Picked c (a = true) (b = true) else Picked c (a = true) (b = true)) := by
  cases c <;> cases invert <;> cases a <;> cases b <;> simp [excludedFace, Picked]

open Classical in
/-- The edges kept are the sides of the faces that are not selected. -/
theorem keepEdge_ok {m : Mesh P} {cw : List Nat → Bool} {s : State} (hc : Consistent m.edges cw s)
    (hv : ∀ (f : Nat) ns, s.facesNodes[f]? = some ns → ∀ n ∈ ns, validNode m.nodes n = true)
    (inside : P → Bool) (crossed : List Bool) (hx : crossed.length = s.facesEdges.length) (c : Choice) (invert : Bool) :
    ∃ included, includedFaces (insideNodes inside m.nodes) s.facesNodes = .ok included ∧
      ∀ e, e < m.edges.length → keepEdge (excluded c invert included crossed) s e =
        .ok (decide (OfKeptFace (Selected inside crossed c invert m s) s e)) := by
  have hbound : ∀ ns ∈ s.facesNodes, ∀ n ∈ ns, n < (insideNodes inside m.nodes).length := by
    intro ns hns n hn
    obtain ⟨f, hf, hfe⟩ := List.getElem_of_mem hns
    have := hv f ns (by rw [List.getElem?_eq_getElem hf, hfe]) n hn
    have hl : (insideNodes inside m.nodes).length = m.nodes.length := by simp [insideNodes]
    rw [hl]
    unfold validNode at this
    rcases Nat.lt_or_ge n m.nodes.length with h | h
    · exact h
    · rw [List.getElem?_eq_none h] at this; simp at this
  refine ⟨_, includedFaces_ok _ hbound, ?_⟩
  intro e he
  -- one face
  have hex : ∀ f, f < s.facesEdges.length → excluded c invert
      (s.facesNodes.map (fun ns => ns.all (fun n => (insideNodes inside m.nodes)[n]?.getD false))) crossed f =
      .ok (decide (¬ Selected inside crossed c invert m s f)) := by
    intro f hf
    have hf' : f < s.facesNodes.length := by rw [hc.lengths]; exact hf
    unfold excluded
    rw [vget_ok (by simpa using hf'), Res.ok_bind, vget_ok (by omega : f < crossed.length), Res.ok_bind]
    congr 1
    rw [Bool.eq_iff_iff, excludedFace_iff, decide_eq_true_eq]
    have hw : ((s.facesNodes.map (fun ns => ns.all (fun n => (insideNodes inside m.nodes)[n]?.getD false)))[f]'(by simpa using hf') = true) =
        Within inside m s f := by
      apply propext
      rw [List.getElem_map, List.all_eq_true]
      unfold Within
      constructor
      · intro h ns hns n hn
        rw [List.getElem?_eq_getElem hf'] at hns
        obtain rfl := Option.some.inj hns
        exact (insideNodes_get inside m.nodes n).1 (h n hn)
      · intro h n hn
        exact (insideNodes_get inside m.nodes n).2 (h _ (List.getElem?_eq_getElem hf') n hn)
    have hcr : (crossed[f]'(by omega) = true) = (crossed[f]? = some true) := by
      rw [List.getElem?_eq_getElem (by omega : f < crossed.length)]
      simp
    rw [hw, hcr]
    exact Iff.rfl
  obtain ⟨k, p, l, h1, h2, h3, h4⟩ := facesOf hc he
  unfold keepEdge
  rw [h1, Res.ok_bind, h2, Res.ok_bind]
  have hlt : ∀ f ∈ l, f < s.facesEdges.length := fun f hf => borders_lt ((h4 f).1 hf)
  have hiff : OfKeptFace (Selected inside crossed c invert m s) s e ↔ ∃ f ∈ l, ¬ Selected inside crossed c invert m s f := by
    unfold OfKeptFace
    constructor
    · rintro ⟨f, a, b⟩; exact ⟨f, (h4 f).2 a, b⟩
    · rintro ⟨f, a, b⟩; exact ⟨f, (h4 f).1 a, b⟩
  cases h3 with
  | none =>
    rw [if_neg (by decide), if_neg (by decide)]
    simp [hiff]
  | one f =>
    rw [if_pos rfl, hex f (hlt f (by simp))]
    simp [hiff]
  | two f g =>
    rw [if_neg (by decide), if_pos rfl, hex f (hlt f (by simp)), Res.ok_bind, hex g (hlt g (by simp))]
    by_cases hf : Selected inside crossed c invert m s f
    · by_cases hg : Selected inside crossed c invert m s g
      · simp [hiff, hf, hg]
      · simp [hiff, hf, hg]
    · simp [hiff, hf]

/-! ### By circumcentres -/

theorem allCentres_iff {centre : Nat → Bool} {invert : Bool} : ∀ (l : List Nat), (∀ f ∈ l, f ≠ missing) →
    (allCentres centre invert l = true ↔ ∀ f ∈ l, centre f ≠ invert)
  | [], _ => by simp [allCentres]
  | f :: l, h => by
    have hf := h f (by simp)
    unfold allCentres
    rw [if_neg hf]
    have ih := allCentres_iff l (fun k hk => h k (by simp [hk])) (centre := centre) (invert := invert)
    cases hi : invert <;> cases hcf : centre f <;> simp [hi] at ih ⊢ <;> simp [hcf, ih]

open Classical in
theorem toDelete_ok {m m2 : Mesh P} {cw : List Nat → Bool} {s : State} (hc : Consistent m.edges cw s) (hs : Sound m)
    (hfaces : s.facesEdges.length ≤ missing) (centre : Nat → Bool) (middle : P → P → Bool) (invert : Bool) (hn : m2.nodes = m.nodes)
    {e : Nat} (he : e < m.edges.length) (hl : m2.edges.length = m.edges.length) (hsame : edgeAt m2 e = edgeAt m e) (hne : edgeAt m e ≠ noEdge) :
    toDelete centre middle invert s m2 e = .ok (decide (¬ KeptByCentre centre middle invert m s e)) := by
  obtain ⟨k, p, l, h1, h2, h3, h4⟩ := facesOf hc he
  unfold toDelete
  rw [h1, Res.ok_bind, h2, Res.ok_bind, vget_edge (by rw [hl]; exact he), Res.ok_bind, hsame]
  have hnm : ∀ f ∈ l, f ≠ missing := by
    intro f hf
    have := borders_lt ((h4 f).1 hf)
    omega
  have hex : (∃ f, Borders s f e) ↔ l ≠ [] := by
    constructor
    · rintro ⟨f, hf⟩ rfl
      have := (h4 f).2 hf
      cases this
    · intro h
      obtain ⟨f, hf⟩ := List.exists_mem_of_ne_nil l h
      exact ⟨f, (h4 f).1 hf⟩
  have hsome : l ≠ [] → (KeptByCentre centre middle invert m s e ↔ ∃ f ∈ l, centre f = invert) := by
    intro h
    unfold KeptByCentre
    constructor
    · rintro (⟨f, a, b⟩ | ⟨a, _⟩)
      · exact ⟨f, (h4 f).2 a, b⟩
      · exact absurd (hex.2 h) a
    · rintro ⟨f, a, b⟩
      exact Or.inl ⟨f, (h4 f).1 a, b⟩
  have hlist : l ≠ [] → Res.ok (allCentres centre invert l) = .ok (decide (¬ KeptByCentre centre middle invert m s e)) := by
    intro h
    congr 1
    rw [Bool.eq_iff_iff, allCentres_iff l hnm, decide_eq_true_eq, hsome h]
    simp
  cases h3 with
  | none =>
    rw [if_pos rfl]
    obtain ⟨a, b, e1, e2⟩ := seg_ends (hs.drawn e hne)
    have l1 := (List.getElem?_eq_some_iff.1 e1).1
    have l2 := (List.getElem?_eq_some_iff.1 e2).1
    have hfit := hs.nodesFit
    have g1 : vget m.nodes (edgeAt m e).1 = .ok (some a) := by simp [vget, e1]
    have g2 : vget m.nodes (edgeAt m e).2 = .ok (some b) := by simp [vget, e2]
    unfold looseEdge
    rw [hn, if_neg (by omega), g1, Res.ok_bind, g2, Res.ok_bind]
    have hno : ¬ ∃ f, Borders s f e := by rw [hex]; simp
    have hk : KeptByCentre centre middle invert m s e ↔ middle a b = invert := by
      unfold KeptByCentre
      rw [seg_of_ends e1 e2]
      constructor
      · rintro (⟨f, h, _⟩ | ⟨_, a', b', h, h'⟩)
        · exact absurd ⟨f, h⟩ hno
        · obtain ⟨rfl, rfl⟩ := Prod.mk.inj (Option.some.inj h)
          exact h'
      · intro h
        exact Or.inr ⟨hno, a, b, rfl, h⟩
    rw [Res.ok_bind]
    congr 1
    rw [Bool.eq_iff_iff, decide_eq_true_eq, hk]
    cases invert <;> cases middle a b <;> simp
  | one f =>
    rw [if_neg (by decide)]
    exact hlist (by simp)
  | two f g =>
    rw [if_neg (by decide)]
    exact hlist (by simp)

/-- A deleted edge is deleted again or left alone: nothing changes. -/
theorem toDelete_gone {m m2 : Mesh P} {cw : List Nat → Bool} {s : State} (hc : Consistent m.edges cw s)
    (centre : Nat → Bool) (middle : P → P → Bool) (invert : Bool) {e : Nat} (he : e < m.edges.length) (hl : m2.edges.length = m.edges.length)
    (hgone : edgeAt m2 e = noEdge) : ∃ b, toDelete centre middle invert s m2 e = .ok b := by
  obtain ⟨k, p, l, h1, h2, h3, h4⟩ := facesOf hc he
  unfold toDelete
  rw [h1, Res.ok_bind, h2, Res.ok_bind, vget_edge (by rw [hl]; exact he), Res.ok_bind, hgone]
  split
  · unfold looseEdge
    rw [if_pos (show noEdge.1 = missing ∨ noEdge.2 = missing from Or.inl rfl), Res.ok_bind]
    exact ⟨_, rfl⟩
  · exact ⟨_, rfl⟩

open Classical in
theorem centres_ok {m m0 : Mesh P} {as0 : List (Act P)} {cw : List Nat → Bool} {s : State} (hc : Consistent m.edges cw s) (hs : Sound m)
    (hfaces : s.facesEdges.length ≤ missing) (hb : ∀ f e, Borders s f e → edgeAt m e ≠ noEdge)
    (centre : Nat → Bool) (middle : P → P → Bool) (invert : Bool) (h0 : Good m0 as0 m) (order : Nat → List Nat → List Nat) :
    ∃ r q, forRange 0 m.edges.length (centreStep centre middle invert s) (as0, m) = .ok r ∧ administrateU order r.2 = .ok q ∧
      Good m0 (r.1 ++ q.1) q.2 ∧ Reduced m q.2 (KeptByCentre centre middle invert m s) := by
  have hkn : ∀ e, KeptByCentre centre middle invert m s e → edgeAt m e ≠ noEdge := by
    rintro e (⟨f, h, _⟩ | ⟨_, a, b, h, _⟩)
    · exact hb f e h
    · intro hno
      rw [hno, seg_noEdge hs.nodesFit] at h; cases h
  obtain ⟨r, r1, r2, r3⟩ := forRange_inv (f := centreStep centre middle invert s)
    (fun e r => Good m0 r.1 r.2 ∧ Erased m r.2 (fun j => j < e ∧ ¬ KeptByCentre centre middle invert m s j)) (Nat.zero_le m.edges.length)
    (s := (as0, m)) ⟨h0, Erased.refl m (by intro j h; omega)⟩ (by
      rintro e r _ he ⟨g, er⟩
      have hel : e < r.2.edges.length := by rw [er.len]; exact he
      have hdel : ∃ r', (do let q ← deleteEdgeU r.2 e; Res.ok (r.1 ++ q.1, q.2)) = .ok r' ∧ Good m0 r'.1 r'.2 ∧
          Erased r.2 r'.2 (fun j => j = e) := by
        obtain ⟨as, m', d1, d2, d3⟩ := deleteEdgeU_ok hel (by rw [er.len]; exact hs.edgesFit)
        rw [d1, Res.ok_bind]
        exact ⟨_, rfl, g.trans d2, d3⟩
      by_cases hno : edgeAt m e = noEdge
      · have hgone : edgeAt r.2 e = noEdge := by
          rcases er.cases e with h | h
          · exact h
          · rw [h, hno]
        obtain ⟨b, hb⟩ := toDelete_gone hc centre middle invert he er.len hgone
        unfold centreStep
        rw [hb, Res.ok_bind]
        cases b with
        | true =>
          obtain ⟨r', d1, d2, d3⟩ := hdel
          rw [if_pos rfl]
          refine ⟨r', d1, d2, er.trans d3 ?_ ?_ ?_⟩
          · rintro j ⟨h1, h2⟩
            rcases Nat.lt_succ_iff_lt_or_eq.1 h1 with h | rfl
            · exact Or.inl ⟨h, h2⟩
            · exact Or.inr rfl
          · rintro j ⟨h1, h2⟩
            exact Or.inl ⟨by omega, h2⟩
          · rintro j rfl
            exact Or.inr hno
        | false =>
          rw [if_neg (by decide)]
          refine ⟨r, rfl, g, er.congr ?_ ?_⟩
          · rintro j ⟨h1, h2⟩
            rcases Nat.lt_succ_iff_lt_or_eq.1 h1 with h | rfl
            · exact Or.inl ⟨h, h2⟩
            · exact Or.inr hno
          · rintro j ⟨h1, h2⟩
            exact Or.inl ⟨by omega, h2⟩
      · have hsame : edgeAt r.2 e = edgeAt m e := er.kept e (by omega)
        unfold centreStep
        rw [toDelete_ok hc hs hfaces centre middle invert er.nodes he er.len hsame hno, Res.ok_bind]
        by_cases hk : KeptByCentre centre middle invert m s e
        · rw [if_neg (by simp [hk])]
          refine ⟨r, rfl, g, er.congr ?_ ?_⟩
          · rintro j ⟨h1, h2⟩
            rcases Nat.lt_succ_iff_lt_or_eq.1 h1 with h | rfl
            · exact Or.inl ⟨h, h2⟩
            · exact absurd hk h2
          · rintro j ⟨h1, h2⟩
            exact Or.inl ⟨by omega, h2⟩
        · obtain ⟨r', d1, d2, d3⟩ := hdel
          rw [if_pos (by simp [hk])]
          refine ⟨r', d1, d2, er.trans d3 ?_ ?_ ?_⟩
          · rintro j ⟨h1, h2⟩
            rcases Nat.lt_succ_iff_lt_or_eq.1 h1 with h | rfl
            · exact Or.inl ⟨h, h2⟩
            · exact Or.inr rfl
          · rintro j ⟨h1, h2⟩
            exact Or.inl ⟨by omega, h2⟩
          · rintro j rfl
            exact Or.inl ⟨by omega, hk⟩)
  have hedges : ∀ j, edgeAt r.2 j = if KeptByCentre centre middle invert m s j then edgeAt m j else noEdge := by
    intro j
    by_cases hk : KeptByCentre centre middle invert m s j
    · rw [r3.kept j (fun h => h.2 hk), if_pos hk]
    · rw [if_neg hk]
      by_cases hj : j < m.edges.length
      · exact r3.gone j ⟨hj, hk⟩
      · rw [r3.kept j (by omega)]
        simp [edgeAt, List.getElem?_eq_none (by omega : m.edges.length ≤ j)]
  obtain ⟨as, m', q1, q2, q3⟩ := finish hs hkn r3.len (by rw [r3.nodes]) hedges (fun i _ => by rw [r3.nodes]) order
  exact ⟨r, (as, m'), r1, q1, r2.trans q2, q3⟩

end Verif.Delete
