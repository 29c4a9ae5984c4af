import Verif.Casulli.FaceLemmas
/-!
# The table of new nodes: which label goes where
-/
namespace Verif.Casulli
open Verif.Mesh Verif.Faces
variable {P : Type} {m : Mesh P} {t : Tables P}

/-! ## Directions -/

theorem FaceOf.forward_iff {s : State} {f : Nat} {ns es : List Nat} (h : FaceOf m s f ns es) {i e : Nat} (he : es[i]? = some e) :
    Forward m s f e ↔ ns[i]? = some (edgeAt m e).1 := by
  constructor
  · rintro ⟨ns', es', j, h1, h2, h3, h4⟩
    rw [h.nodes] at h1
    rw [h.edges] at h2
    obtain rfl := Option.some.inj h1
    obtain rfl := Option.some.inj h2
    have := (List.getElem?_inj (List.getElem?_eq_some_iff.1 he).1 h.proper.edgesDistinct).1 (he.trans h3.symm)
    rw [this]; exact h4
  · intro hn
    exact ⟨ns, es, i, h.nodes, h.edges, he, hn⟩

theorem FaceOf.backward {s : State} {f : Nat} {ns es : List Nat} (h : FaceOf m s f ns es) {i e : Nat} (he : es[i]? = some e)
    (hf : ¬ Forward m s f e) : ns[i]? = some (edgeAt m e).2 := by
  rw [h.forward_iff he] at hf
  obtain ⟨a, b, e', h1, h2, h3, h4, h5, h6, h7⟩ := h.side (i := i) (by rw [← h.proper.len]; exact (List.getElem?_eq_some_iff.1 he).1)
  rw [he] at h3
  obtain rfl := Option.some.inj h3
  rcases h5 with h5 | h5
  · rw [h5] at hf; exact absurd h1 hf
  · rw [h5]; exact h1

/-- What the search for the two sides finds. -/
theorem findSides_spec (e last : Nat) (es : List Nat) (hlt : ∀ x ∈ es, x < m.edges.length) : ∀ (i0 : Nat) (r : Nat × Nat),
    ∃ r', findSides m e last es i0 r = .ok r' ∧
      ((e ∉ es ∧ r'.1 = r.1) ∨ ∃ j : Nat, es[j]? = some e ∧ r'.1 = i0 + j) ∧
      (((∀ x ∈ es, x ≠ e → ¬ touches (edgeAt m x) last) ∧ r'.2 = r.2) ∨
        ∃ (j x : Nat), es[j]? = some x ∧ x ≠ e ∧ touches (edgeAt m x) last ∧ r'.2 = i0 + j) := by
  induction es with
  | nil => intro i0 r; exact ⟨r, rfl, Or.inl ⟨by simp, rfl⟩, Or.inl ⟨by simp, rfl⟩⟩
  | cons x es ih =>
    intro i0 r
    have hx := hlt x (List.mem_cons_self ..)
    have ih' := ih (fun y hy => hlt y (List.mem_cons_of_mem _ hy))
    rw [findSides, vget_edge hx, Res.ok_bind]
    have lift1 : ∀ (q : Nat), (∃ j : Nat, es[j]? = some e ∧ q = i0 + 1 + j) → ∃ j : Nat, (x :: es)[j]? = some e ∧ q = i0 + j := by
      rintro q ⟨j, h1, h2⟩
      exact ⟨j + 1, by simpa using h1, by omega⟩
    have lift2 : ∀ (q : Nat), (∃ (j y : Nat), es[j]? = some y ∧ y ≠ e ∧ touches (edgeAt m y) last ∧ q = i0 + 1 + j) →
        ∃ (j y : Nat), (x :: es)[j]? = some y ∧ y ≠ e ∧ touches (edgeAt m y) last ∧ q = i0 + j := by
      rintro q ⟨j, y, h1, h2, h3, h4⟩
      exact ⟨j + 1, y, by simpa using h1, h2, h3, by omega⟩
    by_cases hxe : x = e
    · subst hxe
      rw [if_pos rfl]
      obtain ⟨r', h1, h2, h3⟩ := ih' (i0 + 1) (i0, r.2)
      refine ⟨r', h1, ?_, ?_⟩
      · right
        rcases h2 with ⟨_, h2⟩ | h2
        · exact ⟨0, rfl, by simpa using h2⟩
        · exact lift1 _ h2
      · rcases h3 with ⟨h3, h4⟩ | h3
        · left
          refine ⟨?_, h4⟩
          intro y hy hne
          rcases List.mem_cons.1 hy with rfl | hy
          · exact absurd rfl hne
          · exact h3 y hy hne
        · exact Or.inr (lift2 _ h3)
    · rw [if_neg hxe]
      by_cases hxt : (edgeAt m x).1 = last ∨ (edgeAt m x).2 = last
      · rw [if_pos hxt]
        obtain ⟨r', h1, h2, h3⟩ := ih' (i0 + 1) (r.1, i0)
        refine ⟨r', h1, ?_, ?_⟩
        · rcases h2 with ⟨h2, h4⟩ | h2
          · left
            refine ⟨?_, h4⟩
            intro hc
            rcases List.mem_cons.1 hc with rfl | hc
            · exact hxe rfl
            · exact h2 hc
          · exact Or.inr (lift1 _ h2)
        · right
          rcases h3 with ⟨_, h4⟩ | h3
          · exact ⟨0, x, rfl, hxe, hxt, by simpa using h4⟩
          · exact lift2 _ h3
      · rw [if_neg hxt]
        obtain ⟨r', h1, h2, h3⟩ := ih' (i0 + 1) r
        refine ⟨r', h1, ?_, ?_⟩
        · rcases h2 with ⟨h2, h4⟩ | h2
          · left
            refine ⟨?_, h4⟩
            intro hc
            rcases List.mem_cons.1 hc with rfl | hc
            · exact hxe rfl
            · exact h2 hc
          · exact Or.inr (lift1 _ h2)
        · rcases h3 with ⟨h3, h4⟩ | h3
          · left
            refine ⟨?_, h4⟩
            intro y hy hne
            rcases List.mem_cons.1 hy with rfl | hy
            · exact hxt
            · exact h3 y hy hne
          · exact Or.inr (lift2 _ h3)

theorem leftOrRight_next {k i : Nat} (hi : i < k) (hk : k ≤ 6) : leftOrRight k (i, (i + 1) % k) = 0 := by
  have h6 : i < 6 := by omega
  have hm : missing = 4294967295 := rfl
  have h0 : (i + 1) % k < k := Nat.mod_lt _ (by omega)
  unfold leftOrRight
  rw [if_neg (show ¬ (i = missing ∨ (i + 1) % k = missing) by omega)]
  rw [if_pos]
  simp only
  rcases Nat.lt_or_ge (i + 1) k with q | q
  · left; rw [Nat.mod_eq_of_lt q]
  · right
    have : i + 1 = k := by omega
    rw [this, Nat.mod_self]; omega

theorem leftOrRight_before {k i : Nat} (hi : i < k) (h3 : 3 ≤ k) (hk : k ≤ 6) : leftOrRight k (i, before k i) = 1 := by
  have hm : missing = 4294967295 := rfl
  have h0 := before_lt hi
  unfold leftOrRight
  rw [if_neg (show ¬ (i = missing ∨ before k i = missing) by omega)]
  have e1 : ¬ (before k i = i + 1 ∨ before k i + k = i + 1) := by unfold before; split <;> omega
  have e2 : i = before k i + 1 ∨ i + k = before k i + 1 := by unfold before; split <;> omega
  simp only
  rw [if_neg e1, if_pos e2]

open Classical in
/-- 0 for a face that runs along the edge, 1 for a face that runs against it. -/
noncomputable def sideOf (m : Mesh P) (s : State) (f e : Nat) : Nat := if Forward m s f e then 0 else 1

theorem sideOf_lt (m : Mesh P) (s : State) (f e : Nat) : sideOf m s f e < 2 := by unfold sideOf; split <;> omega

theorem isLeftOrRight_ok {s : State} {f : Nat} {ns es : List Nat} (h : FaceOf m s f ns es) {e : Nat} (he : e ∈ es) :
    isLeftOrRight m s f e = .ok (sideOf m s f e) := by
  obtain ⟨i, hi, rfl⟩ := List.mem_iff_getElem.1 he
  have he' : es[i]? = some es[i] := List.getElem?_eq_getElem hi
  have hin : i < ns.length := by rw [← h.proper.len]; exact hi
  have h3 := h.proper.atLeast
  have h6 := h.proper.atMost
  have huse := h.used he
  unfold isLeftOrRight
  rw [vget_edge (used_lt huse), Res.ok_bind, vget_eq_ok.2 h.edges, Res.ok_bind, vget_eq_ok.2 h.nodes, Res.ok_bind]
  obtain ⟨r, g1, g2, g3⟩ := findSides_spec (m := m) es[i] (edgeAt m es[i]).2 es (fun x hx => used_lt (h.used hx)) 0 (missing, missing)
  rw [g1, Res.ok_bind]
  have r1 : r.1 = i := by
    rcases g2 with ⟨g2, _⟩ | ⟨j, g2, g4⟩
    · exact absurd he g2
    · have := (List.getElem?_inj (j := j) hi h.proper.edgesDistinct).1 (he'.trans g2.symm)
      omega
  -- where the second node of the edge is
  have key : ∀ {q : Nat}, ns[q]? = some (edgeAt m es[i]).2 → ∀ {q' : Nat}, (q = i ∨ before ns.length q = i) → (q' = q ∨ q' = before ns.length q) →
      q' ≠ i → q' < ns.length → r.2 = q' := by
    intro q hq q' hi' hq' hne hlt
    have hlt' : q' < es.length := by rw [h.proper.len]; exact hlt
    have hq'e : es[q']? = some es[q'] := List.getElem?_eq_getElem hlt'
    have hql : q < ns.length := (List.getElem?_eq_some_iff.1 hq).1
    rcases g3 with ⟨g3, _⟩ | ⟨j, x, g4, g5, g6, g7⟩
    · exfalso
      refine g3 _ (List.mem_of_getElem? hq'e) ?_ ((h.touching hq hq'e).2 hq')
      intro hc
      exact hne ((List.getElem?_inj (j := i) (by rw [h.proper.len]; exact hlt) h.proper.edgesDistinct).1 (by rw [hq'e, he', hc]))
    · have hj := (h.touching hq g4).1 g6
      have hji : j ≠ i := by
        intro hc
        subst hc
        rw [he'] at g4
        exact g5 (Option.some.inj g4).symm
      omega
  congr 1
  unfold sideOf
  split
  · rename_i hf
    rw [h.forward_iff he'] at hf
    obtain ⟨a, b, e', q1, q2, q3, q4, q5, q6, q7⟩ := h.side hin
    rw [he'] at q3
    obtain rfl := Option.some.inj q3
    rw [hf] at q1
    have ha := Option.some.inj q1
    have hb : (edgeAt m es[i]).2 = b := by
      rcases q5 with q5 | q5
      · rw [q5]
      · rw [q5] at ha ⊢; exact ha.symm ▸ rfl
    have hnext : before ns.length ((i + 1) % ns.length) = i := (next_eq (Nat.mod_lt _ (by omega)) hin rfl).symm
    have hne : (i + 1) % ns.length ≠ i := by
      intro hc
      rw [hc] at hnext
      exact before_ne hin (by omega) hnext
    have r2 := key (q := (i + 1) % ns.length) (by rw [hb]; exact q2) (q' := (i + 1) % ns.length) (Or.inr hnext) (Or.inl rfl) hne (Nat.mod_lt _ (by omega))
    have : r = (i, (i + 1) % ns.length) := Prod.ext r1 r2
    rw [this]
    exact leftOrRight_next hin h6
  · rename_i hf
    have hb := h.backward he' hf
    have r2 := key (q := i) hb (q' := before ns.length i) (Or.inl rfl) (Or.inr rfl) (before_ne hin (by omega)) (before_lt hin)
    have : r = (i, before ns.length i) := Prod.ext r1 r2
    rw [this]
    exact leftOrRight_before hin h3 h6

/-- 0 for the first end of the edge, 1 for the second. -/
def endOf (m : Mesh P) (e v : Nat) : Nat := if (edgeAt m e).1 = v then 0 else 1

theorem endOf_lt (m : Mesh P) (e v : Nat) : endOf m e v < 2 := by unfold endOf; split <;> omega

theorem isStartOrEnd_ok {e v : Nat} (hu : e < m.edges.length) (hv : touches (edgeAt m e) v) : isStartOrEnd m e v = .ok (endOf m e v) := by
  unfold isStartOrEnd endOf
  rw [vget_edge hu, Res.ok_bind]
  congr 1
  split
  · rfl
  · rename_i h
    rcases hv with hv | hv
    · exact absurd hv h
    · rw [if_pos hv]

theorem endOf_inj (h : Net m t) {e v w : Nat} (hu : edgeAt m e ≠ noEdge) (hv : touches (edgeAt m e) v) (hw : touches (edgeAt m e) w)
    (he : endOf m e v = endOf m e w) : v = w := by
  have hn := h.noLoop e hu
  unfold endOf at he
  split at he <;> split at he <;> rename_i h1 h2
  · exact h1.symm.trans h2
  · omega
  · omega
  · rcases hv with hv | hv
    · exact absurd hv h1
    · rcases hw with hw | hw
      · exact absurd hw h2
      · exact hv.symm.trans hw

theorem oneMinus_side (m : Mesh P) (s : State) (f e : Nat) : oneMinus (sideOf m s f e) = 1 - sideOf m s f e := by
  unfold sideOf; split <;> rfl

theorem oneMinus_twice (m : Mesh P) (s : State) (f e : Nat) : oneMinus (1 - sideOf m s f e) = sideOf m s f e := by
  unfold sideOf; split <;> rfl

theorem place_eq {se lr : Nat} (h1 : se < 2) (h2 : lr < 2) : place se lr = se + 2 * (1 - lr) := by
  have : (se = 0 ∨ se = 1) ∧ (lr = 0 ∨ lr = 1) := by omega
  rcases this with ⟨rfl | rfl, rfl | rfl⟩ <;> rfl

/-! ## Faces of an edge -/

/-- The faces of an edge, from the table. -/
theorem Net.places (h : Net m t) {e : Nat} (he : e < m.edges.length) : ∃ c p l, t.faces.numFaces[e]? = some c ∧ t.faces.edgesFaces[e]? = some p ∧
    Places c p l ∧ l.Nodup ∧ (∀ f, f ∈ l ↔ Borders t.faces f e) ∧ facesOf t.faces e = .ok l := by
  obtain ⟨cw, hc⟩ := h.faces
  obtain ⟨c, p, l, h1, h2, h3, h4, h5⟩ := hc.faces e he
  refine ⟨c, p, l, h1, h2, h3, h4, h5, ?_⟩
  unfold facesOf
  rw [vget_eq_ok.2 h1, Res.ok_bind, vget_eq_ok.2 h2, Res.ok_bind]
  cases h3 <;> rfl

theorem Net.borders_lt (h : Net m t) {f e : Nat} (hb : Borders t.faces f e) : f < missing := by
  obtain ⟨ns, es, h1, _⟩ := h.face_borders hb
  exact Nat.lt_of_lt_of_le (List.getElem?_eq_some_iff.1 h1.nodes).1 h.few

theorem Net.used (h : Net m t) {f e : Nat} (hb : Borders t.faces f e) : edgeAt m e ≠ noEdge := by
  obtain ⟨ns, es, h1, h2⟩ := h.face_borders hb
  exact h1.used h2

/-- A boundary edge has one face. -/
theorem Net.rim (h : Net m t) {e : Nat} (hr : Rim t.faces e) : edgeAt m e ≠ noEdge ∧ ∃ f, Borders t.faces f e ∧ ∀ g, Borders t.faces g e → g = f := by
  obtain ⟨cw, hc⟩ := h.faces
  have he : e < m.edges.length := by rw [← hc.numFaces]; exact (List.getElem?_eq_some_iff.1 hr).1
  obtain ⟨c, p, l, h1, h2, h3, h4, h5, _⟩ := h.places he
  rw [hr] at h1
  obtain rfl := Option.some.inj h1
  cases h3 with
  | one f =>
    have hb : Borders t.faces f e := (h5 f).1 (by simp)
    exact ⟨h.used hb, f, hb, fun g hg => by simpa using (h5 g).2 hg⟩

/-- An edge that is no boundary edge has two faces. -/
theorem Net.inner (h : Net m t) {e : Nat} (hu : edgeAt m e ≠ noEdge) (hr : ¬ Rim t.faces e) : t.faces.numFaces[e]? = some 2 ∧
    ∃ f g, f ≠ g ∧ Borders t.faces f e ∧ Borders t.faces g e ∧ ∀ k, Borders t.faces k e → k = f ∨ k = g := by
  obtain ⟨c, p, l, h1, h2, h3, h4, h5, _⟩ := h.places (used_lt hu)
  cases h3 with
  | none => exact absurd h1 (h.faced e hu)
  | one f => exact absurd h1 hr
  | two f g =>
    refine ⟨h1, f, g, ?_, (h5 f).1 (by simp), (h5 g).1 (by simp), fun k hk => by simpa using (h5 k).2 hk⟩
    simpa using h4

theorem commonFace_ok {l1 l2 : List Nat} {f : Nat} (h1 : f ∈ l1) (h2 : f ∈ l2) (hu : ∀ g, g ∈ l1 → g ∈ l2 → g = f) : commonFace l1 l2 = f := by
  unfold commonFace
  cases h : l1.find? (fun g => l2.contains g) with
  | none =>
    rw [List.find?_eq_none] at h
    have := h f h1
    simp [h2] at this
  | some g =>
    have a := List.mem_of_find?_eq_some h
    have b := List.find?_some h
    exact hu g a (by simpa using b)

/-! ## Whose number is in which place -/

/-- The number of the label belongs in place `k` of edge `e`. -/
inductive Owns (m : Mesh P) (s : State) : Label → Nat → Nat → Prop
  | inside (f e v : Nat) : Borders s f e → touches (edgeAt m e) v → Owns m s (.inside f v) e (endOf m e v + 2 * (1 - sideOf m s f e))
  | along (f e v : Nat) : Rim s e → Borders s f e → touches (edgeAt m e) v → Owns m s (.along e v) e (endOf m e v + 2 * sideOf m s f e)

theorem sideOf_opposite (h : Net m t) {f g e : Nat} (hfg : f ≠ g) (h1 : Borders t.faces f e) (h2 : Borders t.faces g e) :
    sideOf m t.faces f e = 1 - sideOf m t.faces g e := by
  have := h.opposite f g e hfg h1 h2
  unfold sideOf
  by_cases hf : Forward m t.faces f e
  · rw [if_pos hf, if_neg (this.1 hf)]
  · rw [if_neg hf, if_pos (by_contra fun hg => hf (this.2 hg))]

theorem Owns.lt {s : State} {x : Label} {e k : Nat} (h : Owns m s x e k) : k < 4 := by
  cases h with
  | inside f e v h1 h2 => have := endOf_lt m e v; have := sideOf_lt m s f e; omega
  | along f e v h1 h2 h3 => have := endOf_lt m e v; have := sideOf_lt m s f e; omega

theorem Owns.used (h : Net m t) {x : Label} {e k : Nat} (ho : Owns m t.faces x e k) : edgeAt m e ≠ noEdge := by
  cases ho with
  | inside f e v h1 h2 => exact h.used h1
  | along f e v h1 h2 h3 => exact h.used h2

/-- A place belongs to one label. -/
theorem Owns.unique (h : Net m t) {x y : Label} {e k k' : Nat} (hx : Owns m t.faces x e k) (hy : Owns m t.faces y e k') (hk : k = k') : x = y := by
  have hu := hx.used h
  cases hx with
  | inside f e v h1 h2 =>
    have a1 := endOf_lt m e v
    have a2 := sideOf_lt m t.faces f e
    cases hy with
    | inside g e w h3 h4 =>
      have b1 := endOf_lt m e w
      have b2 := sideOf_lt m t.faces g e
      have hvw := endOf_inj h hu h2 h4 (by omega)
      by_cases hfg : f = g
      · rw [hfg, hvw]
      · have := sideOf_opposite h hfg h1 h3
        omega
    | along g e w h3 h4 h5 =>
      have b1 := endOf_lt m e w
      obtain ⟨_, f0, q1, q2⟩ := h.rim h3
      obtain rfl := q2 f h1
      obtain rfl := q2 g h4
      omega
  | along f e v h1 h2 h3 =>
    have a1 := endOf_lt m e v
    have a2 := sideOf_lt m t.faces f e
    obtain ⟨_, f0, q1, q2⟩ := h.rim h1
    obtain rfl := q2 f h2
    cases hy with
    | inside g e w h4 h5 =>
      have b1 := endOf_lt m e w
      obtain rfl := q2 g h4
      omega
    | along g e w h4 h5 h6 =>
      have b1 := endOf_lt m e w
      obtain rfl := q2 g h5
      have hvw := endOf_inj h hu h3 h6 (by omega)
      rw [hvw]

end Verif.Casulli
