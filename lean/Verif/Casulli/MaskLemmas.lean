import Verif.Casulli.RemoveLemmas
/-!
# The mask of the nodes
-/
namespace Verif.Casulli
open Verif.Mesh Verif.Faces
variable {P : Type} {mid : P → P → P} {m : Mesh P} {t : Tables P}

/-- The mask in memory. -/
def maskOf (N : Nat) (g : Nat → Mask) : List Mask := (List.range N).map g ++ List.replicate (9 * N) .unassigned

theorem maskOf_get {N n : Nat} (g : Nat → Mask) (h : n < N) : vget (maskOf N g) n = .ok (g n) := by
  rw [vget_eq_ok, maskOf, List.getElem?_append_left (by simpa using h)]
  simp [h]

theorem maskOf_set {N n : Nat} (g : Nat → Mask) (a : Mask) (h : n < N) :
    vset (maskOf N g) n a = .ok (maskOf N (fun k => if k = n then a else g k)) := by
  rw [vset_ok _ (by simp [maskOf]; omega)]
  congr 1
  unfold maskOf
  rw [List.set_append_left _ _ (by simpa using h)]
  congr 1
  apply List.ext_getElem?
  intro k
  rw [List.getElem?_set]
  simp only [List.getElem?_map, List.length_map, List.length_range]
  by_cases hk : n = k
  · subst hk; simp [h]
  · rw [if_neg hk]
    by_cases hkN : k < N
    · simp [hkN, Ne.symm hk]
    · simp [hkN]

theorem maskOf_congr {N : Nat} {g g' : Nat → Mask} (h : ∀ n, n < N → g n = g' n) : maskOf N g = maskOf N g' := by
  unfold maskOf
  congr 1
  apply List.map_congr_left
  intro n hn
  exact h n (by simpa using hn)

/-! ## Boundary nodes -/

open Classical in
/-- The mask after the edges before `k`. -/
noncomputable def mark1 (m : Mesh P) (s : State) (sel : Nat → Bool) (k n : Nat) : Mask :=
  if sel n then (if ∃ e, e < k ∧ Rim s e ∧ touches (edgeAt m e) n then .boundary else .registered) else .unassigned

theorem mark1_congr {s : State} {sel : Nat → Bool} {k k' n : Nat} (h : (∃ e, e < k ∧ Rim s e ∧ touches (edgeAt m e) n) ↔
    ∃ e, e < k' ∧ Rim s e ∧ touches (edgeAt m e) n) : mark1 m s sel k n = mark1 m s sel k' n := by
  unfold mark1
  by_cases hc : ∃ e, e < k ∧ Rim s e ∧ touches (edgeAt m e) n
  · rw [if_pos hc, if_pos (h.1 hc)]
  · rw [if_neg hc, if_neg (fun q => hc (h.2 q))]

theorem markBoundary_ok {N n : Nat} (g : Nat → Mask) (h : n < N) :
    markBoundary n (maskOf N g) = .ok (maskOf N (fun k => if k = n ∧ g n ≠ .unassigned then .boundary else g k)) := by
  unfold markBoundary
  rw [maskOf_get g h, Res.ok_bind]
  by_cases hg : g n = .unassigned
  · rw [if_neg (by simpa using hg)]
    congr 1
    exact maskOf_congr fun k _ => by simp [hg]
  · rw [if_pos hg, maskOf_set g _ h]
    congr 1
    exact maskOf_congr fun k _ => by simp [hg]

theorem Net.numFaces_get (h : Net m t) {e : Nat} (he : e < m.edges.length) : ∃ c, vget t.faces.numFaces e = .ok c ∧ (c = 1 ↔ Rim t.faces e) := by
  obtain ⟨c, _, _, h1, _⟩ := h.places he
  exact ⟨c, vget_eq_ok.2 h1, by rw [Rim, h1]; simp⟩

theorem boundaryEdge_ok (h : Net m t) (sel : Nat → Bool) {e : Nat} (he : e < m.edges.length) :
    boundaryEdge m t.faces e (maskOf m.nodes.length (mark1 m t.faces sel e)) = .ok (maskOf m.nodes.length (mark1 m t.faces sel (e + 1))) := by
  obtain ⟨c, c1, c2⟩ := h.numFaces_get he
  unfold boundaryEdge getEdge
  rw [edges_some he]
  simp only [Res.ok_bind]
  rw [c1, Res.ok_bind]
  by_cases hr : Rim t.faces e
  · rw [if_pos (c2.2 hr)]
    have hu := (h.rim hr).1
    have l1 := h.touch_lt hu (Or.inl rfl)
    have l2 := h.touch_lt hu (Or.inr rfl)
    rw [markBoundary_ok _ l1, Res.ok_bind, markBoundary_ok _ l2]
    congr 1
    apply maskOf_congr
    intro k _
    have hex : (∃ e', e' < e + 1 ∧ Rim t.faces e' ∧ touches (edgeAt m e') k) ↔
        (∃ e', e' < e ∧ Rim t.faces e' ∧ touches (edgeAt m e') k) ∨ touches (edgeAt m e) k := by
      constructor
      · rintro ⟨e', a1, a2, a3⟩
        by_cases hee : e' = e
        · subst hee; exact Or.inr a3
        · exact Or.inl ⟨e', by omega, a2, a3⟩
      · rintro (⟨e', a1, a2, a3⟩ | a3)
        · exact ⟨e', by omega, a2, a3⟩
        · exact ⟨e, by omega, hr, a3⟩
    have h1 : (mark1 m t.faces sel e k ≠ .unassigned) ↔ sel k = true := by
      unfold mark1
      cases sel k <;> simp
      split <;> simp
    by_cases hk1 : k = (edgeAt m e).1
    · subst hk1
      by_cases hs : sel (edgeAt m e).1 = true
      · have hm1 := h1.2 hs
        have hres : mark1 m t.faces sel (e + 1) (edgeAt m e).1 = .boundary := by
          unfold mark1
          rw [if_pos hs, if_pos (hex.2 (Or.inr (Or.inl rfl)))]
        rw [hres]
        simp [hm1]
      · have hs' : sel (edgeAt m e).1 = false := by simpa using hs
        have hz : ∀ k', mark1 m t.faces sel k' (edgeAt m e).1 = .unassigned := fun k' => by unfold mark1; simp [hs']
        simp only [hz]
        by_cases hq : (edgeAt m e).1 = (edgeAt m e).2
        · exact absurd hq (h.noLoop e hu)
        · simp [hq]
    · by_cases hk2 : k = (edgeAt m e).2
      · subst hk2
        by_cases hs : sel (edgeAt m e).2 = true
        · have hm1 := h1.2 hs
          have hres : mark1 m t.faces sel (e + 1) (edgeAt m e).2 = .boundary := by
            unfold mark1
            rw [if_pos hs, if_pos (hex.2 (Or.inr (Or.inr rfl)))]
          rw [hres]
          simp [hm1, hk1]
        · have hs' : sel (edgeAt m e).2 = false := by simpa using hs
          have hz : ∀ k', mark1 m t.faces sel k' (edgeAt m e).2 = .unassigned := fun k' => by unfold mark1; simp [hs']
          simp [hz, hk1]
      · have hres : mark1 m t.faces sel (e + 1) k = mark1 m t.faces sel e k := by
          have : (∃ e', e' < e + 1 ∧ Rim t.faces e' ∧ touches (edgeAt m e') k) ↔ (∃ e', e' < e ∧ Rim t.faces e' ∧ touches (edgeAt m e') k) := by
            rw [hex]
            constructor
            · rintro (a | a | a)
              · exact a
              · exact absurd a.symm hk1
              · exact absurd a.symm hk2
            · exact Or.inl
          exact mark1_congr this
        rw [hres]
        simp [hk1, hk2]
  · rw [if_neg (fun hc => hr (c2.1 hc))]
    congr 1
    apply maskOf_congr
    intro k _
    have : (∃ e', e' < e + 1 ∧ Rim t.faces e' ∧ touches (edgeAt m e') k) ↔ (∃ e', e' < e ∧ Rim t.faces e' ∧ touches (edgeAt m e') k) := by
      constructor
      · rintro ⟨e', a1, a2, a3⟩
        refine ⟨e', ?_, a2, a3⟩
        have : e' ≠ e := fun hc => hr (hc ▸ a2)
        omega
      · rintro ⟨e', a1, a2, a3⟩
        exact ⟨e', by omega, a2, a3⟩
    exact (mark1_congr this).symm

/-! ## Corners of faces -/

/-- The search gives the other edge at the node. -/
theorem otherSide_ok {n e1 e2 : Nat} {es : List Nat} (hlt : ∀ x ∈ es, x < m.edges.length) (h2 : e2 ∈ es) (hne : e2 ≠ e1)
    (ht : touches (edgeAt m e2) n) (hu : ∀ x ∈ es, touches (edgeAt m x) n → x = e1 ∨ x = e2) :
    ∀ (r k : Nat), k + r + 1 = es.length → (∀ i : Nat, i < k → es[i]? ≠ some e2) → otherSide m n e1 es r k = .ok e2 := by
  intro r
  induction r with
  | zero =>
    intro k hk hbefore
    have hkl : k < es.length := by omega
    have he : es[k] = e2 := by
      obtain ⟨i, hi, hie⟩ := List.mem_iff_getElem.1 h2
      by_cases hik : i < k
      · exact absurd (by rw [List.getElem?_eq_getElem hi, hie]) (hbefore i hik)
      · have : i = k := by omega
        subst this; exact hie
    simp only [otherSide, getEdge]
    rw [vget_ok hkl, Res.ok_bind, he, edges_some (hlt _ h2)]
    rfl
  | succ r ih =>
    intro k hk hbefore
    have hkl : k < es.length := by omega
    have hmem : es[k] ∈ es := List.getElem_mem hkl
    simp only [otherSide, getEdge]
    rw [vget_ok hkl, Res.ok_bind, edges_some (hlt _ hmem)]
    simp only [Res.ok_bind]
    by_cases he : es[k] = e2
    · rw [he, if_neg]
      rintro (hc | hc)
      · rcases ht with q | q
        · exact hc.1 q
        · exact hc.2 q
      · exact hne hc
    · have hcond : ((edgeAt m es[k]).1 ≠ n ∧ (edgeAt m es[k]).2 ≠ n) ∨ es[k] = e1 := by
        by_cases hc : touches (edgeAt m es[k]) n
        · rcases hu _ hmem hc with q | q
          · exact Or.inr q
          · exact absurd q he
        · exact Or.inl ⟨fun q => hc (Or.inl q), fun q => hc (Or.inr q)⟩
      rw [if_pos hcond]
      refine ih (k + 1) (by omega) ?_
      intro i hi
      by_cases hik : i = k
      · subst hik
        rw [List.getElem?_eq_getElem hkl]
        simpa using he
      · exact hbefore i (by omega)

open Classical in
theorem cornerAt_ok (h : Net m t) {n : Nat} (hn : n < m.nodes.length) (g : Nat → Mask) (hg : 2 ≤ (g n).rank) : ∀ l : List Nat,
    (∀ e ∈ l, edgeAt m e ≠ noEdge ∧ touches (edgeAt m e) n) →
    cornerAt m t.faces n l (maskOf m.nodes.length g) = .ok (maskOf m.nodes.length (fun k => if k = n ∧ g n ≠ .unassigned ∧
      (∃ e ∈ l, Rim t.faces e ∧ ∃ f e', e ≠ e' ∧ Rim t.faces e' ∧ Borders t.faces f e ∧ Borders t.faces f e' ∧ touches (edgeAt m e') n) then .corner else g k)) := by
  intro l
  induction l with
  | nil =>
    intro _
    rw [cornerAt]
    congr 1
    exact maskOf_congr fun k _ => by simp
  | cons e1 l ih =>
    intro hl
    obtain ⟨hu, ht⟩ := hl e1 (by simp)
    have hlt := used_lt hu
    have hl' : ∀ e ∈ l, edgeAt m e ≠ noEdge ∧ touches (edgeAt m e) n := fun e he => hl e (by simp [he])
    obtain ⟨c, c1, c2⟩ := h.numFaces_get hlt
    rw [cornerAt, c1, Res.ok_bind]
    by_cases hr : Rim t.faces e1
    · rw [if_neg (by simpa using c2.2 hr)]
      obtain ⟨_, p, ls, q1, q2, q3, _, q5, _⟩ := h.places hlt
      rw [hr] at q1
      obtain rfl := Option.some.inj q1
      cases q3 with
      | one f =>
        have hb : Borders t.faces f e1 := (q5 f).1 (by simp)
        have hone : ∀ g, Borders t.faces g e1 → g = f := fun g hg => by simpa using (q5 g).2 hg
        obtain ⟨ns, es, hf, hes⟩ := h.face_borders hb
        rw [vget_eq_ok.2 q2, Res.ok_bind]
        simp only
        rw [vget_eq_ok.2 hf.nodes, Res.ok_bind, vget_eq_ok.2 hf.edges, Res.ok_bind]
        -- the other edge
        obtain ⟨e2, hne, he2, ht2, honly⟩ : ∃ e2, e1 ≠ e2 ∧ e2 ∈ es ∧ touches (edgeAt m e2) n ∧
            ∀ x ∈ es, touches (edgeAt m x) n → x = e1 ∨ x = e2 := by
          obtain ⟨a, b, w1, w2, w3, w4, w5, w6⟩ := hf.two (hf.corner hes ht)
          rcases w6 e1 hes ht with rfl | rfl
          · exact ⟨b, w1, w3, w5, w6⟩
          · exact ⟨a, Ne.symm w1, w2, w4, fun x hx hxt => (w6 x hx hxt).symm⟩
        have h3 := hf.proper.atLeast
        have hlen := hf.proper.len
        rw [otherSide_ok (fun x hx => used_lt (hf.used hx)) he2 (Ne.symm hne) ht2 honly (ns.length - 1) 0 (by omega) (fun i hi => by omega), Res.ok_bind]
        obtain ⟨d, d1, d2⟩ := h.numFaces_get (used_lt (hf.used he2))
        rw [d1, Res.ok_bind, maskOf_get g hn, Res.ok_bind]
        have hb2 : Borders t.faces f e2 := ⟨es, hf.edges, he2⟩
        have hrank : (g n).rank > Mask.unassigned.rank ↔ g n ≠ .unassigned := by
          revert hg
          cases g n <;> simp [Mask.rank]
        by_cases hcond : d = 1 ∧ (g n).rank > Mask.unassigned.rank
        · rw [if_pos hcond, maskOf_set g _ hn]
          congr 1
          apply maskOf_congr
          intro k _
          have : g n ≠ .unassigned ∧ (∃ e ∈ e1 :: l, Rim t.faces e ∧ ∃ f e', e ≠ e' ∧ Rim t.faces e' ∧ Borders t.faces f e ∧ Borders t.faces f e' ∧
              touches (edgeAt m e') n) := ⟨hrank.1 hcond.2, e1, by simp, hr, f, e2, hne, d2.1 hcond.1, hb, hb2, ht2⟩
          by_cases hk : k = n
          · rw [if_pos hk, if_pos ⟨hk, this⟩]
          · rw [if_neg hk, if_neg (fun hc => hk hc.1)]
        · rw [if_neg hcond, ih hl']
          congr 1
          apply maskOf_congr
          intro k _
          have : (k = n ∧ g n ≠ .unassigned ∧ (∃ e ∈ l, Rim t.faces e ∧ ∃ f e', e ≠ e' ∧ Rim t.faces e' ∧ Borders t.faces f e ∧ Borders t.faces f e' ∧
              touches (edgeAt m e') n)) ↔ (k = n ∧ g n ≠ .unassigned ∧ (∃ e ∈ e1 :: l, Rim t.faces e ∧ ∃ f e', e ≠ e' ∧ Rim t.faces e' ∧
              Borders t.faces f e ∧ Borders t.faces f e' ∧ touches (edgeAt m e') n)) := by
            constructor
            · rintro ⟨a1, a2, e, a3, a4⟩
              exact ⟨a1, a2, e, by simp [a3], a4⟩
            · rintro ⟨a1, a2, e, a3, a4, f', e', a5, a6, a7, a8, a9⟩
              rcases List.mem_cons.1 a3 with rfl | a3
              · exfalso
                obtain rfl := hone f' a7
                obtain ⟨es', b1, b2⟩ := a8
                rw [hf.edges] at b1
                obtain rfl := Option.some.inj b1
                rcases honly e' b2 a9 with q | q
                · exact a5 q.symm
                · rw [q] at a6
                  exact hcond ⟨d2.2 a6, hrank.2 a2⟩
              · exact ⟨a1, a2, e, a3, a4, f', e', a5, a6, a7, a8, a9⟩
          simp only [this]
    · rw [if_pos (fun hc => hr (c2.1 hc)), ih hl']
      congr 1
      apply maskOf_congr
      intro k _
      have : (∃ e ∈ e1 :: l, Rim t.faces e ∧ ∃ f e', e ≠ e' ∧ Rim t.faces e' ∧ Borders t.faces f e ∧ Borders t.faces f e' ∧
          touches (edgeAt m e') n) ↔ (∃ e ∈ l, Rim t.faces e ∧ ∃ f e', e ≠ e' ∧ Rim t.faces e' ∧ Borders t.faces f e ∧ Borders t.faces f e' ∧
          touches (edgeAt m e') n) := by
        constructor
        · rintro ⟨e, a3, a4, a5⟩
          rcases List.mem_cons.1 a3 with rfl | a3
          · exact absurd a4 hr
          · exact ⟨e, a3, a4, a5⟩
        · rintro ⟨e, a3, a4⟩
          exact ⟨e, by simp [a3], a4⟩
      simp only [this]

open Classical in
/-- The mask after the corners of faces of the nodes before `k`. -/
noncomputable def mark2 (m : Mesh P) (s : State) (g : Nat → Mask) (k n : Nat) : Mask :=
  if n < k ∧ g n ≠ .unassigned ∧ FaceCorner m s n then .corner else g n

theorem cornerNode_ok (h : Net m t) (g : Nat → Mask) (hg : ∀ n, 2 ≤ (g n).rank) {n : Nat} (hn : n < m.nodes.length) :
    cornerNode m t.faces n (maskOf m.nodes.length (mark2 m t.faces g n)) = .ok (maskOf m.nodes.length (mark2 m t.faces g (n + 1))) := by
  unfold cornerNode
  have hself : mark2 m t.faces g n n = g n := by unfold mark2; rw [if_neg (by omega)]
  rw [listedEdges_ok h.wf hn, Res.ok_bind, cornerAt_ok h hn _ (by rw [hself]; exact hg n) _ (fun e he => h.listed.1 he)]
  congr 1
  apply maskOf_congr
  intro k _
  have hiff : (∃ e ∈ listAt m n, Rim t.faces e ∧ ∃ f e', e ≠ e' ∧ Rim t.faces e' ∧ Borders t.faces f e ∧ Borders t.faces f e' ∧
      touches (edgeAt m e') n) ↔ FaceCorner m t.faces n := by
    constructor
    · rintro ⟨e, a1, a2, f, e', a3, a4, a5, a6, a7⟩
      exact ⟨f, e, e', a3, a2, a4, a5, a6, (h.listed.1 a1).2, a7⟩
    · rintro ⟨f, e, e', a3, a2, a4, a5, a6, a8, a7⟩
      exact ⟨e, h.listed.2 ⟨h.used a5, a8⟩, a2, f, e', a3, a4, a5, a6, a7⟩
  rw [hself]
  by_cases hk : k = n
  · subst hk
    rw [hself]
    unfold mark2
    by_cases hc : g k ≠ .unassigned ∧ FaceCorner m t.faces k
    · rw [if_pos ⟨rfl, hc.1, hiff.2 hc.2⟩, if_pos ⟨by omega, hc⟩]
    · rw [if_neg (fun q => hc ⟨q.2.1, hiff.1 q.2.2⟩), if_neg (fun q => hc q.2)]
  · rw [if_neg (fun q => hk q.1)]
    unfold mark2
    by_cases hc : k < n ∧ g k ≠ .unassigned ∧ FaceCorner m t.faces k
    · rw [if_pos hc, if_pos ⟨by omega, hc.2⟩]
    · rw [if_neg hc, if_neg (fun q => hc ⟨by omega, q.2⟩)]

/-! ## Types -/

/-- The mask after the types of the nodes before `k`. -/
def mark3 (types : List Int) (g : Nat → Mask) (k n : Nat) : Mask := if n < k ∧ g n ≠ .unassigned ∧ types[n]? = some 3 then .corner else g n

theorem cornerType_ok {types : List Int} {N : Nat} (ht : types.length = N) (g : Nat → Mask) {n : Nat} (hn : n < N) :
    cornerType types n (maskOf N (mark3 types g n)) = .ok (maskOf N (mark3 types g (n + 1))) := by
  have hself : mark3 types g n n = g n := by unfold mark3; rw [if_neg (by omega)]
  have hnt : n < types.length := by omega
  have hother : ∀ k, k ≠ n → mark3 types g (n + 1) k = mark3 types g n k := by
    intro k hk
    have : k < n + 1 ↔ k < n := by omega
    unfold mark3
    simp only [this]
  unfold cornerType
  rw [maskOf_get _ hn, Res.ok_bind, hself, vget_ok hnt]
  simp only [Res.ok_bind]
  by_cases hg : g n ≠ .unassigned
  · rw [if_pos hg]
    by_cases h3 : types[n] = 3
    · rw [if_pos h3, maskOf_set _ _ hn]
      congr 1
      apply maskOf_congr
      intro k _
      by_cases hk : k = n
      · subst hk
        rw [if_pos rfl]
        unfold mark3
        rw [if_pos ⟨by omega, hg, by rw [List.getElem?_eq_getElem hnt, h3]⟩]
      · rw [if_neg hk, hother k hk]
    · rw [if_neg h3]
      congr 1
      apply maskOf_congr
      intro k _
      by_cases hk : k = n
      · subst hk
        rw [hself]
        unfold mark3
        rw [if_neg]
        rintro ⟨_, _, q⟩
        rw [List.getElem?_eq_getElem hnt] at q
        exact h3 (Option.some.inj q)
      · rw [hother k hk]
  · rw [if_neg hg]
    congr 1
    apply maskOf_congr
    intro k _
    by_cases hk : k = n
    · subst hk
      rw [hself]
      unfold mark3
      rw [if_neg (fun q => hg q.2.1)]
    · rw [hother k hk]

/-! ## Faces around nodes -/

theorem facesConnected_ok (h : Net m t) {n : Nat} (hn : n < m.nodes.length) : ∃ fs, facesConnected t.faces t.types n (listAt m n) = .ok fs := by
  unfold facesConnected
  rw [vget_ok (by rw [h.types]; exact hn), Res.ok_bind]
  have hlt : ∀ j (hj : j < (listAt m n).length), (listAt m n)[j] < m.edges.length := fun j hj => used_lt (h.listed.1 (List.getElem_mem hj)).1
  obtain ⟨r, r1, _⟩ := forRange_inv (f := sharedFace t.faces (listAt m n) (t.types[n]'(by rw [h.types]; exact hn))) (fun _ (_ : Nat × List Nat) => True)
    (Nat.zero_le (listAt m n).length) (s := (missing, [])) trivial (by
      intro j st _ hj _
      have hj2 : (if j + 1 ≥ (listAt m n).length then 0 else j + 1) < (listAt m n).length := by split <;> omega
      obtain ⟨a1, p1, _, u1, v1, _⟩ := h.places (hlt j hj)
      obtain ⟨a2, p2, _, u2, v2, _⟩ := h.places (hlt _ hj2)
      unfold sharedFace
      rw [vget_ok hj, Res.ok_bind, vget_ok hj2, Res.ok_bind, vget_eq_ok.2 u1, Res.ok_bind, vget_eq_ok.2 u2, Res.ok_bind]
      split
      · exact ⟨_, rfl, trivial⟩
      · rw [vget_eq_ok.2 v1, Res.ok_bind, vget_eq_ok.2 v2, Res.ok_bind]
        exact ⟨_, rfl, trivial⟩)
  rw [r1]
  exact ⟨r.2, rfl⟩

/-- The mask after the faces around the nodes before `k`. -/
def mark4 (m : Mesh P) (t : Tables P) (g : Nat → Mask) (k n : Nat) : Mask :=
  if n < k ∧ g n ≠ .unassigned then (if (listAt m n).length > 1 then faceMask (listAt m n).length (facesAt m t n) (g n) else .unassigned) else g n

theorem faceNode_ok (h : Net m t) (g : Nat → Mask) {n : Nat} (hn : n < m.nodes.length) :
    faceNode m t.faces t.types n (maskOf m.nodes.length (mark4 m t g n)) = .ok (maskOf m.nodes.length (mark4 m t g (n + 1))) := by
  have hself : mark4 m t g n n = g n := by unfold mark4; rw [if_neg (by omega)]
  have hother : ∀ k, k ≠ n → mark4 m t g (n + 1) k = mark4 m t g n k := by
    intro k hk
    have : k < n + 1 ↔ k < n := by omega
    unfold mark4
    simp only [this]
  unfold faceNode
  rw [maskOf_get _ hn, Res.ok_bind, hself]
  by_cases hg : g n = .unassigned
  · rw [if_pos hg]
    congr 1
    apply maskOf_congr
    intro k _
    by_cases hk : k = n
    · subst hk
      rw [hself]
      unfold mark4
      rw [if_neg (fun q => q.2 hg)]
    · rw [hother k hk]
  · rw [if_neg hg, listedEdges_ok h.wf hn, Res.ok_bind]
    by_cases hd : (listAt m n).length > 1
    · rw [if_pos hd]
      obtain ⟨fs, hfs⟩ := facesConnected_ok h hn
      rw [hfs, Res.ok_bind, maskOf_set _ _ hn]
      have hat : facesAt m t n = fs.countP (· ≠ missing) := by unfold facesAt; rw [hfs]
      congr 1
      apply maskOf_congr
      intro k _
      by_cases hk : k = n
      · subst hk
        rw [if_pos rfl]
        unfold mark4
        rw [if_pos ⟨by omega, hg⟩, if_pos hd, hat]
      · rw [if_neg hk, hother k hk]
    · rw [if_neg hd, maskOf_set _ _ hn]
      congr 1
      apply maskOf_congr
      intro k _
      by_cases hk : k = n
      · subst hk
        rw [if_pos rfl]
        unfold mark4
        rw [if_pos ⟨by omega, hg⟩, if_neg hd]
      · rw [if_neg hk, hother k hk]

/-! ## All of the mask -/

open Classical in
theorem initialMask_ok (h : Net m t) (sel : Nat → Bool) :
    initialMask m t sel = .ok (masks m t sel ++ List.replicate (9 * m.nodes.length) .unassigned) := by
  set N := m.nodes.length with hN
  have e0 : ((List.range N).map (fun i => if sel i then Mask.registered else .unassigned) ++ List.replicate (9 * N) .unassigned) =
      maskOf N (mark1 m t.faces sel 0) := by
    refine maskOf_congr (g := fun i => if sel i then Mask.registered else .unassigned) ?_
    intro n _
    unfold mark1
    rw [if_neg (show ¬ ∃ e, e < 0 ∧ Rim t.faces e ∧ touches (edgeAt m e) n from fun ⟨e, he, _⟩ => absurd he (Nat.not_lt_zero _))]
  obtain ⟨_, a1, rfl⟩ := forRange_inv (f := boundaryEdge m t.faces) (fun i (x : List Mask) => x = maskOf N (mark1 m t.faces sel i)) (Nat.zero_le m.edges.length)
    (s := maskOf N (mark1 m t.faces sel 0)) rfl (fun i x _ hi hx => ⟨_, by rw [hx]; exact boundaryEdge_ok h sel hi, rfl⟩)
  set g1 := mark1 m t.faces sel m.edges.length with hg1
  have hrank : ∀ n, 2 ≤ (g1 n).rank := by
    intro n
    rw [hg1]
    unfold mark1
    split
    · split <;> simp [Mask.rank]
    · simp [Mask.rank]
  have b0 : maskOf N g1 = maskOf N (mark2 m t.faces g1 0) := maskOf_congr fun n _ => by unfold mark2; rw [if_neg (by omega)]
  obtain ⟨_, b1, rfl⟩ := forRange_inv (f := cornerNode m t.faces) (fun i (x : List Mask) => x = maskOf N (mark2 m t.faces g1 i)) (Nat.zero_le N)
    (s := maskOf N g1) b0 (fun i x _ hi hx => ⟨_, by rw [hx]; exact cornerNode_ok h g1 hrank hi, rfl⟩)
  set g2 := mark2 m t.faces g1 N with hg2
  have c0 : maskOf N g2 = maskOf N (mark3 t.types g2 0) := maskOf_congr fun n _ => by unfold mark3; rw [if_neg (by omega)]
  obtain ⟨_, c1, rfl⟩ := forRange_inv (f := cornerType t.types) (fun i (x : List Mask) => x = maskOf N (mark3 t.types g2 i)) (Nat.zero_le N)
    (s := maskOf N g2) c0 (fun i x _ hi hx => ⟨_, by rw [hx]; exact cornerType_ok h.types g2 hi, rfl⟩)
  set g3 := mark3 t.types g2 N with hg3
  have d0 : maskOf N g3 = maskOf N (mark4 m t g3 0) := maskOf_congr fun n _ => by unfold mark4; rw [if_neg (by omega)]
  obtain ⟨_, d1, rfl⟩ := forRange_inv (f := faceNode m t.faces t.types) (fun i (x : List Mask) => x = maskOf N (mark4 m t g3 i)) (Nat.zero_le N)
    (s := maskOf N g3) d0 (fun i x _ hi hx => ⟨_, by rw [hx]; exact faceNode_ok h g3 hi, rfl⟩)
  unfold initialMask
  simp only
  rw [← hN, e0, a1, Res.ok_bind, b1, Res.ok_bind, c1, Res.ok_bind, d1]
  have hfin : ∀ n, n < N → mark4 m t g3 N n = nodeMask m t sel n := by
    intro n hn
    have hrim : (∃ e, e < m.edges.length ∧ Rim t.faces e ∧ touches (edgeAt m e) n) ↔ OnRim m t.faces n := by
      constructor
      · rintro ⟨e, _, a⟩; exact ⟨e, a⟩
      · rintro ⟨e, a⟩; exact ⟨e, used_lt (h.rim a.1).1, a⟩
    have hfc : FaceCorner m t.faces n → OnRim m t.faces n := fun ⟨_, e, _, _, a, _, _, _, b, _⟩ => ⟨e, a, b⟩
    have hg : g3 n = if sel n = true then (if t.types[n]? = some 3 ∨ FaceCorner m t.faces n then .corner else if OnRim m t.faces n then .boundary
        else .registered) else .unassigned := by
      rw [hg3, mark3, hg2, mark2, hg1, mark1]
      by_cases hs : sel n = true
      · by_cases hR : OnRim m t.faces n
        · by_cases hF : FaceCorner m t.faces n <;> by_cases hT : t.types[n]? = some 3 <;> simp [hs, hrim.2 hR, hF, hT, hR, hn]
        · have hF : ¬ FaceCorner m t.faces n := fun q => hR (hfc q)
          have hR' : ¬ ∃ e, e < m.edges.length ∧ Rim t.faces e ∧ touches (edgeAt m e) n := fun q => hR (hrim.1 q)
          rw [if_pos hs, if_neg hR', if_pos hs, if_neg hR]
          by_cases hT : t.types[n]? = some 3 <;> simp [hF, hT, hn]
      · simp [hs]
    unfold mark4 nodeMask
    rw [hg]
    by_cases hs : sel n = true
    · rw [if_pos hs]
      by_cases hd : (listAt m n).length ≤ 1
      · rw [if_neg (Nat.not_lt.2 hd), if_pos (Or.inr (Or.inl hd))]
        by_cases hA : t.types[n]? = some 3 ∨ FaceCorner m t.faces n
        · rw [if_pos hA, if_pos ⟨hn, by simp⟩]
        · rw [if_neg hA]
          by_cases hR : OnRim m t.faces n
          · rw [if_pos hR, if_pos ⟨hn, by simp⟩]
          · rw [if_neg hR, if_pos ⟨hn, by simp⟩]
      · rw [if_pos (show (listAt m n).length > 1 by omega)]
        by_cases hz : facesAt m t n = 0
        · rw [if_pos (Or.inr (Or.inr hz))]
          by_cases hA : t.types[n]? = some 3 ∨ FaceCorner m t.faces n
          · rw [if_pos hA, if_pos ⟨hn, by simp⟩]; simp [faceMask, hz]
          · rw [if_neg hA]
            by_cases hR : OnRim m t.faces n
            · rw [if_pos hR, if_pos ⟨hn, by simp⟩]; simp [faceMask, hz]
            · rw [if_neg hR, if_pos ⟨hn, by simp⟩]; simp [faceMask, hz]
        · rw [if_neg (show ¬ (sel n = false ∨ (listAt m n).length ≤ 1 ∨ facesAt m t n = 0) by simp [hs, hd, hz])]
          by_cases hA : t.types[n]? = some 3 ∨ FaceCorner m t.faces n
          · rw [if_pos hA, if_pos hA, if_pos ⟨hn, by simp⟩]; simp [faceMask, hz]
          · rw [if_neg hA, if_neg hA]
            by_cases hR : OnRim m t.faces n
            · rw [if_pos hR, if_pos hR, if_pos ⟨hn, by simp⟩]
              by_cases hq : facesAt m t n < (listAt m n).length - 1 <;> simp [faceMask, hz, hq]
            · rw [if_neg hR, if_neg hR, if_pos ⟨hn, by simp⟩]; simp [faceMask, hz]
    · have hs' : sel n = false := by simpa using hs
      simp [hs']
  congr 1
  unfold maskOf masks
  congr 1
  apply List.map_congr_left
  intro n hn
  exact hfin n (by simpa using hn)

theorem masks_at {sel : Nat → Bool} {n : Nat} (hn : n < m.nodes.length) : maskAt (masks m t sel) n = nodeMask m t sel n := by
  unfold maskAt masks
  simp [hn]

theorem masks_rank {sel : Nat → Bool} : ∀ a ∈ masks m t sel, 2 ≤ a.rank := by
  intro a ha
  obtain ⟨n, _, rfl⟩ := List.mem_map.1 ha
  unfold nodeMask
  (repeat' split) <;> simp [Mask.rank]

theorem nodeMask_boundary {sel : Nat → Bool} {n : Nat} (h : nodeMask m t sel n = .boundary) : OnRim m t.faces n ∧ t.types[n]? ≠ some 3 := by
  unfold nodeMask at h
  split at h
  · cases h
  · split at h
    · cases h
    · rename_i h3
      split at h
      · rename_i hr
        exact ⟨hr, fun hc => h3 (Or.inl hc)⟩
      · split at h <;> cases h

theorem maskAt_lt {old : List Mask} {n : Nat} (h : maskAt old n ≠ .unassigned) : n < old.length := by
  by_contra hc
  apply h
  unfold maskAt
  rw [List.getElem?_eq_none (by omega)]
  rfl

/-- The refinement of a mesh with proper tables. -/
theorem compute_net (h : Net m t) (order : Nat → List Nat → List Nat) (sel : Nat → Bool)
    (hroom : ((tasks m t.faces).filter (active (masks m t sel))).length ≤ 9 * m.nodes.length)
    (hfits : m.nodes.length + ((tasks m t.faces).filter (active (masks m t sel))).length ≤ missing)
    (htwo : ∀ n, OnRim m t.faces n → t.types[n]? = some 3 ∨ ∃ a b, a ≠ b ∧ ∀ e, Rim t.faces e ∧ touches (edgeAt m e) n ↔ e = a ∨ e = b) :
    ∃ as m', compute order mid m t sel = .ok (as, m') ∧ Refined mid m t (masks m t sel) m' := by
  have S : Start m t (masks m t sel) := ⟨h, by simp [masks], masks_rank, hroom, hfits⟩
  refine compute_ok S (initialMask_ok h sel) ?_
  intro n hn
  have hlt : n < m.nodes.length := by
    have := maskAt_lt (old := masks m t sel) (n := n) (by rw [hn]; simp)
    rwa [S.length] at this
  rw [masks_at hlt] at hn
  obtain ⟨h1, h2⟩ := nodeMask_boundary hn
  obtain ⟨a, b, h3, h4⟩ := (htwo n h1).resolve_left h2
  refine ⟨a, b, h3, fun e => ?_⟩
  rw [← h4 e]
  constructor
  · rintro ⟨q1, q2⟩
    exact ⟨q2, (h.listed.1 q1).2⟩
  · rintro ⟨q1, q2⟩
    exact ⟨h.listed.2 ⟨(h.rim q1).1, q2⟩, q1⟩

theorem masks_none {n : Nat} : maskAt (masks m t (fun _ => false)) n = .unassigned := by
  unfold maskAt masks
  by_cases hn : n < m.nodes.length
  · simp [hn, nodeMask]
  · simp [hn]

theorem compute_nothing (h : Net m t) (order : Nat → List Nat → List Nat)
    (htwo : ∀ n, OnRim m t.faces n → t.types[n]? = some 3 ∨ ∃ a b, a ≠ b ∧ ∀ e, Rim t.faces e ∧ touches (edgeAt m e) n ↔ e = a ∨ e = b) :
    ∃ as m', compute order mid m t (fun _ => false) = .ok (as, m') ∧ m'.nodes.length = m.nodes.length ∧ ∀ i j, Adj m' i j ↔ Adj m i j := by
  have hact : ∀ x ∈ tasks m t.faces, active (masks m t (fun _ => false)) x = false := by
    intro x hx
    have hlt := h.node_lt ((mem_tasks h).1 hx).1
    unfold active
    rw [decide_eq_false_iff_not, not_not]
    have := masks_none (m := m) (t := t) (n := x.node)
    unfold maskAt at this
    rw [List.getElem?_eq_getElem (by simpa [masks] using hlt)] at this ⊢
    exact congrArg some this
  have hnil : (tasks m t.faces).filter (active (masks m t (fun _ => false))) = [] := by
    rw [List.filter_eq_nil_iff]
    intro x hx
    simp [hact x hx]
  obtain ⟨as, m', h1, h2⟩ := compute_net (mid := mid) h order (fun _ => false) (by rw [hnil]; simp) (by rw [hnil]; simpa using h.wf.nodesFit) htwo
  refine ⟨as, m', h1, by rw [h2.count, total, hnil]; simp, fun i j => ?_⟩
  rw [h2.adj]
  have hg : ∀ n, ¬ Gone (masks m t (fun _ => false)) n := by
    rintro n (q | q) <;> rw [masks_none] at q <;> cases q
  constructor
  · rintro ⟨_, _, q | ⟨hne, x, y, hl, rfl, rfl⟩⟩
    · exact q
    · have hnum : ∀ x, Named m t.faces x → num m t.faces (masks m t (fun _ => false)) x = x.node := by
        rintro x (hx | ⟨n, e, rfl, _⟩)
        · exact num_inactive (hact x hx)
        · rfl
      have key : ∀ x y, Link m t.faces (maskAt (masks m t (fun _ => false))) x y → x.node ≠ y.node → Adj m x.node y.node := by
        intro x y hl hne
        have fin : ∀ {e a b}, edgeAt m e ≠ noEdge → joins (edgeAt m e) a b → Adj m a b := by
          intro e a b hu hj
          have hm := h.wf.nodesFit
          have l1 := h.touch_lt hu ((joins_touches hj).2 (Or.inl rfl))
          have l2 := h.touch_lt hu ((joins_touches hj).2 (Or.inr rfl))
          exact ⟨by omega, by omega, e, hj⟩
        cases hl with
        | side f e a b q1 q2 => exact fin (h.used q1) q2
        | rim e a b q1 q2 => exact fin (h.rim q1).1 q2
        | across => exact absurd rfl hne
        | out => exact absurd rfl hne
        | past => exact absurd rfl hne
        | tip => exact absurd rfl hne
        | spoke => exact absurd rfl hne
      rcases hl with hl | hl
      · obtain ⟨n1, n2⟩ := hl.named h
        rw [hnum x n1, hnum y n2] at hne ⊢
        exact key x y hl hne
      · obtain ⟨n1, n2⟩ := hl.named h
        rw [hnum x n2, hnum y n1] at hne ⊢
        obtain ⟨a, b, c, d⟩ := key y x hl (Ne.symm hne)
        exact ⟨b, a, c, d.symm⟩
  · exact fun q => ⟨hg i, hg j, Or.inl q⟩

end Verif.Casulli
