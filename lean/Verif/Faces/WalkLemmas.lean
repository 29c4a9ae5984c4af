import Verif.Faces.Lemmas
/-!
# Lemmas about the walk around a face and the loops of `FindFaces`
-/
namespace Verif.Faces
open Verif.Mesh

/-- The nodes and edges passed so far. -/
structure Path (edges : List Edge) (s : State) (start : Nat) (ns es : List Nat) (node : Nat) : Prop where
  len : es.length = ns.length
  first : (ns ++ [node])[0]? = some start
  joined : ∀ (i a b e : Nat), (ns ++ [node])[i]? = some a → (ns ++ [node])[i + 1]? = some b → es[i]? = some e →
    ∃ p, edges[e]? = some p ∧ Joins p a b
  free : ∀ e ∈ es, ∃ c, s.numFaces[e]? = some c ∧ c < 2

theorem Path.step {edges : List Edge} {s : State} {start node prev : Nat} {ns es : List Nat} (h : Path edges s start ns es node)
    {p : Edge} (hp : edges[prev]? = some p) (hj : p.1 = node ∨ p.2 = node) {c : Nat} (hc : s.numFaces[prev]? = some c) (h2 : c < 2) :
    Path edges s start (ns ++ [node]) (es ++ [prev]) (otherNode p node) := by
  refine ⟨by simp [h.len], ?_, ?_, ?_⟩
  · rw [List.getElem?_append_left (by simp)]; exact h.first
  · intro i a b e h1 h2 h3
    have hi : i < es.length + 1 := by
      have := (List.getElem?_eq_some_iff.1 h3).1
      simpa using this
    have hl := h.len
    rcases Nat.lt_or_ge i es.length with hlt | hge
    · rw [List.getElem?_append_left (by simp; omega)] at h1
      rw [List.getElem?_append_left (by simp; omega)] at h2
      rw [List.getElem?_append_left hlt] at h3
      exact h.joined i a b e h1 h2 h3
    · have : i = es.length := by omega
      subst this
      rw [List.getElem?_concat_length] at h3
      obtain rfl := Option.some.inj h3
      rw [hl, List.getElem?_append_left (by simp), List.getElem?_concat_length] at h1
      obtain rfl := Option.some.inj h1
      have : es.length + 1 = (ns ++ [node]).length := by simp [hl]
      rw [this, List.getElem?_concat_length] at h2
      obtain rfl := Option.some.inj h2
      exact ⟨p, hp, joins_other hj⟩
  · intro e he
    rcases List.mem_append.1 he with h' | h'
    · exact h.free e h'
    · have : e = prev := by simpa using h'
      subst this
      exact ⟨c, hc, h2⟩

/-- A closed path without repeated nodes is a proper face. -/
theorem Path.proper {edges : List Edge} {s : State} {start : Nat} {ns es : List Nat} (h : Path edges s start ns es start)
    (h3 : 3 ≤ ns.length) (h6 : ns.length ≤ 6) (hn : ns.Nodup) : Proper edges ns es := by
  have hsides : ∀ i, i < ns.length → Side edges ns es i := by
    intro i hi
    have hlen := h.len
    have e0 : ns[0]? = some start := by
      have := h.first
      rwa [List.getElem?_append_left (by omega)] at this
    have hb : ∃ b, ns[(i + 1) % ns.length]? = some b ∧ (ns ++ [start])[i + 1]? = some b := by
      rcases Nat.lt_or_ge (i + 1) ns.length with hl | hl
      · rw [Nat.mod_eq_of_lt hl]
        exact ⟨ns[i + 1], List.getElem?_eq_getElem hl, by rw [List.getElem?_append_left hl]; exact List.getElem?_eq_getElem hl⟩
      · have : i + 1 = ns.length := by omega
        rw [this, Nat.mod_self]
        exact ⟨start, e0, List.getElem?_concat_length⟩
    obtain ⟨b, b1, b2⟩ := hb
    have hie : i < es.length := by omega
    obtain ⟨p, p1, p2⟩ := h.joined i ns[i] b es[i] (by rw [List.getElem?_append_left hi]; exact List.getElem?_eq_getElem hi) b2
      (List.getElem?_eq_getElem hie)
    exact ⟨ns[i], b, es[i], p, List.getElem?_eq_getElem hi, b1, List.getElem?_eq_getElem hie, p1, p2⟩
  exact ⟨h3, h6, h.len, hn, sides_nodup h3 h.len hn hsides, hsides⟩

theorem previousPlace_lt {l : List Nat} {e : Nat} (h : e ∈ l) : previousPlace l e < l.length := by
  have hp : 0 < l.length := List.length_pos_of_mem h
  unfold previousPlace
  simp only
  have hb : (l.idxOf? e).getD 0 < l.length := by
    cases hx : l.idxOf? e with
    | none => simpa using hp
    | some i =>
      rw [List.idxOf?_eq_some_iff] at hx
      simpa using hx.1
  split <;> omega

section
variable {edges : List Edge} {adj : List (List Nat)} {N : Nat} {cw : List Nat → Bool}

theorem closeFace_ok {s : State} (hs : Consistent edges cw s) {start k : Nat} {ns es : List Nat}
    (h : Path edges s start ns es start) (hk : ns.length = k) (h3 : 3 ≤ k) (h6 : k ≤ 6) :
    ∃ s', closeFace cw k ns es s = .ok s' ∧ Consistent edges cw s' ∧ Extends s s' := by
  unfold closeFace
  split
  · exact ⟨s, rfl, hs, .refl s⟩
  · next h1 =>
    split
    · exact ⟨s, rfl, hs, .refl s⟩
    · next h2 =>
      split
      · exact ⟨s, rfl, hs, .refl s⟩
      · next h4 =>
        have hn : ns.Nodup := (hasDuplicates_iff k ns hk).1 (by simpa using h1)
        have hp := h.proper (by omega) (by omega) hn
        obtain ⟨s', a, b, c, _⟩ := storeFace_ok hs hp (by simpa using h4) h.free (by
          rw [hk]
          cases h5 : oneEdgeHasNoFace es s with
          | true => exact Or.inl rfl
          | false =>
            right
            rw [h5] at h2
            simpa using h2)
        exact ⟨s', a, b, c⟩

theorem findFace_ok (hL : Listed edges adj N) (hN : N ≤ missing) {s : State} (hs : Consistent edges cw s) {k start : Nat}
    (h3 : 3 ≤ k) (h6 : k ≤ 6) (r node prev : Nat) (ns es : List Nat) (hr : ns.length + r = k)
    (hp : Path edges s start ns es node) (hm : ∃ l, adj[node]? = some l ∧ prev ∈ l) :
    ∃ s', findFace edges adj cw k start r node prev ns es s = .ok s' ∧ Consistent edges cw s' ∧ Extends s s' := by
  induction r generalizing node prev ns es with
  | zero => exact ⟨s, rfl, hs, .refl s⟩
  | succ r ih =>
    obtain ⟨l, hl1, hl2⟩ := hm
    obtain ⟨p, p1, p2, p3, p4, l', q1, q2⟩ := hL.ends node l hl1 prev hl2
    unfold findFace
    rw [vget_eq_ok.2 p1, Res.ok_bind, if_neg (by omega)]
    have hlt : prev < edges.length := (List.getElem?_eq_some_iff.1 p1).1
    obtain ⟨c, pp, ll, c1, _⟩ := hs.faces prev hlt
    rw [vget_eq_ok.2 c1, Res.ok_bind]
    split
    · exact ⟨s, rfl, hs, .refl s⟩
    · next hc =>
      have hstep := hp.step p1 p4 c1 (by omega)
      split
      · next hcl =>
        rw [hcl.1] at hstep
        exact closeFace_ok hs hstep hcl.2 h3 h6
      · rw [vget_eq_ok.2 q1, Res.ok_bind, vget_ok (previousPlace_lt q2), Res.ok_bind]
        exact ih _ _ _ _ (by simp; omega) hstep ⟨l', q1, List.getElem_mem _⟩

theorem facesAtNode_ok (hL : Listed edges adj N) (hN : N ≤ missing) {k n : Nat} (h3 : 3 ≤ k) (h6 : k ≤ 6) {l0 : List Nat}
    (hl : adj[n]? = some l0) (l : List Nat) (hsub : ∀ e ∈ l, e ∈ l0) {s : State} (hs : Consistent edges cw s) :
    ∃ s', facesAtNode edges adj cw k n l s = .ok s' ∧ Consistent edges cw s' ∧ Extends s s' := by
  induction l generalizing s with
  | nil => exact ⟨s, rfl, hs, .refl s⟩
  | cons e l ih =>
    obtain ⟨s1, a1, b1, c1⟩ := findFace_ok (start := n) hL hN hs h3 h6 k n e [] [] (by simp)
      ⟨rfl, rfl, by intro i a b e h1 h2 h3; simp at h3, by simp⟩ ⟨l0, hl, hsub e (by simp)⟩
    obtain ⟨s2, a2, b2, c2⟩ := ih (fun e he => hsub e (by simp [he])) b1
    exact ⟨s2, by rw [facesAtNode, a1, Res.ok_bind, a2], b2, c1.trans c2⟩

theorem facesFrom_ok (hL : Listed edges adj N) (hN : N ≤ missing) {v : Nat → Bool} {k n : Nat} (h3 : 3 ≤ k) (h6 : k ≤ 6)
    (hn : n < N) {s : State} (hs : Consistent edges cw s) :
    ∃ s', facesFrom edges adj cw v k n s = .ok s' ∧ Consistent edges cw s' ∧ Extends s s' := by
  unfold facesFrom
  split
  · exact ⟨s, rfl, hs, .refl s⟩
  · have hlt : n < adj.length := by rw [hL.len]; exact hn
    rw [vget_ok hlt, Res.ok_bind]
    exact facesAtNode_ok hL hN h3 h6 (List.getElem?_eq_getElem hlt) _ (fun _ h => h) hs

theorem findFaces_ok (hL : Listed edges adj N) (hN : N ≤ missing) (v : Nat → Bool) {s : State} (hs : Consistent edges cw s) :
    ∃ s', findFaces edges adj cw v N s = .ok s' ∧ Consistent edges cw s' ∧ Extends s s' := by
  unfold findFaces
  refine forRange_inv (I := fun _ t => Consistent edges cw t ∧ Extends s t) (by omega) ⟨hs, .refl s⟩ ?_
  intro k t hk1 hk2 ht
  obtain ⟨u, u1, u2⟩ := forRange_inv (f := facesFrom edges adj cw v k) (s := t) (hi := N)
    (I := fun _ u => Consistent edges cw u ∧ Extends t u) (Nat.zero_le _) ⟨ht.1, .refl t⟩ (by
      intro n u _ hn hu
      obtain ⟨w, w1, w2, w3⟩ := facesFrom_ok (v := v) hL hN hk1 (by omega : k ≤ 6) hn hu.1
      exact ⟨w, w1, w2, hu.2.trans w3⟩)
  exact ⟨u, u1, u2.1, ht.2.trans u2.2⟩

theorem initial_consistent (edges : List Edge) (cw : List Nat → Bool) : Consistent edges cw (initial edges.length) := by
  refine ⟨rfl, by intro f ns es h; simp [initial] at h, by simp [initial], by simp [initial], ?_, by intro f g es es' _ h; simp [initial] at h⟩
  intro e he
  refine ⟨0, (missing, missing), [], by simp [initial, he], by simp [initial, he], .none, by simp, ?_⟩
  intro f
  simp [Borders, initial]

/-! ## A face that is there is found -/

/-- In a list without repetitions the place before `e` is found. -/
theorem previousPlace_before {l : List Nat} {e' e : Nat} (hn : l.Nodup) (h : Before l e' e) : l[previousPlace l e]? = some e' := by
  obtain ⟨j, h1, h2⟩ := h
  have hj : j < l.length := (List.getElem?_eq_some_iff.1 h1).1
  have hi : (j + 1) % l.length < l.length := Nat.mod_lt _ (by omega)
  have hidx : l.idxOf? e = some ((j + 1) % l.length) := by
    rw [List.idxOf?_eq_some_iff]
    refine ⟨hi, ?_, ?_⟩
    · rw [List.getElem?_eq_getElem hi] at h2
      simpa using Option.some.inj h2
    · intro i hlt heq
      have hli : i < l.length := by omega
      have heq' : l[i]? = some e := by
        rw [List.getElem?_eq_getElem hli]; simpa using heq
      have := (List.getElem?_inj hli hn).1 (heq'.trans h2.symm)
      omega
  unfold previousPlace
  simp only [hidx, Option.getD_some]
  rcases Nat.lt_or_ge (j + 1) l.length with hl | hl
  · rw [Nat.mod_eq_of_lt hl, if_neg (by omega)]
    simpa using h1
  · have : j + 1 = l.length := by omega
    rw [this, Nat.mod_self, if_pos rfl]
    have : l.length - 1 = j := by omega
    rw [this]; exact h1

theorem otherNode_joins {p : Edge} {a b : Nat} (h : Joins p a b) : otherNode p a = b := by
  unfold Joins at h
  unfold otherNode
  rcases h with rfl | rfl
  · simp
  · simp only; split <;> simp_all

/-- The walk follows a tight polygon to its end. -/
theorem findFace_tight (hL : Listed edges adj N) (hN : N ≤ missing) {s : State} {ns es : List Nat} (ht : Tight edges adj ns es)
    (hvalid : ∀ n ∈ ns, n < N) (hfree : ∀ e ∈ es, ∃ c, s.numFaces[e]? = some c ∧ c < 2) (start : Nat) (h0 : ns[0]? = some start)
    (r i : Nat) (hi : i + r = ns.length) (hr : 0 < r) (node prev : Nat) (hnode : ns[i]? = some node) (hprev : es[i]? = some prev) :
    findFace edges adj cw ns.length start r node prev (ns.take i) (es.take i) s = closeFace cw ns.length ns es s := by
  induction r generalizing i node prev with
  | zero => omega
  | succ r ih =>
    have hlen := ht.proper.len
    have hi' : i < ns.length := by omega
    obtain ⟨a, b, e, p, s1, s2, s3, s4, s5⟩ := ht.proper.sides i hi'
    rw [hnode] at s1; obtain rfl := Option.some.inj s1
    rw [hprev] at s3; obtain rfl := Option.some.inj s3
    have hother : otherNode p node = b := otherNode_joins s5
    have hnl : node < N := hvalid node (List.mem_of_getElem? hnode)
    have hbl : b < N := hvalid b (List.mem_of_getElem? s2)
    have hne : ¬ (p.1 = missing ∨ p.2 = missing) := by
      rcases s5 with rfl | rfl <;> simp only <;> omega
    have htn : ns.take i ++ [node] = ns.take (i + 1) := by
      rw [List.take_add_one, hnode]; rfl
    have hte : es.take i ++ [prev] = es.take (i + 1) := by
      rw [List.take_add_one, hprev]; rfl
    obtain ⟨c, c1, c2⟩ := hfree prev (List.mem_of_getElem? hprev)
    unfold findFace
    rw [vget_eq_ok.2 s4, Res.ok_bind, if_neg hne, vget_eq_ok.2 c1, Res.ok_bind, if_neg (by omega), hother, htn, hte]
    rcases Nat.lt_or_ge (i + 1) ns.length with hl | hl
    · rw [Nat.mod_eq_of_lt hl] at s2
      have hle : (ns.take (i + 1)).length ≠ ns.length := by simp; omega
      rw [if_neg (by intro h; exact hle h.2)]
      have hadj : b < adj.length := by rw [hL.len]; exact hbl
      have hie : i + 1 < es.length := by omega
      have hbefore := ht.turns i b prev es[i + 1] adj[b] hl s2 hprev (List.getElem?_eq_getElem hie) (List.getElem?_eq_getElem hadj)
      rw [vget_ok hadj, Res.ok_bind, vget_eq_ok.2 (previousPlace_before (hL.nodup b _ (List.getElem?_eq_getElem hadj)) hbefore), Res.ok_bind]
      exact ih (i + 1) (by omega) (by omega) b _ s2 (List.getElem?_eq_getElem hie)
    · have hil : i + 1 = ns.length := by omega
      rw [hil, Nat.mod_self, h0] at s2
      obtain rfl := Option.some.inj s2
      rw [hil, List.take_length, ← hlen, List.take_length, hlen]
      rw [if_pos ⟨rfl, rfl⟩]

theorem loopN_mid {σ : Type} {f : Nat → σ → Res σ} (R : σ → σ → Prop) (hrefl : ∀ s, R s s) (htrans : ∀ s t u, R s t → R t u → R s u)
    (I : σ → Prop) (k i : Nat) (hf : ∀ j s, i ≤ j → j < i + k → I s → ∃ s', f j s = .ok s' ∧ I s' ∧ R s s') (s t : σ) (hs : I s)
    (h : loopN f k i s = .ok t) (j : Nat) (h1 : i ≤ j) (h2 : j < i + k) :
    ∃ u u', I u ∧ R s u ∧ f j u = .ok u' ∧ R u' t := by
  induction k generalizing i s with
  | zero => omega
  | succ k ih =>
    obtain ⟨s1, a1, a2, a3⟩ := hf i s (Nat.le_refl _) (by omega) hs
    rw [loopN, a1, Res.ok_bind] at h
    have htail : R s1 t := by
      obtain ⟨t', h1, h2⟩ := loopN_inv f (fun _ u => I u ∧ R s1 u) k (i + 1) s1 ⟨a2, hrefl _⟩ (by
        intro j u hj1 hj2 hu
        obtain ⟨u', b1, b2, b3⟩ := hf j u (by omega) (by omega) hu.1
        exact ⟨u', b1, b2, htrans _ _ _ hu.2 b3⟩)
      rw [h] at h1
      obtain rfl := Res.ok.inj h1
      exact h2.2
    by_cases hj : j = i
    · subst hj
      exact ⟨s, s1, hs, hrefl s, a1, htail⟩
    · obtain ⟨u, u', b1, b2, b3, b4⟩ := ih (i + 1) (fun j s h1 h2 => hf j s (by omega) (by omega)) s1 a2 h (by omega) (by omega)
      exact ⟨u, u', b1, htrans _ _ _ a3 b2, b3, b4⟩

theorem facesAtNode_mid (hL : Listed edges adj N) (hN : N ≤ missing) {k n : Nat} (h3 : 3 ≤ k) (h6 : k ≤ 6) {l0 : List Nat}
    (hl : adj[n]? = some l0) (l : List Nat) (hsub : ∀ e ∈ l, e ∈ l0) {s t : State} (hs : Consistent edges cw s)
    (h : facesAtNode edges adj cw k n l s = .ok t) (e : Nat) (he : e ∈ l) :
    ∃ u u', Consistent edges cw u ∧ findFace edges adj cw k n k n e [] [] u = .ok u' ∧ Extends u' t := by
  induction l generalizing s with
  | nil => simp at he
  | cons e' l ih =>
    obtain ⟨s1, a1, b1, c1⟩ := findFace_ok (start := n) hL hN hs h3 h6 k n e' [] [] (by simp)
      ⟨rfl, rfl, by intro i a b e h1 h2 h3; simp at h3, by simp⟩ ⟨l0, hl, hsub e' (by simp)⟩
    rw [facesAtNode, a1, Res.ok_bind] at h
    by_cases hee : e = e'
    · subst hee
      obtain ⟨s2, a2, b2, c2⟩ := facesAtNode_ok hL hN h3 h6 hl l (fun e he => hsub e (by simp [he])) b1
      rw [h] at a2
      obtain rfl := Res.ok.inj a2
      exact ⟨s, s1, hs, a1, c2⟩
    · exact ih (fun e he => hsub e (by simp [he])) b1 h (by simpa [hee] using he)

theorem findFaces_mid (hL : Listed edges adj N) (hN : N ≤ missing) (v : Nat → Bool) {s t : State} (hs : Consistent edges cw s)
    (h : findFaces edges adj cw v N s = .ok t) {k n e : Nat} (h3 : 3 ≤ k) (h6 : k ≤ 6) (hn : n < N) (hv : v n = true) {l : List Nat}
    (hl : adj[n]? = some l) (he : e ∈ l) :
    ∃ u u', Consistent edges cw u ∧ findFace edges adj cw k n k n e [] [] u = .ok u' ∧ Extends u' t := by
  obtain ⟨u, u', b1, b2, b3, b4⟩ := loopN_mid (f := fun k => forRange 0 N (facesFrom edges adj cw v k)) Extends .refl (fun _ _ _ => .trans) (Consistent edges cw) 4 3 (by
    intro j s hj1 hj2 hs
    obtain ⟨s', a, b⟩ := forRange_inv (f := facesFrom edges adj cw v j) (s := s) (hi := N)
      (I := fun _ u => Consistent edges cw u ∧ Extends s u) (Nat.zero_le _) ⟨hs, .refl s⟩ (by
        intro n u _ hn hu
        obtain ⟨w, w1, w2, w3⟩ := facesFrom_ok (v := v) hL hN hj1 (by omega : j ≤ 6) hn hu.1
        exact ⟨w, w1, w2, hu.2.trans w3⟩)
    exact ⟨s', a, b⟩) s t hs h k h3 (by omega)
  obtain ⟨w, w', d1, d2, d3, d4⟩ := loopN_mid (f := facesFrom edges adj cw v k) Extends .refl (fun _ _ _ => .trans) (Consistent edges cw) (N - 0) 0 (by
    intro j s hj1 hj2 hs
    exact facesFrom_ok (v := v) hL hN h3 h6 (by omega) hs) u u' b1 b3 n (by omega) (by omega)
  unfold facesFrom at d3
  rw [hv, Bool.not_true, if_neg (by simp), vget_eq_ok.2 hl, Res.ok_bind] at d3
  obtain ⟨x, x', e1, e2, e3⟩ := facesAtNode_mid hL hN h3 h6 hl l (fun _ h => h) d1 d3 e he
  exact ⟨x, x', e1, e2, e3.trans (d4.trans b4)⟩

/-- A tight polygon that is not clockwise is a face of the result, unless one of its edges has two other faces or another
face has two of its edges. -/
theorem tight_found (hL : Listed edges adj N) (hN : N ≤ missing) (v : Nat → Bool) {s t : State} (hs : Consistent edges cw s)
    (hrun : findFaces edges adj cw v N s = .ok t) {ns es : List Nat} (ht : Tight edges adj ns es) (hv : ∀ n ∈ ns, n < N ∧ v n = true)
    (hcw : cw ns = false) :
    (∃ (f : Nat) (es' : List Nat), t.facesEdges[f]? = some es' ∧ ∀ e, e ∈ es' ↔ e ∈ es) ∨
    (∃ e f g, e ∈ es ∧ f ≠ g ∧ Borders t f e ∧ Borders t g e) ∨
    (∃ f e e', e ∈ es ∧ e' ∈ es ∧ e ≠ e' ∧ Borders t f e ∧ Borders t f e') := by
  have h3 := ht.proper.atLeast
  have h6 := ht.proper.atMost
  have hlen := ht.proper.len
  have hn0 : 0 < ns.length := by omega
  have he0 : 0 < es.length := by omega
  have g0 : ns[0]? = some ns[0] := List.getElem?_eq_getElem hn0
  have ge0 : es[0]? = some es[0] := List.getElem?_eq_getElem he0
  have hnm := hv _ (List.mem_of_getElem? g0)
  have hadj : ns[0] < adj.length := by rw [hL.len]; exact hnm.1
  have hmem := ht.start _ _ _ g0 ge0 (List.getElem?_eq_getElem hadj)
  obtain ⟨u, u', hu, hfind, hext⟩ := findFaces_mid hL hN v hs hrun (k := ns.length) h3 h6 hnm.1 hnm.2 (List.getElem?_eq_getElem hadj) hmem
  by_cases htwo : ∃ e f g, e ∈ es ∧ f ≠ g ∧ Borders t f e ∧ Borders t g e
  · exact Or.inr (Or.inl htwo)
  by_cases hshare : ∃ f e e', e ∈ es ∧ e' ∈ es ∧ e ≠ e' ∧ Borders t f e ∧ Borders t f e'
  · exact Or.inr (Or.inr hshare)
  left
  have hrange : ∀ e ∈ es, e < edges.length := by
    intro e he
    obtain ⟨i, hi, rfl⟩ := List.mem_iff_getElem.1 he
    obtain ⟨a, b, e, p, _, _, s3, s4, _⟩ := ht.proper.sides i (by omega)
    rw [List.getElem?_eq_getElem hi] at s3
    obtain rfl := Option.some.inj s3
    exact (List.getElem?_eq_some_iff.1 s4).1
  have hut : Extends u t := by
    obtain ⟨s', a, _, c⟩ := findFace_ok (start := ns[0]) hL hN hu h3 h6 ns.length ns[0] es[0] [] [] (by simp)
      ⟨rfl, rfl, by intro i a b e h1 h2 h3; simp at h3, by simp⟩ ⟨_, List.getElem?_eq_getElem hadj, hmem⟩
    rw [hfind] at a
    obtain rfl := Res.ok.inj a
    exact c.trans hext
  have hfree : ∀ e ∈ es, ∃ c, u.numFaces[e]? = some c ∧ c < 2 := by
    intro e he
    obtain ⟨c, p, l, c1, c2, c3, c4, c5⟩ := hu.faces e (hrange e he)
    refine ⟨c, c1, ?_⟩
    by_contra hc
    cases c3 with
    | none => omega
    | one => omega
    | two f g =>
      refine htwo ⟨e, f, g, he, ?_, hut.borders ((c5 f).1 (by simp)), hut.borders ((c5 g).1 (by simp))⟩
      rintro rfl
      simp at c4
  have hw := findFace_tight (cw := cw) hL hN ht (fun n hn => (hv n hn).1) hfree ns[0] g0 ns.length 0 (by omega) (by omega) _ _ g0 ge0
  simp only [List.take_zero] at hw
  rw [hw] at hfind
  unfold closeFace at hfind
  have hd : hasDuplicates ns.length ns = false := (hasDuplicates_iff _ _ rfl).2 ht.proper.nodesDistinct
  have hd2 : oneEdgeHasNoFace es u = true ∨ hasDuplicateEdgeFaces ns.length es u = false := by
    by_cases hone : oneEdgeHasNoFace es u = true
    · exact Or.inl hone
    · right
      unfold hasDuplicateEdgeFaces
      rw [hasDuplicates_iff _ _ (by rw [List.length_map, hlen])]
      refine (List.nodup_map_iff_inj_on ht.proper.edgesDistinct).2 ?_
      intro e he e' he' heq
      by_contra hne
      have hfirst : ∀ e ∈ es, Borders u (firstFace u e) e := by
        intro e he
        obtain ⟨c, p, l, c1, c2, c3, c4, c5⟩ := hu.faces e (hrange e he)
        have hc0 : c ≠ 0 := by
          rintro rfl
          apply hone
          unfold oneEdgeHasNoFace
          rw [List.any_eq_true]
          exact ⟨e, he, by rw [List.getD_eq_getElem?_getD, c1]; rfl⟩
        have : firstFace u e = p.1 := by simp [firstFace, List.getD_eq_getElem?_getD, c2]
        rw [this]
        cases c3 with
        | none => exact absurd rfl hc0
        | one f => exact (c5 f).1 (by simp)
        | two f g => exact (c5 f).1 (by simp)
      exact hshare ⟨firstFace u e, e, e', he, he', hne, hut.borders (hfirst e he), hut.borders (heq ▸ hfirst e' he')⟩
  have hcond : ¬ (!oneEdgeHasNoFace es u && hasDuplicateEdgeFaces ns.length es u) = true := by
    rcases hd2 with h | h <;> rw [h] <;> simp
  rw [hd, if_neg (by simp), if_neg hcond, hcw, if_neg (by simp)] at hfind
  obtain ⟨s', a1, _, _, a4, _⟩ := storeFace_ok hu ht.proper hcw hfree hd2
  rw [hfind] at a1
  obtain rfl := Res.ok.inj a1
  obtain ⟨r, hr⟩ := hext.edges
  refine ⟨u.facesEdges.length, es, ?_, fun _ => Iff.rfl⟩
  rw [← hr, a4, List.getElem?_append_left (by simp), List.getElem?_concat_length]

end

end Verif.Faces
