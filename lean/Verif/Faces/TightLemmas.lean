import Verif.Faces.WalkLemmas
/-!
# Lemmas: the faces found turn as sharply as possible, and share no directed edge with a cell
-/
namespace Verif.Faces
open Verif.Mesh
variable {edges : List Edge} {adj : List (List Nat)} {N : Nat} {cw : List Nat → Bool}

/-- The turns made so far. -/
structure Walk (adj : List (List Nat)) (ns es : List Nat) : Prop where
  len : es.length = ns.length
  start : ∀ (a e : Nat) l, ns[0]? = some a → es[0]? = some e → adj[a]? = some l → e ∈ l
  turns : ∀ (i a e e' : Nat) l, ns[i + 1]? = some a → es[i]? = some e → es[i + 1]? = some e' → adj[a]? = some l → Before l e' e

/-- All faces come from such walks. -/
def AllWalks (adj : List (List Nat)) (s : State) : Prop :=
  ∀ (f : Nat) ns es, s.facesNodes[f]? = some ns → s.facesEdges[f]? = some es → Walk adj ns es

theorem markEdges_faces {f : Nat} : ∀ {l : List Nat} {s s' : State}, markEdges f l s = .ok s' →
    s'.facesNodes = s.facesNodes ∧ s'.facesEdges = s.facesEdges
  | [], s, s', h => by
    obtain rfl := Res.ok.inj h
    exact ⟨rfl, rfl⟩
  | e :: l, s, s', h => by
    unfold markEdges at h
    obtain ⟨s1, h1, h2⟩ := Res.bind_eq_ok.1 h
    obtain ⟨a, b⟩ := markEdges_faces h2
    unfold markEdge at h1
    obtain ⟨c, _, h1⟩ := Res.bind_eq_ok.1 h1
    obtain ⟨p, _, h1⟩ := Res.bind_eq_ok.1 h1
    obtain ⟨q, _, h1⟩ := Res.bind_eq_ok.1 h1
    obtain rfl := Res.ok.inj h1
    exact ⟨a, b⟩

theorem closeFace_walks {s s' : State} {k : Nat} {ns es : List Nat} (hs : AllWalks adj s) (hl : s.facesNodes.length = s.facesEdges.length)
    (hw : Walk adj ns es) (h : closeFace cw k ns es s = .ok s') : AllWalks adj s' := by
  unfold closeFace at h
  split at h
  · obtain rfl := Res.ok.inj h; exact hs
  · split at h
    · obtain rfl := Res.ok.inj h; exact hs
    · split at h
      · obtain rfl := Res.ok.inj h; exact hs
      · unfold storeFace at h
        obtain ⟨s1, h1, h2⟩ := Res.bind_eq_ok.1 h
        obtain rfl := Res.ok.inj h2
        obtain ⟨a, b⟩ := markEdges_faces h1
        intro f ns' es' h3 h4
        simp only [a, b] at h3 h4
        rcases Nat.lt_or_ge f s.facesNodes.length with hf | hf
        · rw [List.getElem?_append_left hf] at h3
          rw [List.getElem?_append_left (by omega)] at h4
          exact hs f ns' es' h3 h4
        · have : f < s.facesNodes.length + 1 := by
            have := (List.getElem?_eq_some_iff.1 h3).1
            simpa using this
          have hf' : f = s.facesNodes.length := by omega
          subst hf'
          rw [List.getElem?_concat_length] at h3
          rw [hl, List.getElem?_concat_length] at h4
          obtain rfl := Option.some.inj h3
          obtain rfl := Option.some.inj h4
          exact hw

theorem before_previousPlace {l : List Nat} {e e' : Nat} (he : e ∈ l) (h : l[previousPlace l e]? = some e') : Before l e' e := by
  have hp : 0 < l.length := List.length_pos_of_mem he
  obtain ⟨i, hi⟩ : ∃ i, l.idxOf? e = some i := by
    cases hx : l.idxOf? e with
    | none => rw [List.idxOf?_eq_none_iff] at hx; exact absurd he hx
    | some i => exact ⟨i, rfl⟩
  have hie := List.idxOf?_eq_some_iff.1 hi
  have hlt := hie.1
  have hli : l[i]? = some e := by
    rw [List.getElem?_eq_getElem hlt]
    simpa using hie.2.1
  refine ⟨previousPlace l e, h, ?_⟩
  unfold previousPlace
  simp only [hi, Option.getD_some]
  split
  · next h0 =>
    have : l.length - 1 + 1 = l.length := by omega
    rw [this, Nat.mod_self, ← h0]; exact hli
  · have : i - 1 + 1 = i := by omega
    rw [this, Nat.mod_eq_of_lt hlt]; exact hli

theorem findFace_walks (hL : Listed edges adj N) {s s' : State} (hs : AllWalks adj s) (hc : s.facesNodes.length = s.facesEdges.length)
    {k start : Nat} (r node prev : Nat) (ns es : List Nat) (hw : Walk adj (ns ++ [node]) (es ++ [prev]))
    (hm : ∃ l, adj[node]? = some l ∧ prev ∈ l) (h : findFace edges adj cw k start r node prev ns es s = .ok s') : AllWalks adj s' := by
  induction r generalizing node prev ns es with
  | zero => obtain rfl := Res.ok.inj h; exact hs
  | succ r ih =>
    obtain ⟨l, hl1, hl2⟩ := hm
    obtain ⟨p, p1, p2, p3, p4, l', q1, q2⟩ := hL.ends node l hl1 prev hl2
    unfold findFace at h
    rw [vget_eq_ok.2 p1, Res.ok_bind] at h
    split at h
    · cases h
    · obtain ⟨c, _, h⟩ := Res.bind_eq_ok.1 h
      split at h
      · obtain rfl := Res.ok.inj h; exact hs
      · split at h
        · exact closeFace_walks hs hc hw h
        · rw [vget_eq_ok.2 q1, Res.ok_bind, vget_ok (previousPlace_lt q2), Res.ok_bind] at h
          refine ih _ _ _ _ ?_ ⟨l', q1, List.getElem_mem _⟩ h
          have hlen : es.length + 1 = ns.length + 1 := by simpa using hw.len
          have hlen' : es.length = ns.length := by omega
          refine ⟨by simp [hlen'], ?_, ?_⟩
          · intro a e l h1 h2 h3
            rw [List.getElem?_append_left (by simp)] at h1 h2
            exact hw.start a e l h1 h2 h3
          · intro i a e e' l3 h1 h2 h3 h4
            rcases Nat.lt_or_ge (i + 1) (ns ++ [node]).length with hi | hi
            · rw [List.getElem?_append_left hi] at h1
              rw [List.getElem?_append_left (by simp at hi ⊢; omega)] at h2 h3
              exact hw.turns i a e e' l3 h1 h2 h3 h4
            · have hi2 : i + 1 < (ns ++ [node]).length + 1 := by
                have := (List.getElem?_eq_some_iff.1 h1).1
                simpa using this
              have hi3 : i + 1 = (ns ++ [node]).length := by omega
              rw [hi3, List.getElem?_concat_length] at h1
              have hi4 : i + 1 = (es ++ [prev]).length := by rw [hi3]; simp [hlen']
              rw [hi4, List.getElem?_concat_length] at h3
              have hi5 : i = es.length := by simp at hi4; omega
              rw [hi5, List.getElem?_append_left (by simp), List.getElem?_concat_length] at h2
              obtain rfl := Option.some.inj h1
              obtain rfl := Option.some.inj h2
              obtain rfl := Option.some.inj h3
              rw [q1] at h4
              obtain rfl := Option.some.inj h4
              exact before_previousPlace q2 (List.getElem?_eq_getElem _)

theorem facesAtNode_walks (hL : Listed edges adj N) (hN : N ≤ missing) {k n : Nat} (h3 : 3 ≤ k) (h6 : k ≤ 6) {l0 : List Nat}
    (hl : adj[n]? = some l0) (l : List Nat) (hsub : ∀ e ∈ l, e ∈ l0) {s s' : State} (hs : Consistent edges cw s) (hw : AllWalks adj s)
    (h : facesAtNode edges adj cw k n l s = .ok s') : AllWalks adj s' := by
  induction l generalizing s with
  | nil => obtain rfl := Res.ok.inj h; exact hw
  | cons e l ih =>
    obtain ⟨s1, a1, b1, c1⟩ := findFace_ok (start := n) hL hN hs h3 h6 k n e [] [] (by simp)
      ⟨rfl, rfl, by intro i a b e h1 h2 h3; simp at h3, by simp⟩ ⟨l0, hl, hsub e (by simp)⟩
    rw [facesAtNode, a1, Res.ok_bind] at h
    refine ih (fun e he => hsub e (by simp [he])) b1 ?_ h
    refine findFace_walks hL hw hs.lengths k n e [] [] ⟨rfl, ?_, ?_⟩ ⟨l0, hl, hsub e (by simp)⟩ a1
    · intro a e' l' h1 h2 h4
      simp at h1 h2
      subst h1 h2
      rw [hl] at h4
      obtain rfl := Option.some.inj h4
      exact hsub _ (by simp)
    · intro i a e e' l' h1
      simp at h1

theorem findFaces_walks (hL : Listed edges adj N) (hN : N ≤ missing) (v : Nat → Bool) {s s' : State} (hs : Consistent edges cw s)
    (hw : AllWalks adj s) (h : findFaces edges adj cw v N s = .ok s') : AllWalks adj s' := by
  have : ∃ t, findFaces edges adj cw v N s = .ok t ∧ Consistent edges cw t ∧ AllWalks adj t := by
    unfold findFaces
    refine forRange_inv (I := fun _ t => Consistent edges cw t ∧ AllWalks adj t) (by omega) ⟨hs, hw⟩ ?_
    intro k t hk1 hk2 ht
    refine forRange_inv (f := facesFrom edges adj cw v k) (s := t) (hi := N)
      (I := fun _ u => Consistent edges cw u ∧ AllWalks adj u) (Nat.zero_le _) ht (by
        intro n u _ hn hu
        obtain ⟨w, w1, w2, _⟩ := facesFrom_ok (v := v) hL hN hk1 (by omega : k ≤ 6) hn hu.1
        refine ⟨w, w1, w2, ?_⟩
        unfold facesFrom at w1
        split at w1
        · obtain rfl := Res.ok.inj w1; exact hu.2
        · have hlt : n < adj.length := by rw [hL.len]; exact hn
          rw [vget_ok hlt, Res.ok_bind] at w1
          exact facesAtNode_walks hL hN hk1 (by omega) (List.getElem?_eq_getElem hlt) _ (fun _ h => h) hu.1 hu.2 w1)
  obtain ⟨t, h1, _, h2⟩ := this
  rw [h] at h1
  obtain rfl := Res.ok.inj h1
  exact h2

/-- Every face of the result is a tight polygon. -/
theorem findFaces_tight (hL : Listed edges adj N) (hN : N ≤ missing) (v : Nat → Bool) {s' : State}
    (h : findFaces edges adj cw v N (initial edges.length) = .ok s') (f : Nat) (ns es : List Nat)
    (h1 : s'.facesNodes[f]? = some ns) (h2 : s'.facesEdges[f]? = some es) : Tight edges adj ns es := by
  obtain ⟨t, a1, a2, _⟩ := findFaces_ok hL hN v (initial_consistent edges cw)
  rw [h] at a1
  obtain rfl := Res.ok.inj a1
  have w := findFaces_walks hL hN v (initial_consistent edges cw) (by intro f ns es h; simp [initial] at h) h f ns es h1 h2
  exact ⟨(a2.proper f ns es h1 h2).1, w.start, fun i a e e' l _ => w.turns i a e e' l⟩

/-! ## Directed edges -/

/-- A tight polygon that turns as sharply as possible at its first node as well. -/
structure Round (edges : List Edge) (adj : List (List Nat)) (ns es : List Nat) : Prop where
  tight : Tight edges adj ns es
  last : ∀ (a e e' : Nat) l, ns[0]? = some a → es[ns.length - 1]? = some e → es[0]? = some e' → adj[a]? = some l → Before l e' e

/-- Both polygons pass the edge in the same direction. -/
def SameWay (ns es ns' es' : List Nat) : Prop := ∃ (i j a e : Nat), ns[i]? = some a ∧ es[i]? = some e ∧ ns'[j]? = some a ∧ es'[j]? = some e

theorem before_next {l : List Nat} (hl : l.Nodup) {a b c : Nat} (h : Before l a b) (h' : Before l a c) : b = c := by
  obtain ⟨i, h1, h2⟩ := h
  obtain ⟨j, h3, h4⟩ := h'
  have hi : i < l.length := (List.getElem?_eq_some_iff.1 h1).1
  have : i = j := (List.getElem?_inj hi hl).1 (h1.trans h3.symm)
  subst this
  rw [h2] at h4
  exact Option.some.inj h4

theorem before_prev {l : List Nat} (hl : l.Nodup) {a b c : Nat} (h : Before l a c) (h' : Before l b c) : a = b := by
  have h1 := previousPlace_before hl h
  have h2 := previousPlace_before hl h'
  rw [h1] at h2
  exact Option.some.inj h2

theorem Round.turn {ns es : List Nat} (h : Round edges adj ns es) {i a e e' : Nat} {l : List Nat} (ha : ns[(i + 1) % ns.length]? = some a)
    (he : es[i]? = some e) (he' : es[(i + 1) % ns.length]? = some e') (hl : adj[a]? = some l) : Before l e' e := by
  have hi : i < ns.length := by rw [← h.tight.proper.len]; exact (List.getElem?_eq_some_iff.1 he).1
  rcases Nat.lt_or_ge (i + 1) ns.length with h1 | h1
  · rw [Nat.mod_eq_of_lt h1] at ha he'
    exact h.tight.turns i a e e' l h1 ha he he' hl
  · have : i = ns.length - 1 := by omega
    have h2 : i + 1 = ns.length := by omega
    rw [h2, Nat.mod_self] at ha he'
    subst this
    exact h.last a e e' l ha he he' hl

theorem joins_same_end {p : Edge} {a b c : Nat} (h : Joins p a b) (h' : Joins p a c) : b = c := by
  rw [← otherNode_joins h, ← otherNode_joins h']

theorem joins_symm {p : Edge} {a b : Nat} (h : Joins p a b) : Joins p b a := by
  rcases h with h | h
  · exact Or.inr h
  · exact Or.inl h

/-- A tight polygon that passes one edge of a round one in the same direction has the same edges. -/
theorem same_way_same_edges (hL : Listed edges adj N) {ns es ns' es' : List Nat} (hc : Round edges adj ns es) (hv : ∀ n ∈ ns, n < N)
    (hf : Tight edges adj ns' es') (hs : SameWay ns es ns' es') : ∀ e, e ∈ es' ↔ e ∈ es := by
  have h3 := hc.tight.proper.atLeast
  have h3' := hf.proper.atLeast
  have hlen := hc.tight.proper.len
  have hlen' := hf.proper.len
  have sideC : ∀ i, i < ns.length → Side edges ns es i := hc.tight.proper.sides
  have listOf : ∀ n ∈ ns, ∃ l, adj[n]? = some l ∧ l.Nodup := by
    intro n hn
    have hlt : n < adj.length := by rw [hL.len]; exact hv n hn
    exact ⟨adj[n], List.getElem?_eq_getElem hlt, hL.nodup n _ (List.getElem?_eq_getElem hlt)⟩
  -- one step forward
  have forward : ∀ (i j a e : Nat), ns[i]? = some a → es[i]? = some e → ns'[j]? = some a → es'[j]? = some e → j + 1 < ns'.length →
      ∃ b e2, ns[(i + 1) % ns.length]? = some b ∧ es[(i + 1) % ns.length]? = some e2 ∧ ns'[j + 1]? = some b ∧ es'[j + 1]? = some e2 := by
    intro i j a e h1 h2 h4 h5 hj
    have hi : i < ns.length := (List.getElem?_eq_some_iff.1 h1).1
    obtain ⟨a1, b1, e1, p1, q1, q2, q3, q4, q5⟩ := sideC i hi
    rw [h1] at q1; rw [h2] at q3
    obtain rfl := Option.some.inj q1
    obtain rfl := Option.some.inj q3
    obtain ⟨a2, b2, e2, p2, r1, r2, r3, r4, r5⟩ := hf.proper.sides j (by omega)
    rw [h4] at r1; rw [h5] at r3
    obtain rfl := Option.some.inj r1
    obtain rfl := Option.some.inj r3
    rw [q4] at r4
    obtain rfl := Option.some.inj r4
    obtain rfl := joins_same_end q5 r5
    rw [Nat.mod_eq_of_lt hj] at r2
    have hlt : (i + 1) % ns.length < es.length := by rw [hlen]; exact Nat.mod_lt _ (by omega)
    have hlt' : j + 1 < es'.length := by omega
    obtain ⟨l, l1, l2⟩ := listOf b1 (List.mem_of_getElem? q2)
    have t1 := hc.turn q2 h2 (List.getElem?_eq_getElem hlt) l1
    have t2 := hf.turns j b1 e _ l hj r2 h5 (List.getElem?_eq_getElem hlt') l1
    have := before_prev l2 t1 t2
    exact ⟨b1, es[(i + 1) % ns.length], q2, List.getElem?_eq_getElem hlt, r2, by rw [List.getElem?_eq_getElem hlt', ← this]⟩
  -- one step backward
  have backward : ∀ (i j a e : Nat), ns[i]? = some a → es[i]? = some e → ns'[j + 1]? = some a → es'[j + 1]? = some e →
      ∃ (i' : Nat) (b e2 : Nat), ns[i']? = some b ∧ es[i']? = some e2 ∧ ns'[j]? = some b ∧ es'[j]? = some e2 := by
    intro i j a e h1 h2 h4 h5
    have hi : i < ns.length := (List.getElem?_eq_some_iff.1 h1).1
    have hj : j + 1 < ns'.length := (List.getElem?_eq_some_iff.1 h4).1
    obtain ⟨i', hi', hi2⟩ : ∃ i', i' < ns.length ∧ (i' + 1) % ns.length = i := by
      rcases Nat.eq_zero_or_pos i with h0 | h0
      · refine ⟨ns.length - 1, by omega, ?_⟩
        have : ns.length - 1 + 1 = ns.length := by omega
        rw [this, Nat.mod_self, h0]
      · exact ⟨i - 1, by omega, by rw [Nat.mod_eq_of_lt (by omega)]; omega⟩
    obtain ⟨a1, b1, e1, p1, q1, q2, q3, q4, q5⟩ := sideC i' hi'
    rw [hi2, h1] at q2
    obtain rfl := Option.some.inj q2
    obtain ⟨a2, b2, e2, p2, r1, r2, r3, r4, r5⟩ := hf.proper.sides j (by omega)
    rw [Nat.mod_eq_of_lt hj, h4] at r2
    obtain rfl := Option.some.inj r2
    obtain ⟨l, l1, l2⟩ := listOf a (List.mem_of_getElem? h1)
    have t1 := hc.turn (by rw [hi2]; exact h1) q3 (by rw [hi2]; exact h2) l1
    have t2 := hf.turns j a e2 e l hj h4 r3 h5 l1
    obtain rfl := before_next l2 t1 t2
    rw [q4] at r4
    obtain rfl := Option.some.inj r4
    obtain rfl := joins_same_end (joins_symm q5) (joins_symm r5)
    exact ⟨i', a1, e1, q1, q3, r1, r3⟩
  -- the start of the second polygon
  have atStart : ∃ (o a e : Nat), ns[o]? = some a ∧ es[o]? = some e ∧ ns'[0]? = some a ∧ es'[0]? = some e := by
    obtain ⟨i, j, a, e, h1, h2, h4, h5⟩ := hs
    induction j generalizing i a e with
    | zero => exact ⟨i, a, e, h1, h2, h4, h5⟩
    | succ j ih =>
      obtain ⟨i', b, e2, g1, g2, g3, g4⟩ := backward i j a e h1 h2 h4 h5
      exact ih i' b e2 g1 g2 g3 g4
  obtain ⟨o, a0, e0, o1, o2, o3, o4⟩ := atStart
  have ho : o < ns.length := (List.getElem?_eq_some_iff.1 o1).1
  have all : ∀ t, t < ns'.length → ∃ b e, ns[(o + t) % ns.length]? = some b ∧ es[(o + t) % ns.length]? = some e ∧ ns'[t]? = some b ∧
      es'[t]? = some e := by
    intro t
    induction t with
    | zero => intro _; rw [Nat.add_zero, Nat.mod_eq_of_lt ho]; exact ⟨a0, e0, o1, o2, o3, o4⟩
    | succ t ih =>
      intro ht
      obtain ⟨b, e, g1, g2, g3, g4⟩ := ih (by omega)
      obtain ⟨b2, e2, k1, k2, k3, k4⟩ := forward _ t b e g1 g2 g3 g4 ht
      have : ((o + t) % ns.length + 1) % ns.length = (o + (t + 1)) % ns.length := by
        rw [Nat.mod_add_mod]; congr 1
      rw [this] at k1 k2
      exact ⟨b2, e2, k1, k2, k3, k4⟩
  -- the second polygon is not longer
  have hle : ns'.length ≤ ns.length := by
    by_contra hgt
    obtain ⟨b, e, g1, g2, g3, g4⟩ := all ns.length (by omega)
    rw [Nat.add_mod_right, Nat.mod_eq_of_lt ho, o1] at g1
    obtain rfl := Option.some.inj g1
    have := (List.getElem?_inj (by omega) hf.proper.nodesDistinct).1 (o3.trans g3.symm)
    omega
  -- nor shorter
  have hge : ns.length ≤ ns'.length := by
    by_contra hlt
    obtain ⟨b, e, g1, g2, g3, g4⟩ := all (ns'.length - 1) (by omega)
    have hi := Nat.mod_lt (o + (ns'.length - 1)) (by omega : 0 < ns.length)
    obtain ⟨a1, b1, e1, p1, q1, q2, q3, q4, q5⟩ := sideC _ hi
    rw [g1] at q1; rw [g2] at q3
    obtain rfl := Option.some.inj q1
    obtain rfl := Option.some.inj q3
    obtain ⟨a2, b2, e2, p2, r1, r2, r3, r4, r5⟩ := hf.proper.sides (ns'.length - 1) (by omega)
    rw [g3] at r1; rw [g4] at r3
    obtain rfl := Option.some.inj r1
    obtain rfl := Option.some.inj r3
    rw [q4] at r4
    obtain rfl := Option.some.inj r4
    obtain rfl := joins_same_end q5 r5
    have e1 : ns'.length - 1 + 1 = ns'.length := by omega
    rw [e1, Nat.mod_self, o3] at r2
    obtain rfl := Option.some.inj r2
    have e2 : ((o + (ns'.length - 1)) % ns.length + 1) % ns.length = (o + ns'.length) % ns.length := by
      rw [Nat.mod_add_mod]; congr 1; omega
    rw [e2] at q2
    have := (List.getElem?_inj ho hc.tight.proper.nodesDistinct).1 (o1.trans q2.symm)
    rcases Nat.lt_or_ge (o + ns'.length) ns.length with hx | hx
    · rw [Nat.mod_eq_of_lt hx] at this; omega
    · rw [Nat.mod_eq_sub_mod hx, Nat.mod_eq_of_lt (by omega)] at this; omega
  intro e
  constructor
  · intro he
    obtain ⟨t, ht, rfl⟩ := List.mem_iff_getElem.1 he
    obtain ⟨b, e, _, g2, _, g4⟩ := all t (by omega)
    rw [List.getElem?_eq_getElem ht] at g4
    obtain rfl := Option.some.inj g4
    exact List.mem_of_getElem? g2
  · intro he
    obtain ⟨i, hi, rfl⟩ := List.mem_iff_getElem.1 he
    have hi2 : i < ns.length := by omega
    obtain ⟨t, ht, ht2⟩ : ∃ t, t < ns.length ∧ (o + t) % ns.length = i := by
      rcases Nat.lt_or_ge i o with hx | hx
      · exact ⟨ns.length + i - o, by omega, by
          have : o + (ns.length + i - o) = ns.length + i := by omega
          rw [this, Nat.add_mod_left, Nat.mod_eq_of_lt hi2]⟩
      · exact ⟨i - o, by omega, by
          have : o + (i - o) = i := by omega
          rw [this, Nat.mod_eq_of_lt hi2]⟩
    obtain ⟨b, e, _, g2, _, g4⟩ := all t (by omega)
    rw [ht2, List.getElem?_eq_getElem hi] at g2
    obtain rfl := Option.some.inj g2
    exact List.mem_of_getElem? g4

end Verif.Faces
