import Verif.Ortho.PropsLemmas
/-!
# Lemmas: orthogonalization reads and writes nothing out of bounds and throws nothing
-/
namespace Verif.Ortho
open Verif.Mesh
variable {K : Type} [Field K] [LinearOrder K]

theorem overNodes_ok {σ : Type} {f : Nat → σ → Res σ} (I : σ → Prop) {l : List Nat} {s : σ} (h0 : I s)
    (hs : ∀ n s, n ∈ l → I s → ∃ s', f n s = .ok s' ∧ I s') : ∃ t, overNodes f l s = .ok t ∧ I t := by
  induction l generalizing s with
  | nil => exact ⟨s, rfl, h0⟩
  | cons n l ih =>
    obtain ⟨s1, a, b⟩ := hs n s List.mem_cons_self h0
    obtain ⟨t, c, d⟩ := ih b (fun n s hn => hs n s (List.mem_cons_of_mem _ hn))
    exact ⟨t, by simp only [overNodes]; rw [a, Res.ok_bind, c], d⟩

/-- The rows have the right sizes. -/
structure Sized (net : Net) (w : Weights K) (N : Nat) (b : List Nat × List Nat × Nat) : Prop where
  first : b.1.length = N
  last : b.2.1.length = N
  row : ∀ (n o e : Nat) l c, b.1[n]? = some o → b.2.1[n]? = some e → net.adj[n]? = some l → w.numConnected[n]? = some c →
    e = o + max (l.length + 1) c
  bound : ∀ (n e : Nat), b.2.1[n]? = some e → e ≤ b.2.2

omit [Field K] [LinearOrder K] in
theorem rowBounds_ok {net : Net} {w : Weights K} {N : Nat} (h1 : net.adj.length = N) (h2 : w.numConnected.length = N) :
    ∃ b, rowBounds net w N = .ok b ∧ Sized net w N b := by
  unfold rowBounds
  refine forRange_inv (fun k b => Sized net w k b) (Nat.zero_le N) ⟨rfl, rfl, by simp, by simp⟩ ?_
  rintro k b _ hk ⟨i1, i2, i3, i4⟩
  have e1 := List.getElem?_eq_getElem (l := net.adj) (i := k) (by omega)
  have e2 := List.getElem?_eq_getElem (l := w.numConnected) (i := k) (by omega)
  have hr : rowSize net w k = .ok (max ((net.adj[k]'(by omega)).length + 1) (w.numConnected[k]'(by omega))) := by
    unfold rowSize
    rw [vget_eq_ok.2 e1, Res.ok_bind, vget_eq_ok.2 e2, Res.ok_bind]
  rw [hr, Res.ok_bind]
  refine ⟨_, rfl, by simp [i1], by simp [i2], ?_, ?_⟩
  · intro n o e l c ho he hl hc
    simp only at ho he
    by_cases hn : n < k
    · rw [List.getElem?_append_left (by omega)] at ho he
      exact i3 n o e l c ho he hl hc
    · have hlt := (List.getElem?_eq_some_iff.1 ho).1
      simp only [List.length_append, List.length_singleton, i1] at hlt
      have : n = k := by omega
      subst this
      rw [List.getElem?_append_right (by omega)] at ho he
      simp only [i1, i2, Nat.sub_self, List.getElem?_cons_zero, Option.some.injEq] at ho he
      rw [e1] at hl
      rw [e2] at hc
      obtain rfl := Option.some.inj hl
      obtain rfl := Option.some.inj hc
      omega
  · intro n e he
    simp only at he
    show e ≤ b.2.2 + _
    by_cases hn : n < k
    · rw [List.getElem?_append_left (by omega)] at he
      have := i4 n e he
      omega
    · have hlt := (List.getElem?_eq_some_iff.1 he).1
      simp only [List.length_append, List.length_singleton, i2] at hlt
      have : n = k := by omega
      subst this
      rw [List.getElem?_append_right (by omega)] at he
      simp only [i2, Nat.sub_self, List.getElem?_cons_zero, Option.some.injEq] at he
      omega

/-- The system has the right sizes. -/
structure Fits (b : List Nat × List Nat × Nat) (N : Nat) (s : System K) : Prop where
  eqFirst : s.first = b.1
  eqLast : s.last = b.2.1
  nodes : s.nodes.length = b.2.2
  weight : s.weight.length = b.2.2
  rhs : s.rhs.length = N * 2
  range : ∀ k ∈ s.nodes, k < N

omit [Field K] [LinearOrder K] in
theorem store_ok {b : List Nat × List Nat × Nat} {N : Nat} {s : System K} (h : Fits b N s) {i k : Nat} (w : K) (hi : i < b.2.2) (hk : k < N) :
    ∃ s', store i k w s = .ok s' ∧ Fits b N s' := by
  rw [store_eq, if_pos ⟨by rw [h.nodes]; exact hi, by rw [h.weight]; exact hi⟩]
  refine ⟨_, rfl, h.eqFirst, h.eqLast, by simp [h.nodes], by simp [h.weight], h.rhs, ?_⟩
  intro j hj
  rcases List.mem_or_eq_of_mem_set hj with h' | h'
  · exact h.range j h'
  · rw [h']; exact hk

theorem entryOf_ok {net : Net} {w : Weights K} {N : Nat} (hT : Tables net.edges net.adj net.numFaces N) (hw : Shaped net w N) (a : K) {t : Int} {n c nn : Nat}
    {l : List Nat} (ht : net.types[n]? = some t) (hl : net.adj[n]? = some l) (hc : w.numConnected[n]? = some c) (h1 : 1 ≤ nn) (h2 : nn < max (l.length + 1) c) :
    ∃ e, entryOf net w a t n l.length nn = .ok e ∧ e.1 < N := by
  have hs : ∃ ww, smoothTerm w a t n nn = .ok ww := by
    unfold smoothTerm
    split
    · next hcond =>
      obtain ⟨r, r1, r2⟩ := hw.smooth n l c (by rw [ht, hcond.2]) hl hc
      unfold vget2
      rw [vget_eq_ok.2 r1, Res.ok_bind, vget_ok (by omega), Res.ok_bind]
      exact ⟨_, rfl⟩
    · exact ⟨_, rfl⟩
  obtain ⟨ww, hs⟩ := hs
  unfold entryOf
  rw [hs, Res.ok_bind]
  split
  · next hlt =>
    obtain ⟨r, r1, r2⟩ := hw.orth n l hl
    unfold vget2
    rw [vget_eq_ok.2 r1, Res.ok_bind, vget_ok (by omega), Res.ok_bind]
    unfold neighbour
    have hlt' : nn - 1 < l.length := by omega
    obtain ⟨p, p1, p2, p3, p4⟩ := (hT.mem n l hl l[nn - 1]).1 (List.getElem_mem hlt')
    rw [vget_eq_ok.2 hl, Res.ok_bind, vget_ok hlt', Res.ok_bind, vget_eq_ok.2 p1, Res.ok_bind, Res.ok_bind]
    refine ⟨_, rfl, ?_⟩
    rcases hT.valid p (List.mem_of_getElem? p1) with h | h | ⟨h3, h4, _⟩
    · exact absurd h p2
    · exact absurd h p3
    · unfold otherNode
      simp only
      split
      · exact h4
      · exact h3
  · next hlt =>
    obtain ⟨r, r1, r2, r3⟩ := hw.connected n c hc
    unfold vget2
    have : nn < r.length := by omega
    rw [vget_eq_ok.2 r1, Res.ok_bind, vget_ok this, Res.ok_bind]
    exact ⟨_, rfl, r3 _ (List.getElem_mem this)⟩

theorem prepare_ok {net : Net} {w : Weights K} {N : Nat} (hT : Tables net.edges net.adj net.numFaces N) (hty : net.types.length = N) (hw : Shaped net w N) (f : Factors K)
    {sched : List Nat} (hsched : ∀ n ∈ sched, n < N) : ∃ b s, Sized net w N b ∧ prepare sched net f w N = .ok s ∧ Fits b N s := by
  obtain ⟨b, b1, b2⟩ := rowBounds_ok (net := net) (w := w) hT.len hw.numConnected
  have h0 : Fits b N (⟨b.1, b.2.1, List.replicate b.2.2 0, List.replicate b.2.2 0, List.replicate (N * 2) 0⟩ : System K) := by
    refine ⟨rfl, rfl, by simp, by simp, by simp, ?_⟩
    intro k hk
    obtain ⟨c1, c2⟩ := List.mem_replicate.1 hk
    rw [c2]
    by_contra hN
    have hN : N = 0 := by omega
    subst hN
    unfold rowBounds at b1
    rw [forRange_empty (Nat.le_refl 0)] at b1
    obtain rfl := Res.ok.inj b1
    exact c1 rfl
  obtain ⟨s, s1, s2⟩ := overNodes_ok (f := termsOfNode net f w) (Fits b N) (l := sched) h0 (by
    intro n s hn hs
    have hnN := hsched n hn
    have ht := List.getElem?_eq_getElem (l := net.types) (i := n) (by omega)
    have hl := List.getElem?_eq_getElem (l := net.adj) (i := n) (by rw [hT.len]; omega)
    have hc := List.getElem?_eq_getElem (l := w.numConnected) (i := n) (by rw [hw.numConnected]; omega)
    have ho := List.getElem?_eq_getElem (l := b.1) (i := n) (by rw [b2.first]; omega)
    have he := List.getElem?_eq_getElem (l := b.2.1) (i := n) (by rw [b2.last]; omega)
    have hr := List.getElem?_eq_getElem (l := w.rhs) (i := n) (by rw [hw.rhs]; omega)
    generalize net.types[n]'(by omega) = t at ht
    generalize net.adj[n]'(by rw [hT.len]; omega) = l at hl
    generalize w.numConnected[n]'(by rw [hw.numConnected]; omega) = c at hc
    generalize b.1[n]'(by rw [b2.first]; omega) = o at ho
    generalize b.2.1[n]'(by rw [b2.last]; omega) = e at he
    generalize w.rhs[n]'(by rw [hw.rhs]; omega) = r at hr
    unfold termsOfNode
    rw [vget_eq_ok.2 ht, Res.ok_bind, vget_eq_ok.2 hl, Res.ok_bind]
    split
    · exact ⟨s, rfl, hs⟩
    · rw [hs.eqFirst, vget_eq_ok.2 ho, Res.ok_bind, hs.eqLast, vget_eq_ok.2 he, Res.ok_bind]
      have hsz := b2.row n o e l c ho he hl hc
      have hbd := b2.bound n e he
      obtain ⟨s1, c1, c2⟩ := forRange_inv (f := termEntry net w (localFactor f t) t n l.length o) (fun _ s => Fits b N s) (lo := 1) (hi := e - o) (by omega) hs (by
        intro nn s h1 h2 hs
        obtain ⟨en, d1, d2⟩ := entryOf_ok hT hw (localFactor f t) ht hl hc h1 (by omega)
        rw [termEntry_eq, d1, Res.ok_bind]
        exact store_ok hs en.2 (by omega) d2)
      rw [c1, Res.ok_bind, vget_eq_ok.2 hr, Res.ok_bind]
      rw [vset_ok _ (by rw [c2.rhs]; omega), Res.ok_bind, vset_ok _ (by rw [List.length_set, c2.rhs]; omega), Res.ok_bind]
      exact ⟨_, rfl, c2.eqFirst, c2.eqLast, c2.nodes, c2.weight, by simp [c2.rhs], c2.range⟩)
  refine ⟨b, s, b2, ?_, s2⟩
  unfold prepare allocate
  rw [b1, Res.ok_bind, Res.ok_bind]
  exact s1

theorem updateNode_ok {net : Net} {w : Weights K} {N : Nat} {b : List Nat × List Nat × Nat} (hb : Sized net w N b) {s : System K} (hs : Fits b N s) (M : Metric K)
    {nodes coords : List (Pt K)} (h1 : nodes.length = N) (h2 : coords.length = N) {n : Nat} (hn : n < N) :
    ∃ c, updateNode M s nodes n coords = .ok c ∧ c.length = N := by
  have ho := List.getElem?_eq_getElem (l := b.1) (i := n) (by rw [hb.first]; omega)
  have he := List.getElem?_eq_getElem (l := b.2.1) (i := n) (by rw [hb.last]; omega)
  generalize b.1[n]'(by rw [hb.first]; omega) = o at ho
  generalize b.2.1[n]'(by rw [hb.last]; omega) = e at he
  have hbd := hb.bound n e he
  have hi : ∃ a, increments M s nodes n = .ok a := by
    unfold increments
    rw [hs.eqFirst, vget_eq_ok.2 ho, Res.ok_bind, hs.eqLast, vget_eq_ok.2 he, Res.ok_bind]
    by_cases hle : 1 ≤ e - o
    · obtain ⟨a, ha, _⟩ := forRange_inv (f := addTerm M s nodes n o) (fun _ _ => True) (s := ⟨0, 0, 0, 0⟩) hle trivial (by
        intro nn a h3 h4 _
        unfold addTerm
        have hlt : o + (nn - 1) < s.nodes.length := by rw [hs.nodes]; omega
        have hk := hs.range _ (List.getElem_mem hlt)
        rw [vget_ok (by rw [hs.weight]; omega), Res.ok_bind, vget_ok hlt, Res.ok_bind, vget_ok (by omega), Res.ok_bind, vget_ok (by omega), Res.ok_bind]
        exact ⟨_, rfl, trivial⟩)
      exact ⟨a, ha⟩
    · exact ⟨_, forRange_empty (by omega) _⟩
  obtain ⟨a, ha⟩ := hi
  unfold updateNode
  rw [ha, Res.ok_bind]
  split
  · exact ⟨coords, rfl, h2⟩
  · rw [vget_ok (by rw [hs.rhs]; omega), Res.ok_bind, vget_ok (by rw [hs.rhs]; omega), Res.ok_bind, vget_ok (by omega), Res.ok_bind, vset_ok _ (by omega)]
    exact ⟨_, rfl, by simp [h2]⟩

omit [LinearOrder K] in
theorem boundaryPoints_ok {net : Net} {N : Nat} (hT : Tables net.edges net.adj net.numFaces N) {orig : List (Pt K)} (ho : orig.length = N) {n : Nat} :
    ∀ (l : List Nat) (count : Nat) (a b : Pt K), (∀ e ∈ l, ∃ p, net.edges[e]? = some p ∧ p.1 ≠ missing ∧ p.2 ≠ missing ∧ (p.1 = n ∨ p.2 = n)) →
      ∃ r, boundaryPoints net orig n l count a b = .ok r
  | [], _, a, b, _ => ⟨(a, b), rfl⟩
  | e :: l, count, a, b, h => by
    have ih := fun count a b => boundaryPoints_ok hT ho l count a b (fun e he => h e (List.mem_cons_of_mem _ he))
    obtain ⟨p, p1, p2, p3, p4⟩ := h e List.mem_cons_self
    have hother : otherNode p n < N ∧ otherNode p n ≠ missing := by
      rcases hT.valid p (List.mem_of_getElem? p1) with h | h | ⟨h3, h4, _⟩
      · exact absurd h p2
      · exact absurd h p3
      · unfold otherNode
        split
        · exact ⟨h4, p3⟩
        · exact ⟨h3, p2⟩
    simp only [boundaryPoints]
    rw [vget_ok (by rw [hT.numFaces]; exact (List.getElem?_eq_some_iff.1 p1).1), Res.ok_bind]
    split
    · exact ih _ _ _
    · rw [vget_eq_ok.2 p1, Res.ok_bind]
      split
      · rw [if_neg hother.2, vget_ok (by omega), Res.ok_bind]; exact ih _ _ _
      · split
        · rw [if_neg hother.2, vget_ok (by omega), Res.ok_bind]; exact ih _ _ _
        · exact ih _ _ _

theorem snapNode_ok {net : Net} {N : Nat} (hT : Tables net.edges net.adj net.numFaces N) (hty : net.types.length = N) (M : Metric K) {orig nodes : List (Pt K)}
    (h1 : orig.length = N) (h2 : nodes.length = N) {n : Nat} (hn : n < N) : ∃ r, snapNode M net orig n nodes = .ok r ∧ r.length = N := by
  have hl := List.getElem?_eq_getElem (l := net.adj) (i := n) (by rw [hT.len]; omega)
  generalize net.adj[n]'(by rw [hT.len]; omega) = l at hl
  unfold snapNode
  rw [vget_ok (by omega), Res.ok_bind, vget_eq_ok.2 hl, Res.ok_bind]
  split
  · exact ⟨nodes, rfl, h2⟩
  · rw [vget_ok (by omega), Res.ok_bind]
    split
    · exact ⟨nodes, rfl, h2⟩
    · obtain ⟨r, hr⟩ := boundaryPoints_ok hT h1 (n := n) l 0 Pt.missing Pt.missing (fun e he => (hT.mem n l hl e).1 he)
      rw [hr, Res.ok_bind]
      split
      · exact ⟨nodes, rfl, h2⟩
      · rw [vget_ok (by omega), Res.ok_bind]
        simp only
        rw [vset_ok _ (by omega)]
        exact ⟨_, rfl, by simp [h2]⟩

theorem iterate_ok {net : Net} {N : Nat} (hT : Tables net.edges net.adj net.numFaces N) (hty : net.types.length = N) (M : Metric K) (f : Factors K)
    {sched : List Nat} (hsched : ∀ n ∈ sched, n < N) {orig : List (Pt K)} (ho : orig.length = N) (rounds : Nat) {ws : List (Weights K)}
    (hw : ∀ w ∈ ws, Shaped net w N) {z : Positions K} (h1 : z.nodes.length = N) (h2 : z.coords.length = N) :
    ∃ z', iterate M sched net f orig rounds ws z = .ok z' := by
  induction ws generalizing z with
  | nil => exact ⟨z, rfl⟩
  | cons w ws ih =>
    obtain ⟨b, s, b1, b2, b3⟩ := prepare_ok hT hty (hw w List.mem_cons_self) f hsched
    simp only [iterate]
    rw [h1, b2, Res.ok_bind]
    obtain ⟨z1, c1, c2, c3⟩ := forRange_inv (f := fun _ => solve M sched net orig s) (fun _ (z : Positions K) => z.nodes.length = N ∧ z.coords.length = N)
      (Nat.zero_le rounds) (s := z) ⟨h1, h2⟩ (by
        rintro _ z _ _ ⟨d1, d2⟩
        obtain ⟨coords, e1, e2⟩ := overNodes_ok (f := updateNode M s z.nodes) (fun c => c.length = N) (l := sched) d2
          (fun n c hn hc => updateNode_ok b1 b3 M d1 hc (hsched n hn))
        obtain ⟨nodes, g1, g2⟩ := forRange_inv (f := snapNode M net orig) (fun _ (c : List (Pt K)) => c.length = N) (Nat.zero_le coords.length) (s := coords) e2
          (fun n c _ hn hc => snapNode_ok hT hty M ho hc (by omega))
        refine ⟨⟨nodes, coords⟩, ?_, g2, e2⟩
        unfold solve
        rw [e1, Res.ok_bind, g1, Res.ok_bind])
    rw [c1, Res.ok_bind]
    exact ih (fun w hw' => hw w (List.mem_cons_of_mem _ hw')) c2 c3

end Verif.Ortho
