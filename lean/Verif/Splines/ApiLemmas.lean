import Verif.Splines.CurveLemmas
/-!
# Lemmas on the splines handed out and on the container
-/
namespace Verif.Splines
open Verif.Polygons (Pt findIndices missingDouble outerSep isSep spans slice_mid findLoop_join join_one join_cons)

theorem between_ok {ps : List Pt} {X Y : List Cubic} (h : Curve ps X Y) {n : Nat} (hn : n + 1 < ps.length) {count : Nat} (hc : count + 1 ≤ 100000)
    (hv : ∀ k : Nat, k < count → (pointAt X Y n (((k + 1 : Nat) : ℚ) / ((count : ℚ) + 1))).isValid = true) :
    ∀ (k p : Nat), p + k = count →
      between ps (secondPts ps) n count (p + 1) k = .ok ((List.range' p k).map fun j => pointAt X Y n (((j + 1 : Nat) : ℚ) / ((count : ℚ) + 1)))
  | 0, _, _ => rfl
  | k + 1, p, hp => by
    have hpos : (0 : ℚ) < (count : ℚ) + 1 := by
      have : (0 : ℚ) ≤ count := by exact_mod_cast Nat.zero_le count
      linarith
    have hq : ((p + 1 : Nat) : ℚ) < (count : ℚ) + 1 := by exact_mod_cast (by omega : p + 1 < count + 1)
    have hq1 : (1 : ℚ) ≤ ((p + 1 : Nat) : ℚ) := by exact_mod_cast (by omega : 1 ≤ p + 1)
    have hcc : (count : ℚ) + 1 ≤ 100000 := by exact_mod_cast hc
    have e1 : eps ≤ ((p + 1 : Nat) : ℚ) / ((count : ℚ) + 1) := by
      rw [le_div_iff₀ hpos]
      unfold eps
      linarith
    have e2 : ((p + 1 : Nat) : ℚ) / ((count : ℚ) + 1) < 1 := by rw [div_lt_one hpos]; exact hq
    rw [between, evaluate_between h hn e1 e2]
    simp only [Res.ok_bind]
    rw [hv p (by omega)]
    simp only [Bool.not_true, Bool.false_eq_true, if_false]
    rw [between_ok h hn hc hv k (p + 1) (by omega)]
    simp only [Res.ok_bind, List.range'_succ, List.map_cons]

theorem segments_ok {ps : List Pt} {X Y : List Cubic} (h : Curve ps X Y) {count : Nat} (hc : count + 1 ≤ 100000) (hv : SamplesValid ps X Y count) :
    ∀ (k n : Nat), n + k + 1 = ps.length →
      segments ps (secondPts ps) count n k = .ok ((List.range' n k).flatMap fun n => ps[n]?.toList ++ (List.range count).map fun k => pointAt X Y n (((k + 1 : Nat) : ℚ) / ((count : ℚ) + 1)))
  | 0, _, _ => rfl
  | k + 1, n, hk => by
    have a0 := List.getElem?_eq_getElem (show n < ps.length by omega)
    have hb := between_ok h (n := n) (by omega) hc (fun k hk' => hv n k (by omega) hk') count 0 (by omega)
    rw [segments, vget_some a0]
    simp only [Res.ok_bind, Nat.zero_add] at hb ⊢
    rw [hb]
    simp only [Res.ok_bind]
    rw [segments_ok h hc hv k (n + 1) (by omega)]
    simp only [Res.ok_bind, List.range'_succ, List.flatMap_cons, a0, Option.toList_some, List.range_eq_range', List.cons_append, List.nil_append]

theorem oneSpline_ok {ps : List Pt} (hne : ps ≠ []) {X Y : List Cubic} (h : Curve ps X Y) {count : Nat} (hc : count + 1 ≤ 100000)
    (hv : SamplesValid ps X Y count) : oneSpline ps count = .ok (sampled ps X Y count) := by
  have hl := List.length_pos_iff.2 hne
  unfold oneSpline sampled
  rw [segments_ok h hc hv (ps.length - 1) 0 (by omega)]
  simp only [Res.ok_bind]
  rw [List.getLast?_eq_getLast_of_ne_nil hne, List.range_eq_range' (n := ps.length - 1)]
  rfl

theorem allSplines_ok {count : Nat} (f : List Pt → List Pt) : ∀ (l : List (List Pt)) (pre : List Pt), (∀ r ∈ l, r ≠ [] ∧ oneSpline r count = .ok (f r)) →
    allSplines (pre ++ joined l) count (spans (pre ++ joined l).length pre.length l) = .ok (joined (l.map f))
  | [], _, _ => rfl
  | [r], pre, h => by
    obtain ⟨h1, h2⟩ := h r (by simp)
    have hl := List.length_pos_iff.2 h1
    have hm := slice_mid pre r []
    rw [List.append_nil] at hm
    simp only [joined, join_one, spans, allSplines, List.map_cons, List.map_nil, List.length_append]
    rw [show pre.length + r.length - 1 + 1 = pre.length + r.length by omega, hm, h2]
  | r :: q :: l, pre, h => by
    obtain ⟨h1, h2⟩ := h r (by simp)
    have hl := List.length_pos_iff.2 h1
    have ih := allSplines_ok f (q :: l) (pre ++ (r ++ [outerSep])) (fun x hx => h x (by simp [List.mem_cons.1 hx]))
    have e : joined (r :: q :: l) = r ++ outerSep :: joined (q :: l) := by simp only [joined, join_cons]
    have e2 : pre ++ (r ++ [outerSep]) ++ joined (q :: l) = pre ++ joined (r :: q :: l) := by rw [e]; simp
    have e3 : (pre ++ (r ++ [outerSep])).length = pre.length + r.length + 1 := by simp; omega
    rw [e2, e3] at ih
    have e4 : spans (pre ++ joined (r :: q :: l)).length pre.length (r :: q :: l) =
        (pre.length, pre.length + r.length - 1) :: spans (pre ++ joined (r :: q :: l)).length (pre.length + r.length + 1) (q :: l) := rfl
    have hne : ∃ a b, spans (pre ++ joined (r :: q :: l)).length (pre.length + r.length + 1) (q :: l) = a :: b := by
      cases l with
      | nil => exact ⟨_, _, rfl⟩
      | cons x y => exact ⟨_, _, rfl⟩
    rw [e4]
    obtain ⟨a, b, hab⟩ := hne
    rw [hab] at ih ⊢
    rw [allSplines]
    · rw [ih, show pre.length + r.length - 1 + 1 = pre.length + r.length by omega]
      have hm := slice_mid pre r (outerSep :: joined (q :: l))
      rw [e, hm, h2]
      simp only [Res.ok_bind, List.map_cons, joined, join_cons]
    · simp

theorem joined_ne {l : List (List Pt)} (hl : l ≠ []) (h : ∀ r ∈ l, r ≠ []) : joined l ≠ [] := by
  cases l with
  | nil => exact absurd rfl hl
  | cons r l =>
    have := h r (by simp)
    cases l with
    | nil => simpa [joined, join_one] using this
    | cons q l => simp [joined, join_cons]

theorem getSplines_ok {count : Nat} (f : List Pt → List Pt) {l : List (List Pt)} (hl : l ≠ []) (h : ∀ r ∈ l, r ≠ [] ∧ Plain r ∧ oneSpline r count = .ok (f r)) :
    getSplines (joined l) count = .ok (joined (l.map f)) := by
  have hne := joined_ne hl (fun r hr => (h r hr).1)
  unfold getSplines
  rw [if_neg (by have := List.length_pos_iff.2 hne; omega)]
  unfold findIndices
  rw [if_neg (by simpa using hne), if_neg (by omega), List.take_length, List.drop_zero]
  rw [show joined l = List.intercalate [outerSep] l from rfl,
    findLoop_join Polygons.outerSep_isSep _ _ (fun b hb => ⟨(h b hb).1, (h b hb).2.1⟩) 0]
  have := allSplines_ok f l [] (fun r hr => ⟨(h r hr).1, (h r hr).2.2⟩)
  simpa [joined] using this

/-! ## Derivatives of a plain list -/

theorem splineDerivative_plain {ps : List Pt} (h : Plain ps) : splineDerivative ps = secondPts ps := by
  by_cases hne : ps = []
  · subst hne; rfl
  have hl := List.length_pos_iff.2 hne
  unfold splineDerivative findIndices
  rw [if_neg (by simpa using hne), if_neg (by omega), List.take_length, List.drop_zero]
  have hj := findLoop_join Polygons.outerSep_isSep ps.length [ps] (by
    intro b hb
    rw [List.mem_singleton.1 hb]
    exact ⟨hne, h⟩) 0
  rw [join_one] at hj
  rw [hj]
  simp only [spans, derivativeLoop, List.take_zero, List.nil_append, List.drop_zero]
  rw [show ps.length - 1 + 1 = ps.length by omega, List.take_length]
  simp

/-! ## Reversal -/

theorem system_reverse {ys ms : List ℚ} (h : System ys ms) : System ys.reverse ms.reverse := by
  refine ⟨by simp [h.len], ?_, ?_, ?_⟩
  · have := h.last
    rwa [List.headD_eq_head?_getD, List.head?_reverse, ← List.getLastD_eq_getLast?]
  · have := h.first
    rwa [List.getLastD_eq_getLast?, List.getLast?_reverse, ← List.headD_eq_head?_getD]
  · intro i y0 y1 y2 m0 m1 m2 e0 e1 e2 f0 f1 f2
    have hi : i + 2 < ys.length := by simpa using (List.getElem?_eq_some_iff.1 e2).1
    have hl := h.len
    rw [List.getElem?_reverse (by omega)] at e0 e1 e2 f0 f1 f2
    rw [hl] at f0 f1 f2
    have := h.mid (ys.length - 1 - (i + 2)) y2 y1 y0 m2 m1 m0 e2
      (by rw [show ys.length - 1 - (i + 2) + 1 = ys.length - 1 - (i + 1) by omega]; exact e1)
      (by rw [show ys.length - 1 - (i + 2) + 2 = ys.length - 1 - i by omega]; exact e0) f2
      (by rw [show ys.length - 1 - (i + 2) + 1 = ys.length - 1 - (i + 1) by omega]; exact f1)
      (by rw [show ys.length - 1 - (i + 2) + 2 = ys.length - 1 - i by omega]; exact f0)
    linarith

theorem second_reverse (ys : List ℚ) : second ys.reverse = (second ys).reverse :=
  system_unique (second_system ys.reverse) (system_reverse (second_system ys))

theorem secondPts_reverse (ps : List Pt) : secondPts ps.reverse = (secondPts ps).reverse := by
  unfold secondPts
  rw [List.map_reverse, List.map_reverse, second_reverse, second_reverse, List.reverse_zipWith]
  simp [second_length]

theorem Plain.reverse {ps : List Pt} (h : Plain ps) : Plain ps.reverse := fun p hp => h p (List.mem_reverse.1 hp)

/-! ## Histories -/

/-- The invariant of the container. -/
structure Inv (s : Container) : Prop where
  kept : Kept s
  plain : ∀ ps ∈ s.nodes, Plain ps

theorem inv_set {s : Container} (h : Inv s) {i : Nat} {ps : List Pt} (hp : Plain ps) :
    Inv ⟨s.nodes.set i ps, s.derivatives.set i (splineDerivative ps)⟩ := by
  refine ⟨⟨by simpa using h.kept.len, ?_⟩, ?_⟩
  · intro k qs hq
    have hlen := h.kept.len
    simp only [List.getElem?_set] at hq ⊢
    split
    · rename_i hik
      rw [if_pos hik] at hq
      split at hq
      · rw [if_pos (by omega)]
        rw [Option.some.inj hq]
      · simp at hq
    · rename_i hik
      rw [if_neg hik] at hq
      exact h.kept.each k qs hq
  · intro qs hq
    rcases List.mem_or_eq_of_mem_set hq with hq | rfl
    · exact h.plain qs hq
    · exact hp

theorem inv_apply {s s' : Container} (h : Inv s) {e : Edit} (he : e.PlainPoints) (ha : apply s e = .ok s') : Inv s' := by
  cases e with
  | add ps =>
    simp only [apply, addSpline] at ha
    split at ha
    · rw [← Res.ok.inj ha]; exact h
    · simp only [Nat.zero_add, Nat.lt_irrefl, if_false, List.take_length, List.drop_zero, Res.ok.injEq] at ha
      subst ha
      refine ⟨⟨by simp [h.kept.len], ?_⟩, ?_⟩
      · intro i qs hq
        have hlen := h.kept.len
        simp only [List.getElem?_append] at hq ⊢
        split at hq
        · rw [if_pos (by omega)]
          exact h.kept.each i qs hq
        · rw [if_neg (by omega), hlen]
          obtain ⟨h1, h2⟩ := List.getElem?_eq_some_iff.1 hq
          simp only [List.length_singleton] at h1
          simp only [Nat.lt_one_iff.1 h1, List.getElem_cons_zero, List.getElem?_cons_zero] at h2 ⊢
          rw [h2]
      · intro qs hq
        rcases List.mem_append.1 hq with hq | hq
        · exact h.plain qs hq
        · rw [List.mem_singleton.1 hq]; exact he
  | replace i ps =>
    simp only [apply, replace] at ha
    obtain ⟨ns, h1, ha⟩ := Res.bind_eq_ok.1 ha
    obtain ⟨ms, h2, ha⟩ := Res.bind_eq_ok.1 ha
    rw [← Res.ok.inj ha, (vset_eq_ok.1 h1).2, (vset_eq_ok.1 h2).2]
    exact inv_set h he
  | delete i =>
    simp only [apply, deleteSpline] at ha
    split at ha
    · simp at ha
    · rw [← Res.ok.inj ha]
      refine ⟨⟨by simp [List.length_eraseIdx, h.kept.len], ?_⟩, ?_⟩
      · intro k qs hq
        simp only [List.getElem?_eraseIdx] at hq ⊢
        split at hq
        · rename_i hk
          rw [if_pos hk]; exact h.kept.each k qs hq
        · rename_i hk
          rw [if_neg hk]; exact h.kept.each (k + 1) qs hq
      · intro qs hq
        exact h.plain qs (List.mem_of_mem_eraseIdx hq)
  | swap i j =>
    simp only [apply, swapSplines] at ha
    split at ha
    · simp at ha
    split at ha
    · simp at ha
    split at ha
    · rw [← Res.ok.inj ha]; exact h
    rename_i hij
    obtain ⟨a, g1, ha⟩ := Res.bind_eq_ok.1 ha
    obtain ⟨b, g2, ha⟩ := Res.bind_eq_ok.1 ha
    obtain ⟨n1, g3, ha⟩ := Res.bind_eq_ok.1 ha
    obtain ⟨n2, g4, ha⟩ := Res.bind_eq_ok.1 ha
    obtain ⟨c, g5, ha⟩ := Res.bind_eq_ok.1 ha
    obtain ⟨d, g6, ha⟩ := Res.bind_eq_ok.1 ha
    obtain ⟨d1, g7, ha⟩ := Res.bind_eq_ok.1 ha
    obtain ⟨d2, g8, ha⟩ := Res.bind_eq_ok.1 ha
    rw [← Res.ok.inj ha]
    have k1 := vget_eq_ok.1 g1
    have k2 := vget_eq_ok.1 g2
    have k5 := vget_eq_ok.1 g5
    have k6 := vget_eq_ok.1 g6
    rw [h.kept.each i a k1] at k5
    rw [h.kept.each j b k2] at k6
    rw [(vset_eq_ok.1 g4).2, (vset_eq_ok.1 g8).2, (vset_eq_ok.1 g3).2, (vset_eq_ok.1 g7).2, ← Option.some.inj k5, ← Option.some.inj k6]
    exact inv_set (inv_set h (h.plain b (List.mem_of_getElem? k2))) (h.plain a (List.mem_of_getElem? k1))
  | reverse i =>
    simp only [apply, reverse] at ha
    split at ha
    · simp at ha
    obtain ⟨a, g1, ha⟩ := Res.bind_eq_ok.1 ha
    obtain ⟨n1, g2, ha⟩ := Res.bind_eq_ok.1 ha
    obtain ⟨c, g3, ha⟩ := Res.bind_eq_ok.1 ha
    obtain ⟨d1, g4, ha⟩ := Res.bind_eq_ok.1 ha
    rw [← Res.ok.inj ha]
    have k1 := vget_eq_ok.1 g1
    have k3 := vget_eq_ok.1 g3
    rw [h.kept.each i a k1] at k3
    have hp := h.plain a (List.mem_of_getElem? k1)
    rw [(vset_eq_ok.1 g2).2, (vset_eq_ok.1 g4).2, ← Option.some.inj k3, splineDerivative_plain hp, ← secondPts_reverse,
      ← splineDerivative_plain hp.reverse]
    exact inv_set h hp.reverse

theorem run_kept {es : List Edit} (hp : ∀ e ∈ es, e.PlainPoints) {s s' : Container} (h : run s es = .ok s') (hi : Inv s) : Inv s' := by
  induction es generalizing s with
  | nil => rw [← Res.ok.inj h]; exact hi
  | cons e es ih =>
    obtain ⟨s1, h1, h2⟩ := Res.bind_eq_ok.1 h
    exact ih (fun x hx => hp x (List.mem_cons_of_mem _ hx)) h2 (inv_apply hi (hp e (by simp)) h1)

/-! ## Copying back -/

theorem copyBack_ok {snapped : List Pt} : ∀ (k i : Nat) (out : List Pt), i + k ≤ snapped.length → i + k ≤ out.length →
    copyBack snapped out i k = .ok (out.take i ++ (snapped.take (i + k)).drop i ++ out.drop (i + k))
  | 0, i, out, _, _ => by
    rw [copyBack]
    congr 1
    rw [Nat.add_zero, List.drop_take, Nat.sub_self, List.take_zero, List.append_nil, List.take_append_drop]
  | k + 1, i, out, h1, h2 => by
    rw [copyBack, vget_ok (by omega), Res.ok_bind, vset_ok _ (by omega), Res.ok_bind, copyBack_ok k (i + 1) _ (by omega) (by simp; omega)]
    congr 1
    rw [show i + 1 + k = i + (k + 1) by omega]
    rw [List.take_add_one, List.getElem?_set_self (by omega), List.take_set_of_le (by omega), List.drop_set_of_lt (by omega)]
    have : (snapped.take (i + (k + 1))).drop i = snapped[i] :: (snapped.take (i + (k + 1))).drop (i + 1) := by
      rw [List.drop_eq_getElem_cons (by simp; omega), List.getElem_take]
    rw [this]
    simp

theorem copyBack_ub {snapped : List Pt} : ∀ (k i : Nat) (out : List Pt), i ≤ snapped.length → snapped.length < i + k →
    copyBack snapped out i k = .ub
  | 0, i, _, h1, h2 => by omega
  | k + 1, i, out, h1, h2 => by
    rw [copyBack]
    by_cases hi : i < snapped.length
    · rw [vget_ok hi, Res.ok_bind]
      by_cases ho : i < out.length
      · rw [vset_ok _ ho, Res.ok_bind]
        exact copyBack_ub k (i + 1) _ (by omega) (by omega)
      · have : vset out i snapped[i] = .ub := by unfold vset; rw [if_neg ho]
        rw [this]
        rfl
    · have : vget snapped i = .ub := by unfold vget; rw [List.getElem?_eq_none (by omega)]
      rw [this]
      rfl

end Verif.Splines
