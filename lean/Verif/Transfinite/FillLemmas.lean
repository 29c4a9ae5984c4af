import Verif.Transfinite.SideLemmas
import Mathlib.Tactic.FieldSimp
import Mathlib.Tactic.Positivity
import Mathlib.Tactic.LinearCombination
/-!
# Lemmas: the nodes between the sides
-/
namespace Verif.Transfinite
open Verif.Curvi Verif.CurviLine

variable {K : Type} [Field K] [LinearOrder K]

/-! ## Linearity -/

theorem mix_linear (s : Sides K) (n m : Nat) (α β : K) (l r b u l' r' b' u' : K) :
    α * s.mix n m l r b u + β * s.mix n m l' r' b' u' =
      s.mix n m (α * l + β * l') (α * r + β * r') (α * b + β * b') (α * u + β * u') := by
  unfold Sides.mix; ring

theorem relax_linear (s : Sides K) (f g : Nat → Nat → K) (α β : K) (n m : Nat) :
    α * s.relax f n m + β * s.relax g n m = s.relax (fun n m => α * f n m + β * g n m) n m := by
  unfold Sides.relax; ring

theorem mix_add (s : Sides K) (n m : Nat) (h : s.w3 n m + s.w4 n m ≠ 0) (l r b u t : K) :
    s.mix n m (l + t) (r + t) (b + t) (u + t) = s.mix n m l r b u + t := by
  have e : s.wa n m * s.w3 n m + s.wa n m * s.w4 n m = 1 := by
    unfold Sides.wa; rw [← mul_add, inv_mul_cancel₀ h]
  unfold Sides.mix
  linear_combination t * e

theorem relax_add (s : Sides K) (n m : Nat)
    (h : s.u1 n m + s.u1 (n + 1) m + s.u2 n m + s.u2 n (m + 1) ≠ 0) (f : Nat → Nat → K) (t : K) :
    s.relax (fun n m => f n m + t) n m = s.relax f n m + t := by
  have e : 1 / (s.u1 n m + s.u1 (n + 1) m + s.u2 n m + s.u2 n (m + 1)) *
      (s.u1 n m + s.u1 (n + 1) m + s.u2 n m + s.u2 n (m + 1)) = 1 := one_div_mul_cancel h
  unfold Sides.relax
  linear_combination t * e

theorem relax_congr (s : Sides K) {n m : Nat} (hi : s.inner n m = true) {f g : Nat → Nat → K}
    (h : ∀ n ≤ s.numN, ∀ m ≤ s.numM, f n m = g n m) : s.relax f n m = s.relax g n m := by
  rw [inner_iff] at hi
  unfold Sides.relax
  rw [h (n - 1) (by omega) m (by omega), h (n + 1) (by omega) m (by omega), h n (by omega) (m - 1) (by omega),
    h n (by omega) (m + 1) (by omega)]

/-! ## Positive weights -/

/-- All weights of the inner nodes are positive. -/
structure Sides.Positive (s : Sides K) : Prop where
  i : ∀ n m, s.inner n m = true → 0 ≤ s.iF n m ∧ s.iF n m ≤ 1
  j : ∀ n m, s.inner n m = true → 0 ≤ s.jF n m ∧ s.jF n m ≤ 1
  w1 : ∀ n m, s.inner n m = true → 0 < s.w1 n m
  w2 : ∀ n m, s.inner n m = true → 0 < s.w2 n m
  d3 : ∀ n m, 1 ≤ n → n ≤ s.numN → m ≤ s.numM → 0 < s.d3 n m
  d4 : ∀ n m, n ≤ s.numN → 1 ≤ m → m ≤ s.numM → 0 < s.d4 n m

section
variable [IsStrictOrderedRing K]

theorem Sides.Positive.u1 {s : Sides K} (h : s.Positive) {n m : Nat} (h1 : 1 ≤ n) (h2 : n ≤ s.numN) (h3 : 1 ≤ m)
    (h4 : m < s.numM) : 0 < s.u1 n m := by
  have a1 := h.d4 n m (by omega) h3 (by omega)
  have a2 := h.d4 n (m + 1) (by omega) (by omega) (by omega)
  have a3 := h.d4 (n - 1) m (by omega) h3 (by omega)
  have a4 := h.d4 (n - 1) (m + 1) (by omega) (by omega) (by omega)
  have b := h.d3 n m h1 h2 (by omega)
  unfold Sides.u1
  positivity

theorem Sides.Positive.u2 {s : Sides K} (h : s.Positive) {n m : Nat} (h1 : 1 ≤ n) (h2 : n < s.numN) (h3 : 1 ≤ m)
    (h4 : m ≤ s.numM) : 0 < s.u2 n m := by
  have a1 := h.d3 n m h1 (by omega) h4
  have a2 := h.d3 n (m - 1) h1 (by omega) (by omega)
  have a3 := h.d3 (n + 1) m (by omega) (by omega) h4
  have a4 := h.d3 (n + 1) (m - 1) (by omega) (by omega) (by omega)
  have b := h.d4 n m (by omega) h3 h4
  unfold Sides.u2
  positivity

theorem Sides.Positive.w3 {s : Sides K} (h : s.Positive) {n m : Nat} (hi : s.inner n m = true) : 0 < s.w3 n m :=
  div_pos (h.w2 n m hi) (h.w1 n m hi)

theorem Sides.Positive.w4 {s : Sides K} (h : s.Positive) {n m : Nat} (hi : s.inner n m = true) : 0 < s.w4 n m :=
  inv_pos.2 (h.w3 hi)

theorem Sides.Positive.sum {s : Sides K} (h : s.Positive) {n m : Nat} (hi : s.inner n m = true) :
    0 < s.u1 n m + s.u1 (n + 1) m + s.u2 n m + s.u2 n (m + 1) := by
  rw [inner_iff] at hi
  have a1 := h.u1 (n := n) (m := m) (by omega) (by omega) (by omega) (by omega)
  have a2 := h.u1 (n := n + 1) (m := m) (by omega) (by omega) (by omega) (by omega)
  have a3 := h.u2 (n := n) (m := m) (by omega) (by omega) (by omega) (by omega)
  have a4 := h.u2 (n := n) (m := m + 1) (by omega) (by omega) (by omega) (by omega)
  positivity

theorem Sides.Positive.finite {s : Sides K} (h : s.Positive) : s.finite = true := by
  unfold Sides.finite
  rw [List.all_eq_true]
  intro n _
  rw [List.all_eq_true]
  intro m _
  rcases Bool.eq_false_or_eq_true (s.inner n m) with hi | hi
  · have hw3 := h.w3 hi
    have hw4 := h.w4 hi
    have e := (inner_iff s n m).1 hi
    simp only [hi, Bool.not_true, Bool.false_or, Bool.and_eq_true, decide_eq_true_eq]
    exact ⟨⟨⟨⟨⟨⟨⟨(h.w1 n m hi).ne', (h.w2 n m hi).ne'⟩, (by positivity : 0 < s.w3 n m + s.w4 n m).ne'⟩,
      (h.d3 n m (by omega) (by omega) (by omega)).ne'⟩, (h.d3 (n + 1) m (by omega) (by omega) (by omega)).ne'⟩,
      (h.d4 n m (by omega) (by omega) (by omega)).ne'⟩, (h.d4 n (m + 1) (by omega) (by omega) (by omega)).ne'⟩,
      (h.sum hi).ne'⟩
  · simp [hi]

theorem mix_le {s : Sides K} (h : s.Positive) {n m : Nat} (hi : s.inner n m = true) {l r b u c : K} (hl : l ≤ c)
    (hr : r ≤ c) (hb : b ≤ c) (hu : u ≤ c) : s.mix n m l r b u ≤ c := by
  have hw3 := h.w3 hi
  have hw4 := h.w4 hi
  obtain ⟨i0, i1⟩ := h.i n m hi
  obtain ⟨j0, j1⟩ := h.j n m hi
  have e : s.wa n m * s.w3 n m + s.wa n m * s.w4 n m = 1 := by
    unfold Sides.wa; rw [← mul_add, inv_mul_cancel₀ (by positivity)]
  have hwa : 0 < s.wa n m := by unfold Sides.wa; positivity
  have p1 : l * (1 - s.iF n m) + r * s.iF n m ≤ c := by nlinarith
  have p2 : b * (1 - s.jF n m) + u * s.jF n m ≤ c := by nlinarith
  have q1 := mul_le_mul_of_nonneg_right p1 (mul_pos hwa hw3).le
  have q2 := mul_le_mul_of_nonneg_right p2 (mul_pos hwa hw4).le
  unfold Sides.mix
  calc _ ≤ c * (s.wa n m * s.w3 n m) + c * (s.wa n m * s.w4 n m) := add_le_add q1 q2
    _ = c := by rw [← mul_add, e, mul_one]

theorem relax_le {s : Sides K} (h : s.Positive) {n m : Nat} (hi : s.inner n m = true) {f : Nat → Nat → K} {c : K}
    (hf : ∀ n ≤ s.numN, ∀ m ≤ s.numM, f n m ≤ c) : s.relax f n m ≤ c := by
  have hs := h.sum hi
  have e := (inner_iff s n m).1 hi
  have a1 := h.u1 (n := n) (m := m) (by omega) (by omega) (by omega) (by omega)
  have a2 := h.u1 (n := n + 1) (m := m) (by omega) (by omega) (by omega) (by omega)
  have a3 := h.u2 (n := n) (m := m) (by omega) (by omega) (by omega) (by omega)
  have a4 := h.u2 (n := n) (m := m + 1) (by omega) (by omega) (by omega) (by omega)
  have f1 := mul_le_mul_of_nonneg_right (hf (n - 1) (by omega) m (by omega)) a1.le
  have f2 := mul_le_mul_of_nonneg_right (hf (n + 1) (by omega) m (by omega)) a2.le
  have f3 := mul_le_mul_of_nonneg_right (hf n (by omega) (m - 1) (by omega)) a3.le
  have f4 := mul_le_mul_of_nonneg_right (hf n (by omega) (m + 1) (by omega)) a4.le
  unfold Sides.relax
  rw [one_div, inv_mul_le_iff₀ hs]
  linarith

/-- With positive weights every half plane that contains the border contains all nodes. -/
theorem sweeps_half {s : Sides K} (h : s.Positive) {α β γ : K}
    (hl : ∀ m ≤ s.numM, Half α β γ (pt s.left m)) (hr : ∀ m ≤ s.numM, Half α β γ (pt s.right m))
    (hb : ∀ n ≤ s.numN, Half α β γ (pt s.bottom n)) (hu : ∀ n ≤ s.numN, Half α β γ (pt s.upper n)) :
    ∀ k, ∀ n ≤ s.numN, ∀ m ≤ s.numM, Half α β γ (s.sweeps k n m) := by
  intro k
  induction k with
  | zero =>
    intro n hn m hm
    rw [Sides.sweeps, Sides.first]
    by_cases h1 : n = s.numN
    · rw [if_pos h1]; exact hr m hm
    rw [if_neg h1]
    by_cases h2 : n = 0
    · rw [if_pos h2]; exact hl m hm
    rw [if_neg h2]
    by_cases h3 : m = s.numM
    · rw [if_pos h3]; exact hu n hn
    rw [if_neg h3]
    by_cases h4 : m = 0
    · rw [if_pos h4]; exact hb n hn
    rw [if_neg h4]
    unfold Half
    rw [mix_linear]
    exact mix_le h ((inner_iff s n m).2 (by omega)) (hl m hm) (hr m hm) (hb n hn) (hu n hn)
  | succ k ih =>
    intro n hn m hm
    rw [Sides.sweeps, Sides.sweep]
    rcases Bool.eq_false_or_eq_true (s.inner n m) with hi | hi
    · rw [if_pos hi]
      unfold Half
      rw [relax_linear]
      exact relax_le h hi ih
    · rw [if_neg (by simp [hi])]; exact ih n hn m hm

/-! ## Sides divided in the same proportions -/

theorem lengthTo_pos {dist : Pt K → Pt K → K} {f : Nat → Pt K} {p : Nat} (h : ∀ n < p, 0 < dist (f n) (f (n + 1))) :
    (∀ n ≤ p, 0 ≤ lengthTo dist f n) ∧ (∀ n, 1 ≤ n → n ≤ p → lengthTo dist f (n - 1) < lengthTo dist f n) ∧
      ∀ n ≤ p, lengthTo dist f n ≤ lengthTo dist f p := by
  have h1 : ∀ n ≤ p, 0 ≤ lengthTo dist f n := by
    intro n
    induction n with
    | zero => intro _; exact le_refl _
    | succ n ih => intro hn; rw [lengthTo]; have := ih (by omega); have := h n (by omega); linarith
  have h2 : ∀ n, 1 ≤ n → n ≤ p → lengthTo dist f (n - 1) < lengthTo dist f n := by
    intro n h0 hn
    obtain ⟨j, rfl⟩ : ∃ j, n = j + 1 := ⟨n - 1, by omega⟩
    rw [lengthTo, Nat.add_sub_cancel]; have := h j (by omega); linarith
  refine ⟨h1, h2, ?_⟩
  have h3 : ∀ d n, n + d ≤ p → lengthTo dist f n ≤ lengthTo dist f (n + d) := by
    intro d
    induction d with
    | zero => intro n _; exact le_refl _
    | succ d ih =>
      intro n hn
      have a := ih n (by omega)
      have b := h2 (n + d + 1) (by omega) hn
      rw [Nat.add_sub_cancel] at b
      exact a.trans b.le
  intro n hn
  have := h3 (p - n) n (by omega)
  rwa [Nat.add_sub_cancel' hn] at this

/-- The share of a side up to point `n`. -/
def share (dist : Pt K → Pt K → K) (f : Nat → Pt K) (p n : Nat) : K := lengthTo dist f n / lengthTo dist f p

/-- What evenly divided sides make of the weights. -/
structure Sides.Prop' (s : Sides K) (β γ : Nat → K) (LB LU LL LR : K) : Prop where
  b : ∀ n ≤ s.numN, adim s.dist s.bottom n = β n
  u : ∀ n ≤ s.numN, adim s.dist s.upper n = β n
  l : ∀ m ≤ s.numM, adim s.dist s.left m = γ m
  r : ∀ m ≤ s.numM, adim s.dist s.right m = γ m
  tb : total s.dist s.bottom = LB
  tu : total s.dist s.upper = LU
  tl : total s.dist s.left = LL
  tr : total s.dist s.right = LR
  pos : 0 < LB ∧ 0 < LU ∧ 0 < LL ∧ 0 < LR
  rb : ∀ n ≤ s.numN, 0 ≤ β n ∧ β n ≤ 1
  rl : ∀ m ≤ s.numM, 0 ≤ γ m ∧ γ m ≤ 1
  ib : ∀ n, 1 ≤ n → n ≤ s.numN → β (n - 1) < β n
  il : ∀ m, 1 ≤ m → m ≤ s.numM → γ (m - 1) < γ m

section
variable {s : Sides K} {β γ : Nat → K} {LB LU LL LR : K}

theorem Sides.Prop'.iF (h : s.Prop' β γ LB LU LL LR) {n : Nat} (hn : n ≤ s.numN) (m : Nat) : s.iF n m = β n := by
  unfold Sides.iF; rw [h.b n hn, h.u n hn]; ring

theorem Sides.Prop'.jF (h : s.Prop' β γ LB LU LL LR) (n : Nat) {m : Nat} (hm : m ≤ s.numM) : s.jF n m = γ m := by
  unfold Sides.jF; rw [h.l m hm, h.r m hm]; ring

theorem Sides.Prop'.w1 (h : s.Prop' β γ LB LU LL LR) (n : Nat) {m : Nat} (hm : m ≤ s.numM) :
    s.w1 n m = (1 - γ m) * LB + γ m * LU := by unfold Sides.w1; rw [h.jF n hm, h.tb, h.tu]

theorem Sides.Prop'.w2 (h : s.Prop' β γ LB LU LL LR) {n : Nat} (hn : n ≤ s.numN) (m : Nat) :
    s.w2 n m = (1 - β n) * LL + β n * LR := by unfold Sides.w2; rw [h.iF hn, h.tl, h.tr]

theorem Sides.Prop'.d3 (h : s.Prop' β γ LB LU LL LR) {n m : Nat} (hn : n ≤ s.numN) (hm : m ≤ s.numM) :
    s.d3 n m = (β n - β (n - 1)) * ((1 - γ m) * LB + γ m * LU) := by
  unfold Sides.d3 Sides.v1
  rw [h.jF n hm, h.jF (n - 1) hm, h.b n hn, h.b (n - 1) (by omega), h.u n hn, h.u (n - 1) (by omega), h.tb, h.tu]
  ring

theorem Sides.Prop'.d4 (h : s.Prop' β γ LB LU LL LR) {n m : Nat} (hn : n ≤ s.numN) (hm : m ≤ s.numM) :
    s.d4 n m = (γ m - γ (m - 1)) * ((1 - β n) * LL + β n * LR) := by
  unfold Sides.d4 Sides.v2
  rw [h.iF hn m, h.iF hn (m - 1), h.l m hm, h.l (m - 1) (by omega), h.r m hm, h.r (m - 1) (by omega), h.tl, h.tr]
  ring

theorem between_pos {x a b : K} (h0 : 0 ≤ x) (h1 : x ≤ 1) (ha : 0 < a) (hb : 0 < b) : 0 < (1 - x) * a + x * b := by
  rcases h0.lt_or_eq with h | rfl
  · have := mul_pos h hb
    have := mul_nonneg (sub_nonneg.2 h1) ha.le
    linarith
  · simpa using ha

theorem Sides.Prop'.positive (h : s.Prop' β γ LB LU LL LR) : s.Positive := by
  obtain ⟨hB, hU, hL, hR⟩ := h.pos
  refine ⟨?_, ?_, ?_, ?_, ?_, ?_⟩
  · intro n m hi; rw [inner_iff] at hi; rw [h.iF (by omega)]; exact h.rb n (by omega)
  · intro n m hi; rw [inner_iff] at hi; rw [h.jF _ (by omega)]; exact h.rl m (by omega)
  · intro n m hi; rw [inner_iff] at hi; rw [h.w1 _ (by omega)]
    exact between_pos (h.rl m (by omega)).1 (h.rl m (by omega)).2 hB hU
  · intro n m hi; rw [inner_iff] at hi; rw [h.w2 (by omega)]
    exact between_pos (h.rb n (by omega)).1 (h.rb n (by omega)).2 hL hR
  · intro n m h0 hn hm
    rw [h.d3 hn hm]
    exact mul_pos (sub_pos.2 (h.ib n h0 hn)) (between_pos (h.rl m hm).1 (h.rl m hm).2 hB hU)
  · intro n m hn h0 hm
    rw [h.d4 hn hm]
    exact mul_pos (sub_pos.2 (h.il m h0 hm)) (between_pos (h.rb n hn).1 (h.rb n hn).2 hL hR)

end

theorem prop_of_even {dist : Pt K → Pt K → K} {o : Outline K} (k : Nat) (hp : 0 < o.p) (hq : 0 < o.q) (hv : o.Valid)
    (he : o.Even dist) :
    (ofOutline dist k o).Prop' (share dist o.bottom o.p) (share dist o.left o.q) (lengthTo dist o.bottom o.p)
      (lengthTo dist o.upper o.p) (lengthTo dist o.left o.q) (lengthTo dist o.right o.q) := by
  obtain ⟨b1, b2, b3⟩ := lengthTo_pos he.bottom
  obtain ⟨u1, u2, u3⟩ := lengthTo_pos he.upper
  obtain ⟨l1, l2, l3⟩ := lengthTo_pos he.left
  obtain ⟨r1, r2, r3⟩ := lengthTo_pos he.right
  have B : 0 < lengthTo dist o.bottom o.p := (b1 _ (by omega)).trans_lt (b2 o.p hp (le_refl _))
  have U : 0 < lengthTo dist o.upper o.p := (u1 _ (by omega)).trans_lt (u2 o.p hp (le_refl _))
  have L : 0 < lengthTo dist o.left o.q := (l1 _ (by omega)).trans_lt (l2 o.q hq (le_refl _))
  have R : 0 < lengthTo dist o.right o.q := (r1 _ (by omega)).trans_lt (r2 o.q hq (le_refl _))
  refine ⟨?_, ?_, ?_, ?_, ?_, ?_, ?_, ?_, ⟨B, U, L, R⟩, ?_, ?_, ?_, ?_⟩
  · intro n hn; exact adim_of dist k hv.bottom B.ne' hn
  · intro n hn
    refine (adim_of dist k hv.upper U.ne' hn).trans ?_
    unfold share
    rw [div_eq_div_iff U.ne' B.ne']
    exact (he.along n hn).symm
  · intro m hm; exact adim_of dist k hv.left L.ne' hm
  · intro m hm
    refine (adim_of dist k hv.right R.ne' hm).trans ?_
    unfold share
    rw [div_eq_div_iff R.ne' L.ne']
    exact (he.across m hm).symm
  · exact total_of dist k hv.bottom
  · exact total_of dist k hv.upper
  · exact total_of dist k hv.left
  · exact total_of dist k hv.right
  · intro n hn; exact ⟨div_nonneg (b1 n hn) B.le, (div_le_one B).2 (b3 n hn)⟩
  · intro m hm; exact ⟨div_nonneg (l1 m hm) L.le, (div_le_one L).2 (l3 m hm)⟩
  · intro n h0 hn; exact (div_lt_div_iff_of_pos_right B).2 (b2 n h0 hn)
  · intro m h0 hm; exact (div_lt_div_iff_of_pos_right L).2 (l2 m h0 hm)

end

end Verif.Transfinite
