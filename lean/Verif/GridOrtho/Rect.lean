import Verif.GridOrtho.Full
/-!
# Rectangles stay, and nodes stay numbers
-/
namespace Verif.GridOrtho
open Verif.Smooth (NodeType)
variable {K : Type} [Field K] [LinearOrder K] [IsStrictOrderedRing K]

omit [IsStrictOrderedRing K] in
theorem quot_pos {a b : K} (h : b ≠ 0) : quot a b = some (a / b) := by
  unfold quot
  rw [if_neg h]

/-! ## Rectangles -/

theorem rect_relaxed {t : Nat → Nat → Option K} {h k ω : K} (hh : 0 < h) (hk : 0 < k) {n m : Nat} (hn : 1 ≤ n) (hm : 1 ≤ m)
    (h1 : t n m = some (k / h)) (h2 : t n (m - 1) = some (k / h)) (h3 : t (n - 1) m = some (k / h)) (h4 : t (n - 1) (m - 1) = some (k / h)) :
    relaxed (sums t n m) ω (rectangle h k) n m = rectangle h k n m := by
  have hr : 0 < k / h := by positivity
  generalize hrr : k / h = r at *
  obtain ⟨i, rfl⟩ : ∃ i, n = i + 1 := ⟨n - 1, by omega⟩
  obtain ⟨j, rfl⟩ : ∃ j, m = j + 1 := ⟨m - 1, by omega⟩
  have h0 := hr.ne'
  have he : -(r + r) - (r + r) - (1 / r + 1 / r) - (1 / r + 1 / r) ≠ 0 := by
    have : 0 < 1 / r := by positivity
    intro e
    linarith
  simp only [Nat.add_sub_cancel] at h2 h3 h4
  unfold relaxed sums
  simp only [h1, h2, h3, h4, quot_pos h0, Option.bind_eq_bind, Option.bind_some, rectangle, quot_pos he, Option.some.injEq, Prod.mk.injEq, Nat.add_sub_cancel]
  push_cast
  constructor
  · have : (h * ((i : K) + 1 + 1) * (r + r) + h * (i : K) * (r + r) + h * ((i : K) + 1) * (1 / r + 1 / r) + h * ((i : K) + 1) * (1 / r + 1 / r) +
        h * ((i : K) + 1) * (-(r + r) - (r + r) - (1 / r + 1 / r) - (1 / r + 1 / r))) = 0 := by ring
    rw [this]
    simp
  · have : (k * ((j : K) + 1) * (r + r) + k * ((j : K) + 1) * (r + r) + k * ((j : K) + 1 + 1) * (1 / r + 1 / r) + k * (j : K) * (1 / r + 1 / r) +
        k * ((j : K) + 1) * (-(r + r) - (r + r) - (1 / r + 1 / r) - (1 / r + 1 / r))) = 0 := by ring
    rw [this]
    simp

theorem rect_above_h {t : Nat → Nat → Option K} {h k : K} (hh : 0 < h) (hk : 0 < k) {n m : Nat} (hn : 1 ≤ n)
    (h1 : t (n - 1) m = some (k / h)) (h2 : t n m = some (k / h)) : wantedH t (rectangle h k) .above n m = rectangle h k n m := by
  have hr : 0 < k / h := by positivity
  obtain ⟨i, rfl⟩ : ∃ i, n = i + 1 := ⟨n - 1, by omega⟩
  have he : k / h + k / h + (1 / (k / h) + 1 / (k / h)) ≠ 0 := by positivity
  simp only [Nat.add_sub_cancel] at h1 h2
  unfold wantedH pulled
  simp only [h1, h2, quot_pos hr.ne', Option.bind_eq_bind, Option.bind_some, rectangle, quot_pos he, Option.some.injEq, Prod.mk.injEq, Nat.add_sub_cancel]
  push_cast
  constructor <;> rw [div_eq_iff he] <;> field_simp <;> ring

theorem rect_below_h {t : Nat → Nat → Option K} {h k : K} (hh : 0 < h) (hk : 0 < k) {n m : Nat} (hn : 1 ≤ n) (hm : 1 ≤ m)
    (h1 : t (n - 1) (m - 1) = some (k / h)) (h2 : t n (m - 1) = some (k / h)) : wantedH t (rectangle h k) .below n m = rectangle h k n m := by
  have hr : 0 < k / h := by positivity
  obtain ⟨i, rfl⟩ : ∃ i, n = i + 1 := ⟨n - 1, by omega⟩
  obtain ⟨j, rfl⟩ : ∃ j, m = j + 1 := ⟨m - 1, by omega⟩
  have he : k / h + k / h + (1 / (k / h) + 1 / (k / h)) ≠ 0 := by positivity
  simp only [Nat.add_sub_cancel] at h1 h2
  unfold wantedH pulled
  simp only [h1, h2, quot_pos hr.ne', Option.bind_eq_bind, Option.bind_some, rectangle, quot_pos he, Option.some.injEq, Prod.mk.injEq, Nat.add_sub_cancel]
  push_cast
  constructor <;> rw [div_eq_iff he] <;> field_simp <;> ring

theorem rect_above_v {t : Nat → Nat → Option K} {h k : K} (hh : 0 < h) (hk : 0 < k) {n m : Nat} (hm : 1 ≤ m)
    (h1 : t n (m - 1) = some (k / h)) (h2 : t n m = some (k / h)) : wantedV t (rectangle h k) .above n m = rectangle h k n m := by
  have hr : 0 < k / h := by positivity
  obtain ⟨j, rfl⟩ : ∃ j, m = j + 1 := ⟨m - 1, by omega⟩
  have he : 1 / (k / h) + 1 / (k / h) + (k / h + k / h) ≠ 0 := by positivity
  simp only [Nat.add_sub_cancel] at h1 h2
  unfold wantedV pulled
  simp only [h1, h2, quot_pos hr.ne', Option.bind_eq_bind, Option.bind_some, rectangle, quot_pos he, Option.some.injEq, Prod.mk.injEq, Nat.add_sub_cancel]
  push_cast
  constructor <;> rw [div_eq_iff he] <;> field_simp <;> ring

theorem rect_below_v {t : Nat → Nat → Option K} {h k : K} (hh : 0 < h) (hk : 0 < k) {n m : Nat} (hn : 1 ≤ n) (hm : 1 ≤ m)
    (h1 : t (n - 1) (m - 1) = some (k / h)) (h2 : t (n - 1) m = some (k / h)) : wantedV t (rectangle h k) .below n m = rectangle h k n m := by
  have hr : 0 < k / h := by positivity
  obtain ⟨i, rfl⟩ : ∃ i, n = i + 1 := ⟨n - 1, by omega⟩
  obtain ⟨j, rfl⟩ : ∃ j, m = j + 1 := ⟨m - 1, by omega⟩
  have he : 1 / (k / h) + 1 / (k / h) + (k / h + k / h) ≠ 0 := by positivity
  simp only [Nat.add_sub_cancel] at h1 h2
  unfold wantedV pulled
  simp only [h1, h2, quot_pos hr.ne', Option.bind_eq_bind, Option.bind_some, rectangle, quot_pos he, Option.some.injEq, Prod.mk.injEq, Nat.add_sub_cancel]
  push_cast
  constructor <;> rw [div_eq_iff he] <;> field_simp <;> ring

/-! ## Numbers -/

/-- A coefficient that is a positive number. -/
def Good (o : Option K) : Prop := ∃ r, o = some r ∧ 0 < r

theorem relaxed_some {t : Nat → Nat → Option K} {ω : K} {c : Nodes K} {n m : Nat} (h1 : Good (t n m)) (h2 : Good (t n (m - 1))) (h3 : Good (t (n - 1) m))
    (h4 : Good (t (n - 1) (m - 1))) (p1 : (c (n + 1) m).isSome) (p2 : (c (n - 1) m).isSome) (p3 : (c n (m + 1)).isSome) (p4 : (c n (m - 1)).isSome)
    (p : (c n m).isSome) : (relaxed (sums t n m) ω c n m).isSome := by
  obtain ⟨q, h1, q0⟩ := h1
  obtain ⟨q1, h2, q01⟩ := h2
  obtain ⟨q2, h3, q02⟩ := h3
  obtain ⟨q3, h4, q03⟩ := h4
  rw [Option.isSome_iff_exists] at p1 p2 p3 p4 p
  obtain ⟨a1, p1⟩ := p1
  obtain ⟨a2, p2⟩ := p2
  obtain ⟨a3, p3⟩ := p3
  obtain ⟨a4, p4⟩ := p4
  obtain ⟨a, p⟩ := p
  have he : -(q1 + q) - (q3 + q2) - (1 / q2 + 1 / q) - (1 / q3 + 1 / q1) ≠ 0 := by
    have e1 : 0 < 1 / q := by positivity
    have e2 : 0 < 1 / q1 := by positivity
    have e3 : 0 < 1 / q2 := by positivity
    have e4 : 0 < 1 / q3 := by positivity
    intro e
    linarith
  unfold relaxed sums
  simp only [h1, h2, h3, h4, p1, p2, p3, p4, p, quot_pos q0.ne', quot_pos q01.ne', quot_pos q02.ne', quot_pos q03.ne', Option.bind_eq_bind, Option.bind_some, quot_pos he,
    Option.isSome_some]

theorem pulled_some {qb qc w σ : K} {b v a : K × K} (h1 : 0 < qb) (h2 : 0 < qc) (h3 : 0 < w) : (pulled qb qc w σ b v a).isSome := by
  have he : qb + qc + w ≠ 0 := by positivity
  unfold pulled
  simp only [quot_pos he, Option.bind_eq_bind, Option.bind_some, Option.isSome_some]

theorem wantedH_above_some {t : Nat → Nat → Option K} {c : Nodes K} {n m : Nat} (h1 : Good (t (n - 1) m)) (h2 : Good (t n m)) (p1 : (c (n - 1) m).isSome)
    (p2 : (c n (m + 1)).isSome) (p3 : (c (n + 1) m).isSome) : (wantedH t c .above n m).isSome := by
  obtain ⟨q, h1, q0⟩ := h1
  obtain ⟨q1, h2, q01⟩ := h2
  rw [Option.isSome_iff_exists] at p1 p2 p3
  obtain ⟨a1, p1⟩ := p1
  obtain ⟨a2, p2⟩ := p2
  obtain ⟨a3, p3⟩ := p3
  unfold wantedH
  simp only [h1, h2, p1, p2, p3, quot_pos q0.ne', quot_pos q01.ne', Option.bind_eq_bind, Option.bind_some]
  exact pulled_some q0 q01 (by positivity)

theorem wantedH_below_some {t : Nat → Nat → Option K} {c : Nodes K} {n m : Nat} (h1 : Good (t (n - 1) (m - 1))) (h2 : Good (t n (m - 1)))
    (p1 : (c (n - 1) m).isSome) (p2 : (c n (m - 1)).isSome) (p3 : (c (n + 1) m).isSome) : (wantedH t c .below n m).isSome := by
  obtain ⟨q, h1, q0⟩ := h1
  obtain ⟨q1, h2, q01⟩ := h2
  rw [Option.isSome_iff_exists] at p1 p2 p3
  obtain ⟨a1, p1⟩ := p1
  obtain ⟨a2, p2⟩ := p2
  obtain ⟨a3, p3⟩ := p3
  unfold wantedH
  simp only [h1, h2, p1, p2, p3, quot_pos q0.ne', quot_pos q01.ne', Option.bind_eq_bind, Option.bind_some]
  exact pulled_some q0 q01 (by positivity)

theorem wantedV_above_some {t : Nat → Nat → Option K} {c : Nodes K} {n m : Nat} (h1 : Good (t n (m - 1))) (h2 : Good (t n m)) (p1 : (c n (m - 1)).isSome)
    (p2 : (c (n + 1) m).isSome) (p3 : (c n (m + 1)).isSome) : (wantedV t c .above n m).isSome := by
  obtain ⟨q, h1, q0⟩ := h1
  obtain ⟨q1, h2, q01⟩ := h2
  rw [Option.isSome_iff_exists] at p1 p2 p3
  obtain ⟨a1, p1⟩ := p1
  obtain ⟨a2, p2⟩ := p2
  obtain ⟨a3, p3⟩ := p3
  unfold wantedV
  simp only [h1, h2, p1, p2, p3, quot_pos q0.ne', quot_pos q01.ne', Option.bind_eq_bind, Option.bind_some]
  exact pulled_some (by positivity) (by positivity) (by positivity)

theorem wantedV_below_some {t : Nat → Nat → Option K} {c : Nodes K} {n m : Nat} (h1 : Good (t (n - 1) (m - 1))) (h2 : Good (t (n - 1) m))
    (p1 : (c n (m - 1)).isSome) (p2 : (c (n - 1) m).isSome) (p3 : (c n (m + 1)).isSome) : (wantedV t c .below n m).isSome := by
  obtain ⟨q, h1, q0⟩ := h1
  obtain ⟨q1, h2, q01⟩ := h2
  rw [Option.isSome_iff_exists] at p1 p2 p3
  obtain ⟨a1, p1⟩ := p1
  obtain ⟨a2, p2⟩ := p2
  obtain ⟨a3, p3⟩ := p3
  unfold wantedV
  simp only [h1, h2, p1, p2, p3, quot_pos q0.ne', quot_pos q01.ne', Option.bind_eq_bind, Option.bind_some]
  exact pulled_some (by positivity) (by positivity) (by positivity)

end Verif.GridOrtho
