import Verif.Snap.Spec
import Mathlib.Tactic.Linarith
import Mathlib.Tactic.Ring
import Mathlib.Tactic.FieldSimp
import Mathlib.Tactic.Positivity
/-!
# Lemmas about the nearest point of a land boundary
-/
namespace Verif.Snap
open Verif.Curvi Verif.CurviLine
variable {K : Type} [Field K] [LinearOrder K] [IsStrictOrderedRing K]

omit [IsStrictOrderedRing K] in
theorem squared_eq {p q : Pt K} (hp : valid p = true) (hq : valid q = true) : squared p q = dist2 p q := by
  unfold squared dist2
  rw [if_neg (by simp [hp, hq])]
  ring

theorem dist2_pos {a b : Pt K} (h : a ≠ b) : 0 < dist2 b a := by
  unfold dist2
  by_contra c
  have h1 : (a.x - b.x) ^ 2 ≥ 0 := sq_nonneg _
  have h2 : (a.y - b.y) ^ 2 ≥ 0 := sq_nonneg _
  have h3 : (a.x - b.x) ^ 2 = 0 := by linarith
  have h4 : (a.y - b.y) ^ 2 = 0 := by linarith
  apply h
  have h5 := pow_eq_zero_iff (two_ne_zero) |>.1 h3
  have h6 := pow_eq_zero_iff (two_ne_zero) |>.1 h4
  cases a
  cases b
  simp only at h5 h6
  rw [sub_eq_zero.1 h5, sub_eq_zero.1 h6]

theorem squared_ne_zero_iff (a b : Pt K) : squared b a ≠ 0 ↔ valid a = true ∧ valid b = true ∧ a ≠ b := by
  constructor
  · intro h
    by_cases ha : valid a = true
    · by_cases hb : valid b = true
      · refine ⟨ha, hb, ?_⟩
        rintro rfl
        apply h
        rw [squared_eq ha ha]
        simp [dist2]
      · exfalso
        apply h
        unfold squared
        rw [if_pos (by simp [hb])]
    · exfalso
      apply h
      unfold squared
      rw [if_pos (by simp [ha])]
  · rintro ⟨ha, hb, hne⟩
    rw [squared_eq hb ha]
    exact (dist2_pos hne).ne'

theorem foot_between (p a b : Pt K) : Between a b (foot p a b) := by
  refine ⟨ratio p a b, ?_, ?_, rfl⟩
  · unfold ratio
    exact le_max_right _ _
  · unfold ratio
    exact max_le (min_le_left _ _) zero_le_one

omit [LinearOrder K] [IsStrictOrderedRing K] in
theorem dist2_along {a b : Pt K} (p : Pt K) (t u : K) (hu : u * dist2 b a = (p.x - a.x) * (b.x - a.x) + (p.y - a.y) * (b.y - a.y)) :
    dist2 p ⟨a.x + t * (b.x - a.x), a.y + t * (b.y - a.y)⟩ =
      dist2 p a - u ^ 2 * dist2 b a + (t - u) ^ 2 * dist2 b a := by
  have h1 : dist2 p ⟨a.x + t * (b.x - a.x), a.y + t * (b.y - a.y)⟩ =
      dist2 p a - 2 * t * ((p.x - a.x) * (b.x - a.x) + (p.y - a.y) * (b.y - a.y)) + t ^ 2 * dist2 b a := by
    unfold dist2
    ring
  rw [h1, ← hu]
  ring

/-- The foot is the nearest point of the stretch. -/
theorem foot_nearest {a b : Pt K} (p r : Pt K) (ha : valid a = true) (hb : valid b = true) (hne : a ≠ b) (hr : Between a b r) :
    dist2 p (foot p a b) ≤ dist2 p r := by
  obtain ⟨t, h0, h1, rfl⟩ := hr
  have hD := dist2_pos hne
  let u := ((p.x - a.x) * (b.x - a.x) + (p.y - a.y) * (b.y - a.y)) / dist2 b a
  have hu : u * dist2 b a = (p.x - a.x) * (b.x - a.x) + (p.y - a.y) * (b.y - a.y) := div_mul_cancel₀ _ hD.ne'
  have hratio : ratio p a b = max (min 1 u) 0 := by
    unfold ratio
    rw [squared_eq hb ha]
  have e1 : dist2 p (foot p a b) = dist2 p a - u ^ 2 * dist2 b a + (ratio p a b - u) ^ 2 * dist2 b a := dist2_along p _ u hu
  rw [e1, dist2_along p t u hu]
  have key : (ratio p a b - u) ^ 2 ≤ (t - u) ^ 2 := by
    rw [hratio]
    rcases le_total u 0 with c | c
    · rw [min_eq_right (by linarith), max_eq_right c]
      exact sq_le_sq' (by linarith) (by linarith)
    · rcases le_total u 1 with d | d
      · rw [min_eq_right d, max_eq_left c]
        simp only [sub_self]
        rw [zero_pow two_ne_zero]
        exact sq_nonneg _
      · rw [min_eq_left d, max_eq_left zero_le_one]
        nlinarith [mul_nonneg (sub_nonneg.2 h1) (sub_nonneg.2 d), mul_nonneg (sub_nonneg.2 h1) (sub_nonneg.2 h1)]
  have := mul_le_mul_of_nonneg_right key hD.le
  linarith

/-- A stretch of the land boundary. -/
def Stretch (a b r : Pt K) : Prop := valid a = true ∧ valid b = true ∧ a ≠ b ∧ Between a b r

omit [IsStrictOrderedRing K] in
theorem onLand_cons (a b : Pt K) (l : List (Pt K)) (r : Pt K) : OnLand (a :: b :: l) r ↔ Stretch a b r ∨ OnLand (b :: l) r := by
  constructor
  · rintro ⟨k, c, d, h1, h2, h⟩
    cases k with
    | zero =>
      simp only [List.getElem?_cons_zero, Option.some.injEq, Nat.zero_add, List.getElem?_cons_succ] at h1 h2
      subst h1 h2
      exact Or.inl h
    | succ k =>
      rw [List.getElem?_cons_succ] at h1 h2
      exact Or.inr ⟨k, c, d, h1, h2, h⟩
  · rintro (h | ⟨k, c, d, h1, h2, h⟩)
    · exact ⟨0, a, b, rfl, rfl, h⟩
    · exact ⟨k + 1, c, d, by rw [List.getElem?_cons_succ]; exact h1, by rw [List.getElem?_cons_succ]; exact h2, h⟩

omit [IsStrictOrderedRing K] in
theorem not_onLand_short {l : List (Pt K)} (h : l.length ≤ 1) (r : Pt K) : ¬ OnLand l r := by
  rintro ⟨k, c, d, h1, h2, -⟩
  obtain ⟨h, -⟩ := List.getElem?_eq_some_iff.1 h2
  omega

theorem walk_ok (p : Pt K) (hp : valid p = true) (l : List (Pt K)) (hr : Readable l) (best : K × Pt K) :
    (walk p l best = best ∨ ∃ f, OnLand l f ∧ walk p l best = (dist2 p f, f)) ∧ (walk p l best).1 ≤ best.1 ∧
      ∀ r, OnLand l r → (walk p l best).1 ≤ dist2 p r := by
  induction l generalizing best with
  | nil => exact ⟨Or.inl rfl, le_rfl, fun r h => absurd h (not_onLand_short (by simp) r)⟩
  | cons a l ih =>
    cases l with
    | nil => exact ⟨Or.inl rfl, le_rfl, fun r h => absurd h (not_onLand_short (by simp) r)⟩
    | cons b l =>
      obtain ⟨h1, h2, h3⟩ := ih (fun r h => hr r ((onLand_cons a b l r).2 (Or.inr h))) (nearer p a b best)
      rw [show walk p (a :: b :: l) best = walk p (b :: l) (nearer p a b best) from rfl]
      have hn : (nearer p a b best = best ∨ Stretch a b (foot p a b) ∧ nearer p a b best = (dist2 p (foot p a b), foot p a b)) ∧
          (nearer p a b best).1 ≤ best.1 ∧ ∀ r, Stretch a b r → (nearer p a b best).1 ≤ dist2 p r := by
        by_cases hs : valid a = true ∧ valid b = true ∧ a ≠ b
        · have hst : Stretch a b (foot p a b) := ⟨hs.1, hs.2.1, hs.2.2, foot_between p a b⟩
          have hv := hr _ ((onLand_cons a b l _).2 (Or.inl hst))
          have hsq := squared_eq hp hv
          unfold nearer
          by_cases c : squared p (foot p a b) < best.1
          · rw [if_pos ⟨(squared_ne_zero_iff a b).2 hs, c⟩, hsq]
            exact ⟨Or.inr ⟨hst, rfl⟩, by rw [← hsq]; exact c.le, fun r h => foot_nearest p r hs.1 hs.2.1 hs.2.2 h.2.2.2⟩
          · rw [if_neg (fun d => c d.2)]
            refine ⟨Or.inl rfl, le_rfl, fun r h => le_trans (not_lt.1 c) ?_⟩
            rw [hsq]
            exact foot_nearest p r hs.1 hs.2.1 hs.2.2 h.2.2.2
        · unfold nearer
          rw [if_neg (fun d => hs ((squared_ne_zero_iff a b).1 d.1))]
          exact ⟨Or.inl rfl, le_rfl, fun r h => absurd ⟨h.1, h.2.1, h.2.2.1⟩ hs⟩
      obtain ⟨n1, n2, n3⟩ := hn
      refine ⟨?_, le_trans h2 n2, fun r h => ?_⟩
      · rcases h1 with h1 | ⟨f, hf, h1⟩
        · rcases n1 with n1 | ⟨hf, n1⟩
          · exact Or.inl (h1.trans n1)
          · exact Or.inr ⟨_, (onLand_cons a b l _).2 (Or.inl hf), h1.trans n1⟩
        · exact Or.inr ⟨f, (onLand_cons a b l _).2 (Or.inr hf), h1⟩
      · rcases (onLand_cons a b l r).1 h with h | h
        · exact le_trans h2 (n3 r h)
        · exact h3 r h

end Verif.Snap
