import Verif.Splines.Spec
import Verif.Polygons.ParseLemmas
import Mathlib.Tactic.Linarith
import Mathlib.Tactic.Ring
import Mathlib.Tactic.FieldSimp
import Mathlib.Tactic.NormNum
import Mathlib.Tactic.Positivity
/-!
# Lemmas on splines
-/
namespace Verif.Splines
open Verif.Polygons (Pt findIndices missingDouble outerSep isSep)

/-! ## The equations -/

/-- The equations for the second derivatives. -/
structure System (ys ms : List ℚ) : Prop where
  len : ms.length = ys.length
  first : ms.headD 0 = 0
  last : ms.getLastD 0 = 0
  mid : ∀ (i : Nat) y0 y1 y2 m0 m1 m2, ys[i]? = some y0 → ys[i + 1]? = some y1 → ys[i + 2]? = some y2 →
    ms[i]? = some m0 → ms[i + 1]? = some m1 → ms[i + 2]? = some m2 → m0 + 4 * m1 + m2 = 6 * (y0 - 2 * y1 + y2)

theorem backward_ne (l : List (ℚ × ℚ)) : backward l ≠ [] := by
  cases l <;> simp [backward]

theorem backward_length : ∀ l : List (ℚ × ℚ), (backward l).length = l.length + 1
  | [] => rfl
  | _ :: l => by simp [backward, backward_length l]

theorem backward_last : ∀ l : List (ℚ × ℚ), (backward l).getLastD 0 = 0
  | [] => rfl
  | r :: l => by
    have := backward_last l
    obtain ⟨a, b, h⟩ := List.exists_cons_of_ne_nil (backward_ne l)
    simp only [backward]
    rw [h] at this ⊢
    simpa using this

theorem forward_length : ∀ (ys : List ℚ) (d u : ℚ), (forward d u ys).length = ys.length - 2
  | [], _, _ => rfl
  | [_], _, _ => rfl
  | [_, _], _, _ => rfl
  | a :: b :: c :: rest, d, u => by
    simp only [forward, List.length_cons, forward_length (b :: c :: rest)]
    omega

/-- The equations in the inside, for any start of the loop. -/
theorem forward_mid : ∀ (ys : List ℚ) (d u : ℚ), -1 ≤ d → d ≤ 0 →
    ∀ (i : Nat) y0 y1 y2 m0 m1 m2, ys[i]? = some y0 → ys[i + 1]? = some y1 → ys[i + 2]? = some y2 →
      (backward ((d, u) :: forward d u ys))[i]? = some m0 → (backward ((d, u) :: forward d u ys))[i + 1]? = some m1 →
      (backward ((d, u) :: forward d u ys))[i + 2]? = some m2 → m0 + 4 * m1 + m2 = 6 * (y0 - 2 * y1 + y2)
  | [], _, _, _, _ => by simp
  | [_], _, _, _, _ => by simp
  | [_, _], _, _, _, _ => by simp
  | a :: b :: c :: rest, d, u, h1, h2 => by
    intro i y0 y1 y2 m0 m1 m2 e0 e1 e2 f0 f1 f2
    have hp : 0 < d * (1 / 2) + 2 := by linarith
    have hd1 : -1 ≤ -(1 / 2) / (d * (1 / 2) + 2) := by rw [le_div_iff₀ hp]; linarith
    have hd2 : -(1 / 2) / (d * (1 / 2) + 2) ≤ 0 := by rw [div_le_iff₀ hp]; linarith
    cases i with
    | zero =>
      simp only [List.getElem?_cons_zero, List.getElem?_cons_succ, Option.some.injEq, Nat.zero_add] at e0 e1 e2
      subst e0 e1 e2
      simp only [forward] at f0 f1 f2
      rw [backward] at f0 f1 f2
      rw [backward] at f0 f1 f2
      simp only [List.getElem?_cons_zero, List.getElem?_cons_succ, Option.some.injEq, Nat.zero_add, List.headD_cons] at f0 f1 f2
      obtain ⟨r, l, hr⟩ := List.exists_cons_of_ne_nil (backward_ne (forward (-(1 / 2) / (d * (1 / 2) + 2)) (((c - b - (b - a)) * 6 / 2 - u * (1 / 2)) / (d * (1 / 2) + 2)) (b :: c :: rest)))
      rw [hr] at f0 f1 f2
      simp only [List.getElem?_cons_zero, Option.some.injEq, List.headD_cons] at f0 f1 f2
      subst f2
      have hm : m1 * (d * (1 / 2) + 2) = -(1 / 2) * r + ((c - b - (b - a)) * 6 / 2 - u * (1 / 2)) := by
        rw [← f1, add_mul, div_mul_cancel₀ _ (ne_of_gt hp), mul_right_comm, div_mul_cancel₀ _ (ne_of_gt hp)]
      rw [f1] at f0
      rw [← f0]
      linarith
    | succ i =>
      rw [forward, backward] at f0 f1 f2
      refine forward_mid (b :: c :: rest) (-(1 / 2) / (d * (1 / 2) + 2)) (((c - b - (b - a)) * 6 / 2 - u * (1 / 2)) / (d * (1 / 2) + 2)) hd1 hd2 i y0 y1 y2 m0 m1 m2 ?_ ?_ ?_ ?_ ?_ ?_
      · simpa using e0
      · simpa using e1
      · simpa using e2
      · simpa using f0
      · simpa using f1
      · simpa using f2

theorem second_two (a b : ℚ) (l : List ℚ) : second (a :: b :: l) = backward ((0, 0) :: forward 0 0 (a :: b :: l)) := rfl

theorem second_length : ∀ ys : List ℚ, (second ys).length = ys.length
  | [] => rfl
  | [_] => rfl
  | a :: b :: l => by
    rw [second_two, backward_length, List.length_cons, forward_length]
    simp

theorem second_system : ∀ ys : List ℚ, System ys (second ys)
  | [] => ⟨rfl, rfl, rfl, by simp⟩
  | [_] => ⟨rfl, rfl, rfl, by simp⟩
  | a :: b :: l => by
    refine ⟨second_length _, ?_, ?_, ?_⟩
    · rw [second_two, backward]; simp
    · rw [second_two]; exact backward_last _
    · rw [second_two]
      exact forward_mid (a :: b :: l) 0 0 (by norm_num) (le_refl _)

/-! ## There is only one solution -/

theorem zero_of_dominant : ∀ (ms : List ℚ) (c : ℚ),
    (∀ m0 m1, ms[0]? = some m0 → ms[1]? = some m1 → |m0| ≤ |m1|) →
    (∀ (i : Nat) m0 m1 m2, ms[i]? = some m0 → ms[i + 1]? = some m1 → ms[i + 2]? = some m2 → m0 + 4 * m1 + m2 = 0) →
    ms.getLast? = some c → c = 0 → ∀ m ∈ ms, m = 0
  | [], _, _, _, h, _ => by simp
  | [a], c, _, _, h, hc => by
    simp at h; subst h; simpa using hc
  | a :: b :: l, c, h0, h1, h, hc => by
    have hab : |a| ≤ |b| := h0 a b (by simp) (by simp)
    have ih := zero_of_dominant (b :: l) c (by
      intro m0 m1 e0 e1
      simp only [List.getElem?_cons_zero, Option.some.injEq] at e0
      subst e0
      have hm := h1 0 a b m1 (by simp) (by simp) (by simpa using e1)
      have h4 : 4 * b = -a - m1 := by linarith
      have h5 : |4 * b| ≤ |a| + |m1| := by
        rw [h4]
        calc |-a - m1| ≤ |-a| + |m1| := abs_sub _ _
          _ = |a| + |m1| := by rw [abs_neg]
      rw [abs_mul, abs_of_pos (by norm_num : (0 : ℚ) < 4)] at h5
      have : 0 ≤ |b| := abs_nonneg b
      linarith)
      (by
        intro i m0 m1 m2 e0 e1 e2
        exact h1 (i + 1) m0 m1 m2 (by simpa using e0) (by simpa using e1) (by simpa using e2))
      (by simpa using h) hc
    intro m hm
    rcases List.mem_cons.1 hm with rfl | hm
    · have hb := ih b (by simp)
      rw [hb, abs_zero] at hab
      exact abs_nonpos_iff.1 hab
    · exact ih m hm

theorem system_unique {ys ms ns : List ℚ} (h : System ys ms) (h' : System ys ns) : ms = ns := by
  have hlen : ms.length = ns.length := by rw [h.len, h'.len]
  have key : ∀ d ∈ List.zipWith (· - ·) ms ns, d = 0 := by
    cases hms : ms with
    | nil => simp
    | cons a l =>
      cases hns : ns with
      | nil => rw [hms, hns] at hlen; simp at hlen
      | cons b k =>
        have ha : a = 0 := by have := h.first; rw [hms] at this; simpa using this
        have hb : b = 0 := by have := h'.first; rw [hns] at this; simpa using this
        refine zero_of_dominant _ ((a :: l).getLastD 0 - (b :: k).getLastD 0) ?_ ?_ ?_ ?_
        · intro m0 m1 e0 _
          simp only [List.zipWith_cons_cons, List.getElem?_cons_zero, Option.some.injEq] at e0
          rw [← e0, ha, hb]; simp
        · intro i m0 m1 m2 e0 e1 e2
          rw [← hms, ← hns] at e0 e1 e2
          have g : ∀ (j : Nat) c, (List.zipWith (· - ·) ms ns)[j]? = some c → ∃ x y, ms[j]? = some x ∧ ns[j]? = some y ∧ c = x - y := by
            intro j c hc
            obtain ⟨x, y, h1, h2, h3⟩ := List.getElem?_zipWith_eq_some.1 hc
            exact ⟨x, y, h1, h2, h3.symm⟩
          obtain ⟨x0, z0, a1, a2, rfl⟩ := g _ _ e0
          obtain ⟨x1, z1, b1, b2, rfl⟩ := g _ _ e1
          obtain ⟨x2, z2, c1, c2, rfl⟩ := g _ _ e2
          have hi : i + 2 < ys.length := by rw [← h.len]; exact (List.getElem?_eq_some_iff.1 c1).1
          have q1 := h.mid i _ _ _ _ _ _ (List.getElem?_eq_getElem (by omega)) (List.getElem?_eq_getElem (by omega)) (List.getElem?_eq_getElem hi) a1 b1 c1
          have q2 := h'.mid i _ _ _ _ _ _ (List.getElem?_eq_getElem (by omega)) (List.getElem?_eq_getElem (by omega)) (List.getElem?_eq_getElem hi) a2 b2 c2
          linarith
        · have hl : l.length = k.length := by rw [hms, hns] at hlen; simpa using hlen
          rw [List.getLast?_eq_getElem?]
          simp only [List.length_zipWith, List.length_cons, hl, Nat.min_self, Nat.add_sub_cancel, List.getElem?_zipWith]
          have g1 : (a :: l)[k.length]? = some ((a :: l).getLastD 0) := by
            rw [List.getLastD_eq_getLast?, List.getLast?_eq_getElem?]
            simp only [List.length_cons, Nat.add_sub_cancel, hl]
            rw [List.getElem?_eq_getElem (by simp [hl])]; rfl
          have g2 : (b :: k)[k.length]? = some ((b :: k).getLastD 0) := by
            rw [List.getLastD_eq_getLast?, List.getLast?_eq_getElem?]
            simp only [List.length_cons, Nat.add_sub_cancel]
            rw [List.getElem?_eq_getElem (by simp)]; rfl
          rw [g1, g2]
        · have h1 := h.last; have h2 := h'.last
          rw [hms] at h1; rw [hns] at h2
          rw [h1, h2]; norm_num
  apply List.ext_getElem hlen
  intro i h1 h2
  have := key (ms[i] - ns[i]) (by
    rw [List.mem_iff_getElem]
    exact ⟨i, by simp; omega, by simp⟩)
  linarith

end Verif.Splines
