import Verif.Gridded.Spec
import Mathlib.Tactic.Linarith
import Mathlib.Tactic.FieldSimp
import Mathlib.Tactic.Ring
import Mathlib.Tactic.NormNum
import Mathlib.Tactic.Positivity
/-!
# Lemmas: where a location lies
-/
namespace Verif.Gridded
open Verif.Mesh
open Verif.Polygons (Pt)

theorem coord_lt {a : Axis} {i : Nat} {u : ℚ} (h : a.coord i = some u) : i < a.num := by
  cases a with
  | regular o c n =>
    simp only [Axis.coord] at h
    split at h
    · rename_i hi; exact hi
    · cases h
  | listed l => exact (List.getElem?_eq_some_iff.1 h).1

theorem whole_of {q : ℚ} {i : Nat} (h0 : (i : ℚ) ≤ q) (h1 : q < i + 1) : whole q = i := by
  have : (0 : ℚ) ≤ q := le_trans (Nat.cast_nonneg i) h0
  unfold whole
  rw [if_pos this, Int.floor_eq_iff]
  push_cast
  exact ⟨h0, h1⟩

theorem search_found {x : ℚ} : ∀ (l : List ℚ) (k i : Nat) (u v : ℚ), l.Pairwise (· < ·) → l[i]? = some u → l[i + 1]? = some v → u ≤ x → x < v →
    search x k l = (k + i : ℕ) + (x - u) / (v - u)
  | [], _, _, _, _, _, h, _, _, _ => by simp at h
  | [a], _, i, _, _, _, _, h, _, _ => by simp at h
  | a :: b :: l, k, 0, u, v, _, h0, h1, h2, h3 => by
    simp only [List.getElem?_cons_zero, Option.some.injEq, List.getElem?_cons_succ, zero_add] at h0 h1
    subst h0 h1
    rw [search, if_pos ⟨h2, h3⟩]; simp
  | a :: b :: l, k, i + 1, u, v, hp, h0, h1, h2, h3 => by
    have hb : b ≤ u := by
      rw [List.getElem?_cons_succ] at h0
      cases i with
      | zero => simp at h0; exact h0.le
      | succ i =>
        rw [List.getElem?_cons_succ] at h0
        exact ((List.pairwise_cons.1 (List.pairwise_cons.1 hp).2).1 u (List.mem_of_getElem? h0)).le
    rw [search, if_neg (by rintro ⟨-, h⟩; linarith)]
    rw [List.getElem?_cons_succ] at h0 h1
    rw [search_found (b :: l) (k + 1) i u v (List.pairwise_cons.1 hp).2 h0 h1 h2 h3]
    congr 2; omega

theorem search_cases (x : ℚ) : ∀ (l : List ℚ) (k : Nat), search x k l = -999 ∨
    ∃ i u v, l[i]? = some u ∧ l[i + 1]? = some v ∧ u ≤ x ∧ x < v ∧ search x k l = (k + i : ℕ) + (x - u) / (v - u)
  | [], _ => .inl rfl
  | [_], _ => .inl rfl
  | a :: b :: l, k => by
    rw [search]
    split
    · rename_i h
      exact .inr ⟨0, a, b, rfl, rfl, h.1, h.2, by simp⟩
    · rcases search_cases x (b :: l) (k + 1) with h | ⟨i, u, v, h0, h1, h2, h3, h4⟩
      · exact .inl h
      · refine .inr ⟨i + 1, u, v, by simpa using h0, by simpa using h1, h2, h3, ?_⟩
        rw [h4]; congr 2; omega

theorem frac_bounds {u v x : ℚ} (h0 : u ≤ x) (h1 : x < v) : 0 ≤ (x - u) / (v - u) ∧ (x - u) / (v - u) < 1 := by
  have : 0 < v - u := by linarith
  exact ⟨div_nonneg (by linarith) this.le, by rw [div_lt_one this]; linarith⟩

theorem fraction_found {a : Axis} (ha : a.Rising) {i : Nat} {u v x : ℚ} (hu : a.coord i = some u) (hv : a.coord (i + 1) = some v) (h0 : u ≤ x)
    (h1 : x < v) : fraction a x = .here ((i : ℚ) + (x - u) / (v - u)) := by
  cases a with
  | regular o c n =>
    have hc : 0 < c := ha
    simp only [Axis.coord] at hu hv
    split at hu
    · split at hv
      · cases hu; cases hv
        rw [fraction, if_neg hc.ne']
        congr 1
        push_cast
        have : o + ((i : ℚ) + 1) * c - (o + i * c) = c := by ring
        rw [this]
        field_simp
        ring
      · cases hv
    · cases hu
  | listed l =>
    rw [fraction, search_found l 0 i u v ha hu hv h0 h1, Nat.zero_add]

theorem here_found {i : Nat} {s : ℚ} (h0 : 0 ≤ s) (h1 : s < 1) (hi : i ≤ missing) :
    negative (.here ((i : ℚ) + s)) = false ∧ toIndex (.here ((i : ℚ) + s)) = .ok (i, s) := by
  have hw : whole ((i : ℚ) + s) = i := whole_of (by linarith) (by linarith)
  constructor
  · rw [negative, hw]; simp
  · rw [toIndex, hw, if_pos (by exact_mod_cast hi)]
    simp

theorem place_found {a : Axis} (ha : a.Rising) (hn : a.num ≤ missing) {i : Nat} {u v x : ℚ} (hu : a.coord i = some u) (hv : a.coord (i + 1) = some v)
    (h0 : u ≤ x) (h1 : x < v) : negative (fraction a x) = false ∧ toIndex (fraction a x) = .ok (i, (x - u) / (v - u)) := by
  rw [fraction_found ha hu hv h0 h1]
  have := coord_lt hu
  exact here_found (frac_bounds h0 h1).1 (frac_bounds h0 h1).2 (by omega)

theorem next_of {i n : Nat} (h : i < n) (hn : n ≤ missing) : next i = i + 1 := by
  unfold next; exact Nat.mod_eq_of_lt (by omega)

theorem index_lt {i j n m : Nat} (hi : i < n) (hj : j < m) : j * n + i < n * m := by
  have : (j + 1) * n ≤ m * n := Nat.mul_le_mul_right n hj
  rw [Nat.add_mul, Nat.one_mul] at this
  rw [Nat.mul_comm n m]
  omega

theorem at_some {g : Samples} (hg : g.Proper) {i j : Nat} (hi : i < g.xs.num) (hj : j < g.ys.num) : ∃ v, g.at i j = some v := by
  have := index_lt hi hj
  exact ⟨_, List.getElem?_eq_getElem (by rw [hg.full]; exact this)⟩

theorem valueAt_of {g : Samples} {i j : Nat} {v : ℚ} (h : g.at i j = some v) : valueAt g i j = .ok v := vget_eq_ok.2 h

theorem coord_ne {a : Axis} (ha : a.Rising) {i : Nat} {u v : ℚ} (hu : a.coord i = some u) (hv : a.coord (i + 1) = some v) : u < v := by
  cases a with
  | regular o c n =>
    have hc : 0 < c := ha
    simp only [Axis.coord] at hu hv
    split at hu
    · split at hv
      · cases hu; cases hv
        push_cast; linarith
      · cases hv
    · cases hu
  | listed l =>
    obtain ⟨h1, rfl⟩ := List.getElem?_eq_some_iff.1 hu
    obtain ⟨h2, rfl⟩ := List.getElem?_eq_some_iff.1 hv
    exact List.pairwise_iff_getElem.1 ha _ _ h1 h2 (by omega)

theorem coord_mono {a : Axis} (ha : a.Rising) {i j : Nat} {u v : ℚ} (hij : i ≤ j) (hu : a.coord i = some u) (hv : a.coord j = some v) : u ≤ v := by
  cases a with
  | regular o c n =>
    have hc : 0 < c := ha
    simp only [Axis.coord] at hu hv
    split at hu
    · split at hv
      · cases hu; cases hv
        have : (i : ℚ) ≤ j := by exact_mod_cast hij
        have := mul_le_mul_of_nonneg_right this hc.le
        linarith
      · cases hv
    · cases hu
  | listed l =>
    obtain ⟨h1, rfl⟩ := List.getElem?_eq_some_iff.1 hu
    obtain ⟨h2, rfl⟩ := List.getElem?_eq_some_iff.1 hv
    rcases Nat.lt_or_eq_of_le hij with h | rfl
    · exact (List.pairwise_iff_getElem.1 ha _ _ h1 h2 h).le
    · exact le_rfl

theorem coord_some {a : Axis} {i : Nat} (h : i < a.num) : ∃ u, a.coord i = some u := by
  cases a with
  | regular o c n => exact ⟨_, if_pos h⟩
  | listed l => exact ⟨_, List.getElem?_eq_getElem h⟩

/-- The half-open cell of a location in a closed one. -/
theorem half_open {a : Axis} (ha : a.Rising) {i : Nat} {u v x : ℚ} (h : a.Between i u v x) :
    x < v ∨ (x = v ∧ ∃ w, a.coord (i + 1 + 1) = some w ∧ x < w) := by
  rcases lt_or_eq_of_le h.high with hx | hx
  · exact .inl hx
  · refine .inr ⟨hx, ?_⟩
    obtain ⟨k, w, hk, hxw⟩ := h.inside
    have hk2 : i + 1 + 1 ≤ k := by
      by_contra hc
      have := coord_mono ha (i := k) (j := i + 1) (by omega) hk h.second
      linarith
    have hk3 := coord_lt hk
    obtain ⟨w', hw'⟩ := coord_some (a := a) (i := i + 1 + 1) (by omega)
    exact ⟨w', hw', by rw [hx]; exact coord_ne ha h.second hw'⟩

theorem cell_value {g : Samples} (hg : g.Proper) {p : Pt} {i j : Nat} {x0 x1 y0 y1 a b c d : ℚ} (hx0 : g.xs.coord i = some x0)
    (hx1 : g.xs.coord (i + 1) = some x1) (hy0 : g.ys.coord j = some y0) (hy1 : g.ys.coord (j + 1) = some y1) (h1 : x0 ≤ p.x) (h2 : p.x < x1)
    (h3 : y0 ≤ p.y) (h4 : p.y < y1) (ha : g.at i j = some a) (hb : g.at (i + 1) j = some b) (hc : g.at i (j + 1) = some c)
    (hd : g.at (i + 1) (j + 1) = some d) : interpolate g p = .ok (some (bilinear x0 x1 y0 y1 a b c d p.x p.y)) := by
  obtain ⟨n1, t1⟩ := place_found hg.xs hg.fewX hx0 hx1 h1 h2
  obtain ⟨n2, t2⟩ := place_found hg.ys hg.fewY hy0 hy1 h3 h4
  unfold interpolate
  rw [n1, n2, t1, t2]
  simp only [Bool.or_self, Bool.false_eq_true, if_false, Res.ok_bind]
  have e1 : next i = i + 1 := next_of (coord_lt hx0) hg.fewX
  have e2 : next j = j + 1 := next_of (coord_lt hy0) hg.fewY
  unfold within
  have hlt : ¬ (next i ≥ g.xs.num ∨ next j ≥ g.ys.num) := by
    have := coord_lt hx1
    have := coord_lt hy1
    omega
  simp only
  rw [if_neg hlt]
  unfold blend
  rw [e1, e2, valueAt_of ha, valueAt_of hb, valueAt_of hc, valueAt_of hd]
  simp only [Res.ok_bind]
  congr 2
  unfold bilinear
  have q1 : x1 - x0 ≠ 0 := by linarith
  have q2 : y1 - y0 ≠ 0 := by linarith
  field_simp
  ring

/-- On the common side of two cells the two functions agree. -/
theorem bilinear_right {x0 x1 x2 y0 y1 a b c d e f y : ℚ} (h0 : x0 < x1) (h1 : x1 < x2) (h2 : y0 < y1) :
    bilinear x1 x2 y0 y1 b e d f x1 y = bilinear x0 x1 y0 y1 a b c d x1 y := by
  unfold bilinear
  have q0 : x1 - x0 ≠ 0 := by linarith
  have q1 : x2 - x1 ≠ 0 := by linarith
  have q2 : y1 - y0 ≠ 0 := by linarith
  field_simp
  ring

theorem bilinear_above {x0 x1 y0 y1 y2 a b c d e f x : ℚ} (h0 : x0 < x1) (h1 : y0 < y1) (h2 : y1 < y2) :
    bilinear x0 x1 y1 y2 c d e f x y1 = bilinear x0 x1 y0 y1 a b c d x y1 := by
  unfold bilinear
  have q0 : x1 - x0 ≠ 0 := by linarith
  have q1 : y1 - y0 ≠ 0 := by linarith
  have q2 : y2 - y1 ≠ 0 := by linarith
  field_simp
  ring

end Verif.Gridded
