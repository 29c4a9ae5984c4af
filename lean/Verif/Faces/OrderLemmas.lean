import Verif.Faces.OrderSpec
import Mathlib.Data.Prod.Lex
import Mathlib.Data.List.Nodup
import Mathlib.Tactic.Linarith
import Mathlib.Tactic.Ring
import Mathlib.Tactic.FieldSimp
import Mathlib.Algebra.Order.Field.Basic
/-!
# Lemmas: edges around a node
-/
namespace Verif.Faces
open Verif.Mesh Verif.Polygons

def NonZero (v : Pt) : Prop := v.x ≠ 0 ∨ v.y ≠ 0

theorem phiVector_nonZero (d : Pt) : NonZero (phiVector d) := by
  unfold phiVector NonZero
  split
  · split <;> right <;> norm_num
  · next h =>
    by_contra hc
    push Not at hc
    apply h
    rw [hc.1, hc.2, abs_zero]
    have : (0 : ℚ) < minimumDelta := by unfold minimumDelta; norm_num
    exact ⟨this, this⟩

/-- A number that grows with the angle. -/
def key (v : Pt) : ℕ ×ₗ ℚ := toLex (rank v, -(v.x / v.y))

theorem angleLt_iff {v w : Pt} (_hv : NonZero v) (_hw : NonZero w) : angleLt v w = true ↔ key v < key w := by
  unfold angleLt key
  rw [Prod.Lex.toLex_lt_toLex]
  simp only [Bool.or_eq_true, decide_eq_true_eq, Bool.and_eq_true, beq_iff_eq]
  refine or_congr Iff.rfl (and_congr_right ?_)
  intro hr
  have key1 : ∀ (v w : Pt), 0 < v.y * w.y → (0 < cross v w ↔ -(v.x / v.y) < -(w.x / w.y)) := by
    intro v w h
    have hy : v.y ≠ 0 := by rintro h0; rw [h0, zero_mul] at h; exact lt_irrefl _ h
    have hz : w.y ≠ 0 := by rintro h0; rw [h0, mul_zero] at h; exact lt_irrefl _ h
    have e : v.x / v.y - w.x / w.y = cross v w / (v.y * w.y) := by
      unfold cross; field_simp
    rw [neg_lt_neg_iff, ← sub_pos (a := v.x / v.y), e]
    exact (div_pos_iff_of_pos_right h).symm
  rcases lt_trichotomy v.y 0 with h | h | h
  · rcases lt_trichotomy w.y 0 with h' | h' | h'
    · exact key1 v w (mul_pos_of_neg_of_neg h h')
    · exfalso
      simp only [rank, h, h', lt_irrefl, if_true, if_false] at hr
      split at hr <;> simp at hr
    · exfalso
      simp [rank, h, h', not_lt.2 h'.le] at hr
  · rcases lt_trichotomy w.y 0 with h' | h' | h'
    · exfalso
      simp only [rank, h, h', lt_irrefl, if_true, if_false] at hr
      split at hr <;> simp at hr
    · simp [cross, h, h']
    · exfalso
      simp only [rank, h, h', lt_irrefl, not_lt.2 h'.le, if_true, if_false] at hr
      split at hr <;> simp at hr
  · rcases lt_trichotomy w.y 0 with h' | h' | h'
    · exfalso
      simp [rank, h, h', not_lt.2 h.le] at hr
    · exfalso
      simp only [rank, h, h', lt_irrefl, not_lt.2 h.le, if_true, if_false] at hr
      split at hr <;> simp at hr
    · exact key1 v w (mul_pos h h')

/-- The position in the list: after the turn or not, then the angle. -/
def relKey (u v : Pt) : ℕ ×ₗ (ℕ ×ₗ ℚ) := toLex (if key v < key u then 1 else 0, key v)

theorem relLt_iff {u v w : Pt} (hu : NonZero u) (hv : NonZero v) (hw : NonZero w) : relLt u v w = true ↔ relKey u v < relKey u w := by
  unfold relLt relKey
  rw [Prod.Lex.toLex_lt_toLex]
  have a1 := angleLt_iff hv hu
  have a2 := angleLt_iff hw hu
  have a3 := angleLt_iff hv hw
  by_cases h1 : key v < key u <;> by_cases h2 : key w < key u
  · simp [a1.2 h1, a2.2 h2, h1, h2, a3]
  · have b2 : angleLt w u = false := by rw [← Bool.not_eq_true, a2]; exact h2
    simp [a1.2 h1, b2, h1, h2]
  · have b1 : angleLt v u = false := by rw [← Bool.not_eq_true, a1]; exact h1
    simp [a2.2 h2, b1, h1, h2]
  · have b2 : angleLt w u = false := by rw [← Bool.not_eq_true, a2]; exact h2
    have b1 : angleLt v u = false := by rw [← Bool.not_eq_true, a1]; exact h1
    simp [b1, b2, h1, h2, a3]

/-- Three places in cyclic order. -/
def Cyc {α : Type} [LT α] (a x b : α) : Prop := (a < x ∧ x < b) ∨ (x < b ∧ b < a) ∨ (b < a ∧ a < x)

theorem cyc_relKey {u a x b : Pt} (h : Cyc (relKey u a) (relKey u x) (relKey u b)) : Cyc (key a) (key x) (key b) := by
  have lt : ∀ v w, relKey u v < relKey u w → (key v < key w ∧ (key v < key u ↔ key w < key u)) ∨ (¬ key v < key u ∧ key w < key u) := by
    intro v w h
    unfold relKey at h
    rw [Prod.Lex.toLex_lt_toLex] at h
    by_cases h1 : key v < key u <;> by_cases h2 : key w < key u <;> simp [h1, h2] at h ⊢ <;> exact h
  unfold Cyc at *
  have step : ∀ p q r : Pt, relKey u p < relKey u q → relKey u q < relKey u r →
      (key p < key q ∧ key q < key r) ∨ (key q < key r ∧ key r < key p) ∨ (key r < key p ∧ key p < key q) := by
    intro p q r h1 h2
    rcases lt p q h1 with ⟨h1, e1⟩ | ⟨h1, h1'⟩ <;> rcases lt q r h2 with ⟨h2, e2⟩ | ⟨h2, h2'⟩
    · exact Or.inl ⟨h1, h2⟩
    · right; right
      refine ⟨?_, h1⟩
      have := (not_iff_not.2 e1).2 h2
      exact lt_of_lt_of_le h2' (not_lt.1 this)
    · right; left
      exact ⟨h2, lt_of_lt_of_le (e2.1 h1') (not_lt.1 h1)⟩
    · exact absurd h1' h2
  rcases h with h | h | h
  · exact step a x b h.1 h.2
  · rcases step x b a h.1 h.2 with h | h | h
    · exact Or.inr (Or.inl h)
    · exact Or.inr (Or.inr h)
    · exact Or.inl h
  · rcases step b a x h.1 h.2 with h | h | h
    · exact Or.inr (Or.inr h)
    · exact Or.inl h
    · exact Or.inr (Or.inl h)

/-- Signs of the cross product of two vectors in order of angle. -/
theorem cross_of_key {v w : Pt} (hv : NonZero v) (hw : NonZero w) (h : key v < key w) :
    (v.y < 0 ∧ w.y < 0 ∧ 0 < cross v w) ∨ (v.y < 0 ∧ w.y = 0) ∨ (v.y < 0 ∧ 0 < w.y) ∨ (v.y = 0 ∧ 0 < v.x ∧ 0 < w.y) ∨
    (v.y = 0 ∧ 0 < v.x ∧ w.y = 0 ∧ w.x < 0) ∨ (0 < v.y ∧ 0 < w.y ∧ 0 < cross v w) ∨ (0 < v.y ∧ w.y = 0 ∧ w.x < 0) := by
  rw [← angleLt_iff hv hw] at h
  unfold angleLt at h
  simp only [Bool.or_eq_true, decide_eq_true_eq, Bool.and_eq_true, beq_iff_eq] at h
  unfold NonZero at hv hw
  rcases lt_trichotomy v.y 0 with a | a | a <;> rcases lt_trichotomy w.y 0 with b | b | b
  · left
    simp [rank, a, b] at h
    exact ⟨a, b, h⟩
  · right; left; exact ⟨a, b⟩
  · right; right; left; exact ⟨a, b⟩
  · exfalso
    by_cases c : 0 < v.x <;> simp [rank, a, b, c] at h
  · have hw' : w.x ≠ 0 := by rcases hw with h | h; exact h; exact absurd b h
    have hv' : v.x ≠ 0 := by rcases hv with h | h; exact h; exact absurd a h
    by_cases c : 0 < v.x <;> by_cases d : 0 < w.x <;> simp [rank, a, b, c, d, cross] at h
    right; right; right; right; left
    exact ⟨a, c, b, lt_of_le_of_ne (not_lt.1 d) hw'⟩
  · by_cases c : 0 < v.x <;> simp [rank, a, b, c, not_lt.2 b.le] at h
    exact Or.inr (Or.inr (Or.inr (Or.inl ⟨a, c, b⟩)))
  · exfalso
    simp [rank, a, b, not_lt.2 a.le] at h
  · have hw' : w.x ≠ 0 := by rcases hw with h | h; exact h; exact absurd b h
    by_cases d : 0 < w.x <;> simp [rank, a, b, d, not_lt.2 a.le] at h
    exact Or.inr (Or.inr (Or.inr (Or.inr (Or.inr (Or.inr ⟨a, b, lt_of_le_of_ne (not_lt.1 d) hw'⟩)))))
  · simp [rank, a, b, not_lt.2 a.le, not_lt.2 b.le] at h
    exact Or.inr (Or.inr (Or.inr (Or.inr (Or.inr (Or.inl ⟨a, b, h⟩)))))

theorem plucker_y (a x b : Pt) : a.y * cross x b + x.y * cross b a + b.y * cross a x = 0 := by unfold cross; ring
theorem plucker_x (a x b : Pt) : a.x * cross x b + x.x * cross b a + b.x * cross a x = 0 := by unfold cross; ring

theorem sector_of_lt {a x b : Pt} (ha : NonZero a) (hx : NonZero x) (hb : NonZero b) (h1 : key a < key x) (h2 : key x < key b) :
    InSector a b x := by
  have c1 := cross_of_key ha hx h1
  have c2 := cross_of_key hx hb h2
  have py := plucker_y a x b
  have hx' : x.y = 0 → x.x ≠ 0 := by intro h; rcases hx with h' | h'; exact h'; exact absurd h h'
  have hb' : b.y = 0 → b.x ≠ 0 := by intro h; rcases hb with h' | h'; exact h'; exact absurd h h'
  have e1 : cross a x = a.x * x.y - a.y * x.x := rfl
  have e2 : cross x b = x.x * b.y - x.y * b.x := rfl
  have e3 : cross b a = b.x * a.y - b.y * a.x := rfl
  unfold InSector
  rcases c1 with ⟨p, q, r⟩ | ⟨p, q⟩ | ⟨p, q⟩ | ⟨p, q, r⟩ | ⟨p, q, r, s⟩ | ⟨p, q, r⟩ | ⟨p, q, r⟩
  · rcases c2 with ⟨t, v, w⟩ | ⟨t, v⟩ | ⟨t, v⟩ | ⟨t, v, w⟩ | ⟨t, v, w, z⟩ | ⟨t, v, w⟩ | ⟨t, v, w⟩
    · exact Or.inl ⟨r, w⟩
    · rcases lt_or_gt_of_ne (hb' v) with g | g
      · right; right
        refine ⟨?_, r⟩
        rw [e3, v]; nlinarith
      · left
        refine ⟨r, ?_⟩
        rw [e2, v]; nlinarith
    · by_cases g : 0 < cross x b
      · exact Or.inl ⟨r, g⟩
      · right; right
        refine ⟨?_, r⟩
        by_contra hc
        have i1 : 0 ≤ a.y * cross x b := by nlinarith
        have i2 : 0 ≤ x.y * cross b a := by nlinarith
        have i3 : 0 < b.y * cross a x := by positivity
        linarith
    all_goals exfalso; linarith
  · rcases c2 with ⟨t, v, w⟩ | ⟨t, v⟩ | ⟨t, v⟩ | ⟨t, v, w⟩ | ⟨t, v, w, z⟩ | ⟨t, v, w⟩ | ⟨t, v, w⟩
    · exfalso; linarith
    · exfalso; linarith
    · exfalso; linarith
    · left
      rw [e1, e2, q]
      constructor <;> nlinarith
    · right; right
      rw [e1, e3, q, w]
      constructor <;> nlinarith
    · exfalso; linarith
    · exfalso; linarith
  · rcases c2 with ⟨t, v, w⟩ | ⟨t, v⟩ | ⟨t, v⟩ | ⟨t, v, w⟩ | ⟨t, v, w, z⟩ | ⟨t, v, w⟩ | ⟨t, v, w⟩
    · exfalso; linarith
    · exfalso; linarith
    · exfalso; linarith
    · exfalso; linarith
    · exfalso; linarith
    · by_cases g : 0 < cross a x
      · exact Or.inl ⟨g, w⟩
      · right; left
        refine ⟨w, ?_⟩
        by_contra hc
        have i1 : a.y * cross x b < 0 := mul_neg_of_neg_of_pos p w
        have i2 : x.y * cross b a ≤ 0 := by nlinarith
        have i3 : b.y * cross a x ≤ 0 := by nlinarith
        linarith
    · right; left
      rw [e2, e3, v]
      constructor <;> nlinarith
  · rcases c2 with ⟨t, v, w⟩ | ⟨t, v⟩ | ⟨t, v⟩ | ⟨t, v, w⟩ | ⟨t, v, w, z⟩ | ⟨t, v, w⟩ | ⟨t, v, w⟩
    · exfalso; linarith
    · exfalso; linarith
    · exfalso; linarith
    · exfalso; linarith
    · exfalso; linarith
    · left
      refine ⟨?_, w⟩
      rw [e1, p]; nlinarith
    · left
      rw [e1, e2, p, v]
      constructor <;> nlinarith
  · exfalso
    rcases c2 with ⟨t, v, w⟩ | ⟨t, v⟩ | ⟨t, v⟩ | ⟨t, v, w⟩ | ⟨t, v, w, z⟩ | ⟨t, v, w⟩ | ⟨t, v, w⟩ <;> linarith
  · rcases c2 with ⟨t, v, w⟩ | ⟨t, v⟩ | ⟨t, v⟩ | ⟨t, v, w⟩ | ⟨t, v, w, z⟩ | ⟨t, v, w⟩ | ⟨t, v, w⟩
    · exfalso; linarith
    · exfalso; linarith
    · exfalso; linarith
    · exfalso; linarith
    · exfalso; linarith
    · exact Or.inl ⟨r, w⟩
    · left
      refine ⟨r, ?_⟩
      rw [e2, v]; nlinarith
  · exfalso
    rcases c2 with ⟨t, v, w⟩ | ⟨t, v⟩ | ⟨t, v⟩ | ⟨t, v, w⟩ | ⟨t, v, w, z⟩ | ⟨t, v, w⟩ | ⟨t, v, w⟩ <;> linarith

theorem sector_of_cyc {a x b : Pt} (ha : NonZero a) (hx : NonZero x) (hb : NonZero b) (h : Cyc (key a) (key x) (key b)) : InSector a b x := by
  rcases h with h | h | h
  · exact sector_of_lt ha hx hb h.1 h.2
  · rcases sector_of_lt hx hb ha h.1 h.2 with h | h | h
    · exact Or.inr (Or.inl h)
    · exact Or.inr (Or.inr h)
    · exact Or.inl h
  · rcases sector_of_lt hb ha hx h.1 h.2 with h | h | h
    · exact Or.inr (Or.inr h)
    · exact Or.inl h
    · exact Or.inr (Or.inl h)

theorem key_eq {v w : Pt} (hv : NonZero v) (hw : NonZero w) (h : key v = key w) : SameDirection v w := by
  have h1 : ¬ key v < key w := by rw [h]; exact lt_irrefl _
  have h2 : ¬ key w < key v := by rw [h]; exact lt_irrefl _
  rw [← angleLt_iff hv hw] at h1
  rw [← angleLt_iff hw hv] at h2
  have hr : rank v = rank w := by
    have := congrArg (fun k => (ofLex k).1) h
    exact this
  unfold angleLt at h1 h2
  simp only [Bool.or_eq_true, decide_eq_true_eq, Bool.and_eq_true, beq_iff_eq, hr, lt_irrefl, false_or, true_and, not_lt] at h1 h2
  have hc : cross w v = - cross v w := by unfold cross; ring
  have c0 : cross v w = 0 := by rw [hc] at h2; linarith
  refine ⟨c0, ?_⟩
  have hxy : v.x * w.y = v.y * w.x := by unfold cross at c0; linarith
  have main : 0 < v.y * w.y → 0 < v.x * w.x + v.y * w.y := by
    intro hp
    have : 0 ≤ v.x * w.x := by
      have e : (v.x * w.x) * (v.y * w.y) = (v.y * w.x) ^ 2 := by
        calc (v.x * w.x) * (v.y * w.y) = (v.x * w.y) * (v.y * w.x) := by ring
          _ = _ := by rw [hxy]; ring
      by_contra hn
      have : (v.x * w.x) * (v.y * w.y) < 0 := mul_neg_of_neg_of_pos (not_le.1 hn) hp
      rw [e] at this
      exact absurd this (not_lt.2 (sq_nonneg _))
    linarith
  unfold NonZero at hv hw
  rcases lt_trichotomy v.y 0 with a | a | a <;> rcases lt_trichotomy w.y 0 with b | b | b
  · exact main (mul_pos_of_neg_of_neg a b)
  · exfalso; by_cases d : 0 < w.x <;> simp [rank, a, b, d] at hr
  · exfalso; simp [rank, a, b, not_lt.2 b.le] at hr
  · exfalso; by_cases d : 0 < v.x <;> simp [rank, a, b, d] at hr
  · have hw' : w.x ≠ 0 := by rcases hw with h | h; exact h; exact absurd b h
    have hv' : v.x ≠ 0 := by rcases hv with h | h; exact h; exact absurd a h
    rw [a, b, mul_zero, add_zero]
    by_cases c : 0 < v.x <;> by_cases d : 0 < w.x
    · exact mul_pos c d
    · simp [rank, a, b, c, d] at hr
    · simp [rank, a, b, c, d] at hr
    · exact mul_pos_of_neg_of_neg (lt_of_le_of_ne (not_lt.1 c) hv') (lt_of_le_of_ne (not_lt.1 d) hw')
  · exfalso; by_cases d : 0 < v.x <;> simp [rank, a, b, d, not_lt.2 b.le] at hr
  · exfalso; simp [rank, a, b, not_lt.2 a.le] at hr
  · exfalso; by_cases d : 0 < w.x <;> simp [rank, a, b, d, not_lt.2 a.le] at hr
  · exact main (mul_pos a b)

/-! ## Neighbours in a sorted list -/

/-- In a strictly sorted list, `e` comes after `e'` cyclically if nothing lies between. -/
theorem before_of_sorted {α : Type} [LinearOrder α] {k : Nat → α} {l : List Nat} (hs : l.Pairwise (fun a b => k a < k b)) {e' e : Nat}
    (he' : e' ∈ l) (he : e ∈ l) (hne : e' ≠ e) (h : ∀ x ∈ l, ¬ Cyc (k e') (k x) (k e)) : Before l e' e := by
  obtain ⟨j, hj, rfl⟩ := List.getElem_of_mem he'
  obtain ⟨i, hi, rfl⟩ := List.getElem_of_mem he
  have lt : ∀ (p q : Nat) (hp : p < l.length) (hq : q < l.length), p < q → k l[p] < k l[q] := by
    intro p q hp hq hpq
    exact List.pairwise_iff_getElem.1 hs p q hp hq hpq
  have hij : i ≠ j := by rintro rfl; exact hne rfl
  refine ⟨j, List.getElem?_eq_getElem hj, ?_⟩
  by_cases hl : j + 1 = l.length
  · rw [hl, Nat.mod_self]
    have h0 : i = 0 := by
      by_contra h0
      exact h l[0] (List.getElem_mem _) (Or.inr (Or.inl ⟨lt 0 i (by omega) hi (by omega), lt i j hi hj (by omega)⟩))
    subst h0
    exact List.getElem?_eq_getElem _
  · rw [Nat.mod_eq_of_lt (by omega)]
    have h0 : i = j + 1 := by
      by_contra h0
      rcases Nat.lt_or_ge i j with hlt | hge
      · exact h l[j + 1] (List.getElem_mem _) (Or.inr (Or.inr ⟨lt i j hi hj hlt, lt j (j + 1) hj (by omega) (by omega)⟩))
      · exact h l[j + 1] (List.getElem_mem _) (Or.inl ⟨lt j (j + 1) hj (by omega) (by omega), lt (j + 1) i (by omega) hi (by omega)⟩)
    subst h0
    exact List.getElem?_eq_getElem _

theorem ccwOrder_perm (nodes : List (Option Pt)) (edges : List Edge) (n : Nat) (l : List Nat) : (ccwOrder nodes edges n l).Perm l :=
  List.perm_insertionSort _ _

/-- The edges of a node come strictly in the order of their angles. -/
theorem ccwOrder_sorted {nodes : List (Option Pt)} {edges : List Edge} {n : Nat} {l : List Nat} (hl : l.Nodup)
    (hd : ∀ a ∈ l, ∀ b ∈ l, a ≠ b → ¬ SameDirection (phiVector (edgeDelta nodes edges n a)) (phiVector (edgeDelta nodes edges n b))) :
    ∃ u, (ccwOrder nodes edges n l).Pairwise (fun a b => relKey u (phiVector (edgeDelta nodes edges n a)) <
      relKey u (phiVector (edgeDelta nodes edges n b))) := by
  have hp := ccwOrder_perm nodes edges n l
  set phi := fun e => phiVector (edgeDelta nodes edges n e) with hphi
  have nz : ∀ e, NonZero (phi e) := fun e => phiVector_nonZero _
  set u := phi (l.headD 0) with hu
  have hle : ∀ a b, relLt u (phi b) (phi a) = false ↔ relKey u (phi a) ≤ relKey u (phi b) := by
    intro a b
    rw [← Bool.not_eq_true, relLt_iff (nz _) (nz b) (nz a), not_lt]
  have sorted : (ccwOrder nodes edges n l).Pairwise (fun a b => relKey u (phi a) ≤ relKey u (phi b)) := by
    have : Std.Total (fun a b => relLt u (phi b) (phi a) = false) := ⟨fun a b => by rw [hle, hle]; exact le_total _ _⟩
    have : IsTrans Nat (fun a b => relLt u (phi b) (phi a) = false) :=
      ⟨fun a b c h1 h2 => (hle a c).2 (le_trans ((hle a b).1 h1) ((hle b c).1 h2))⟩
    have := List.pairwise_insertionSort (fun a b => relLt u (phi b) (phi a) = false) l
    exact this.imp (fun {a b} h => (hle a b).1 h)
  refine ⟨u, ?_⟩
  have hnd : (ccwOrder nodes edges n l).Nodup := hp.nodup_iff.2 hl
  rw [List.pairwise_iff_getElem] at sorted ⊢
  intro i j hi hj hij
  refine lt_of_le_of_ne (sorted i j hi hj hij) ?_
  intro heq
  have hk : key (phi (ccwOrder nodes edges n l)[i]) = key (phi (ccwOrder nodes edges n l)[j]) := by
    have := congrArg (fun k => (ofLex k).2) heq
    exact this
  refine hd _ (hp.mem_iff.1 (List.getElem_mem hi)) _ (hp.mem_iff.1 (List.getElem_mem hj)) ?_ (key_eq (nz _) (nz _) hk)
  intro hc
  have := (List.Nodup.getElem_inj_iff hnd).1 hc
  omega

/-- The edges of a node come in counterclockwise order. -/
theorem ccwOrder_before {nodes : List (Option Pt)} {edges : List Edge} {n : Nat} {l : List Nat} (hl : l.Nodup)
    (hd : ∀ a ∈ l, ∀ b ∈ l, a ≠ b → ¬ SameDirection (phiVector (edgeDelta nodes edges n a)) (phiVector (edgeDelta nodes edges n b))) {e' e : Nat}
    (he' : e' ∈ l) (he : e ∈ l) (hne : e' ≠ e)
    (h : ∀ x ∈ l, x ≠ e' → x ≠ e → ¬ InSector (phiVector (edgeDelta nodes edges n e')) (phiVector (edgeDelta nodes edges n e))
      (phiVector (edgeDelta nodes edges n x))) :
    Before (ccwOrder nodes edges n l) e' e := by
  have hp := ccwOrder_perm nodes edges n l
  have nz : ∀ e, NonZero (phiVector (edgeDelta nodes edges n e)) := fun e => phiVector_nonZero _
  obtain ⟨u, strict⟩ := ccwOrder_sorted hl hd
  refine before_of_sorted strict (hp.mem_iff.2 he') (hp.mem_iff.2 he) hne ?_
  intro x hx hc
  have hcyc := cyc_relKey hc
  have hsec := sector_of_cyc (nz _) (nz _) (nz _) hcyc
  refine h x (hp.mem_iff.1 hx) ?_ ?_ hsec
  · rintro rfl
    rcases hcyc with h | h | h
    · exact lt_irrefl _ h.1
    · exact lt_irrefl _ (lt_trans h.1 h.2)
    · exact lt_irrefl _ h.2
  · rintro rfl
    rcases hcyc with h | h | h
    · exact lt_irrefl _ h.2
    · exact lt_irrefl _ h.1
    · exact lt_irrefl _ (lt_trans h.1 h.2)

theorem sector_asymm {a b x : Pt} (h : InSector a b x) : ¬ InSector a x b := by
  have e : ∀ v w : Pt, cross v w = - cross w v := by intro v w; unfold cross; ring
  unfold InSector at *
  rw [e a x, e x b, e b a] at h
  rintro (h' | h' | h') <;> rcases h with h | h | h <;> obtain ⟨p, q⟩ := h <;> obtain ⟨r, t⟩ := h' <;> linarith

/-- Nothing lies between two successive edges. -/
theorem not_sector_of_before {nodes : List (Option Pt)} {edges : List Edge} {n : Nat} {l : List Nat} (hl : l.Nodup)
    (hd : ∀ a ∈ l, ∀ b ∈ l, a ≠ b → ¬ SameDirection (phiVector (edgeDelta nodes edges n a)) (phiVector (edgeDelta nodes edges n b))) {e' e : Nat}
    (h : Before (ccwOrder nodes edges n l) e' e) {x : Nat} (hx : x ∈ l) (h1 : x ≠ e') (h2 : x ≠ e) :
    ¬ InSector (phiVector (edgeDelta nodes edges n e')) (phiVector (edgeDelta nodes edges n e)) (phiVector (edgeDelta nodes edges n x)) := by
  have hp := ccwOrder_perm nodes edges n l
  have nz : ∀ e, NonZero (phiVector (edgeDelta nodes edges n e)) := fun e => phiVector_nonZero _
  obtain ⟨u, strict⟩ := ccwOrder_sorted hl hd
  obtain ⟨j, g1, g2⟩ := h
  obtain ⟨q, hq, rfl⟩ := List.getElem_of_mem (hp.mem_iff.2 hx)
  generalize ccwOrder nodes edges n l = L at *
  have hj : j < L.length := (List.getElem?_eq_some_iff.1 g1).1
  rw [List.getElem?_eq_getElem hj] at g1
  obtain rfl := Option.some.inj g1
  have lt : ∀ (p q : Nat) (hp : p < L.length) (hq : q < L.length), p < q →
      relKey u (phiVector (edgeDelta nodes edges n L[p])) < relKey u (phiVector (edgeDelta nodes edges n L[q])) := by
    intro p q hp hq hpq
    exact List.pairwise_iff_getElem.1 strict p q hp hq hpq
  have hqj : q ≠ j := by rintro rfl; exact h1 rfl
  intro hs
  refine sector_asymm hs (sector_of_cyc (nz _) (nz _) (nz _) (cyc_relKey (u := u) ?_))
  by_cases hlast : j + 1 = L.length
  · rw [hlast, Nat.mod_self, List.getElem?_eq_getElem (by omega)] at g2
    obtain rfl := Option.some.inj g2
    have hq0 : q ≠ 0 := by rintro rfl; exact h2 rfl
    exact Or.inr (Or.inl ⟨lt 0 q (by omega) hq (by omega), lt q j hq hj (by omega)⟩)
  · rw [Nat.mod_eq_of_lt (by omega), List.getElem?_eq_getElem (by omega)] at g2
    obtain rfl := Option.some.inj g2
    have hq0 : q ≠ j + 1 := by rintro rfl; exact h2 rfl
    rcases Nat.lt_or_ge q j with hlt | hge
    · exact Or.inr (Or.inr ⟨lt q j hq hj hlt, lt j (j + 1) hj (by omega) (by omega)⟩)
    · exact Or.inl ⟨lt j (j + 1) hj (by omega) (by omega), lt (j + 1) q (by omega) hq (by omega)⟩

end Verif.Faces
