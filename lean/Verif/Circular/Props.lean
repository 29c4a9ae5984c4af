import Verif.Circular.Model
/-!
# C31: circular navigation is a bijection
-/
namespace Verif.Circular

/-- A position is rejected exactly if it is not on the ring. -/
theorem rejects_exactly_outside (i n : Nat) :
    (nextForward i n = .throw ↔ ¬ i < n) ∧ (nextBackward i n = .throw ↔ ¬ i < n) := by
  unfold nextForward nextBackward
  constructor <;> (split; · simp; omega) <;> (split <;> simp <;> omega)

/-- Forward is addition of one modulo the size, backward its inverse. -/
theorem forward_eq_mod (i n : Nat) (h : i < n) : nextForward i n = .ok ((i + 1) % n) := by
  unfold nextForward
  rw [if_neg (by omega), if_neg (by omega)]
  split
  · rename_i hi
    have : i + 1 = n := by omega
    rw [this, Nat.mod_self]
  · rw [Nat.mod_eq_of_lt (by omega)]

theorem backward_eq_mod (i n : Nat) (h : i < n) : nextBackward i n = .ok ((i + (n - 1)) % n) := by
  unfold nextBackward
  rw [if_neg (by omega), if_neg (by omega)]
  split
  · rename_i hi
    subst hi
    rw [Nat.mod_eq_of_lt (by omega)]; simp
  · have : i + (n - 1) = (i - 1) + n := by omega
    rw [this, Nat.add_mod_right, Nat.mod_eq_of_lt (by omega)]

/-- Forward then backward, and backward then forward, return to the start. -/
theorem forward_backward (i n : Nat) (h : i < n) :
    (nextForward i n >>= fun j => nextBackward j n) = .ok i ∧
    (nextBackward i n >>= fun j => nextForward j n) = .ok i := by
  have hf : nextForward i n = .ok (if i = n - 1 then 0 else i + 1) := by
    unfold nextForward; rw [if_neg (by omega), if_neg (by omega)]
  have hb : nextBackward i n = .ok (if i = 0 then n - 1 else i - 1) := by
    unfold nextBackward; rw [if_neg (by omega), if_neg (by omega)]
  rw [hf, hb]
  simp only [Res.ok_bind]
  unfold nextForward nextBackward
  constructor
  · rw [if_neg (by omega), if_neg (by split <;> omega)]
    by_cases e : i = n - 1
    · rw [if_pos e, if_pos rfl, e]
    · rw [if_neg e, if_neg (by omega), Nat.add_sub_cancel]
  · rw [if_neg (by omega), if_neg (by split <;> omega)]
    by_cases e : i = 0
    · rw [if_pos e, if_pos rfl, e]
    · rw [if_neg e, if_neg (by omega), Nat.sub_add_cancel (by omega)]

/-- Stepping forward is injective and stays on the ring. -/
theorem forward_injective (i j n k : Nat) (hi : nextForward i n = .ok k) (hj : nextForward j n = .ok k) :
    i = j ∧ k < n := by
  unfold nextForward at hi hj
  split at hi
  · simp at hi
  · split at hi
    · simp at hi
    · rw [if_neg (by assumption)] at hj
      split at hj
      · simp at hj
      · simp only [Res.ok.injEq] at hi hj
        split at hi <;> split at hj <;> omega

/-- Stepping `k` times is addition of `k`; stepping once around the ring is the identity. -/
theorem forward_many (n k i : Nat) (h : i < n) : forwardN n k i = .ok ((i + k) % n) := by
  induction k generalizing i with
  | zero => simp [forwardN, Nat.mod_eq_of_lt h]
  | succ k ih =>
    simp only [forwardN, forward_eq_mod i n h, Res.ok_bind]
    rw [ih _ (Nat.mod_lt _ (by omega)), Nat.mod_add_mod]
    congr 2
    omega

theorem once_around (n i : Nat) (h : i < n) : forwardN n n i = .ok i := by
  rw [forward_many n n i h, Nat.add_mod_right, Nat.mod_eq_of_lt h]

/-- Every position is reached from every other. -/
theorem reaches_everything (n i j : Nat) (hi : i < n) (hj : j < n) : ∃ k < n, forwardN n k i = .ok j := by
  refine ⟨(j + (n - i)) % n, Nat.mod_lt _ (by omega), ?_⟩
  rw [forward_many n _ i hi, Nat.add_mod_mod]
  have : i + (j + (n - i)) = j + n := by omega
  rw [this, Nat.add_mod_right, Nat.mod_eq_of_lt hj]

/-- `RotateIndex` is the same navigation. -/
theorem rotate_is_next (i n : Nat) :
    rotateIndex i n true = nextForward i n ∧ rotateIndex i n false = nextBackward i n := by
  unfold rotateIndex nextForward nextBackward
  constructor <;> (split; · rfl) <;> (split <;> rfl)

example : nextForward 4 5 = .ok 0 ∧ nextBackward 0 5 = .ok 4 ∧ nextForward 5 5 = .throw := by decide

end Verif.Circular
