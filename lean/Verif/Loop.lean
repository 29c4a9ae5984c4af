import Verif.Basic
/-!
# Counting loops

`for (UInt i = lo; i < hi; ++i)` with a body that may throw or be undefined, and the two rules used to
reason about it.
-/
namespace Verif
variable {σ : Type}

/-- `k` rounds of a loop whose counter starts at `i`. -/
def loopN (f : Nat → σ → Res σ) : Nat → Nat → σ → Res σ
  | 0, _, s => .ok s
  | k + 1, i, s => do
    let s' ← f i s
    loopN f k (i + 1) s'

/-- `for (UInt i = lo; i < hi; ++i) s = f(i, s);` -/
def forRange (lo hi : Nat) (f : Nat → σ → Res σ) (s : σ) : Res σ := loopN f (hi - lo) lo s

theorem loopN_eq (f : Nat → σ → Res σ) (F : Nat → σ) (k i : Nat)
    (h : ∀ j, i ≤ j → j < i + k → f j (F j) = .ok (F (j + 1))) : loopN f k i (F i) = .ok (F (i + k)) := by
  induction k generalizing i with
  | zero => rfl
  | succ k ih =>
    rw [loopN, h i (Nat.le_refl _) (by omega), Res.ok_bind, ih (i + 1) (fun j h1 h2 => h j (by omega) (by omega))]
    congr 2; omega

/-- The loop follows the sequence of states `F`. -/
theorem forRange_eq {f : Nat → σ → Res σ} (F : Nat → σ) {lo hi : Nat} (hle : lo ≤ hi)
    (h : ∀ i, lo ≤ i → i < hi → f i (F i) = .ok (F (i + 1))) : forRange lo hi f (F lo) = .ok (F hi) := by
  have := loopN_eq f F (hi - lo) lo (fun j h1 h2 => h j h1 (by omega))
  rw [forRange, this]
  congr 2; omega

theorem forRange_empty {f : Nat → σ → Res σ} {lo hi : Nat} (hle : hi ≤ lo) (s : σ) :
    forRange lo hi f s = .ok s := by
  unfold forRange
  rw [Nat.sub_eq_zero_of_le hle]; rfl

theorem loopN_inv (f : Nat → σ → Res σ) (I : Nat → σ → Prop) (k i : Nat) (s : σ) (h0 : I i s)
    (h : ∀ j t, i ≤ j → j < i + k → I j t → ∃ t', f j t = .ok t' ∧ I (j + 1) t') :
    ∃ t, loopN f k i s = .ok t ∧ I (i + k) t := by
  induction k generalizing i s with
  | zero => exact ⟨s, rfl, h0⟩
  | succ k ih =>
    obtain ⟨t, h1, h2⟩ := h i s (Nat.le_refl _) (by omega) h0
    obtain ⟨u, h3, h4⟩ := ih (i + 1) t h2 (fun j t h5 h6 => h j t (by omega) (by omega))
    refine ⟨u, by rw [loopN, h1, Res.ok_bind, h3], ?_⟩
    have : i + 1 + k = i + (k + 1) := by omega
    rw [← this]; exact h4

/-- An invariant that every round keeps holds after the loop. -/
theorem forRange_inv {f : Nat → σ → Res σ} (I : Nat → σ → Prop) {lo hi : Nat} (hle : lo ≤ hi) {s : σ}
    (h0 : I lo s) (h : ∀ i t, lo ≤ i → i < hi → I i t → ∃ t', f i t = .ok t' ∧ I (i + 1) t') :
    ∃ t, forRange lo hi f s = .ok t ∧ I hi t := by
  obtain ⟨t, h1, h2⟩ := loopN_inv f I (hi - lo) lo s h0 (fun j t h1 h2 => h j t h1 (by omega))
  refine ⟨t, h1, ?_⟩
  have : lo + (hi - lo) = hi := by omega
  rw [← this]; exact h2

end Verif
