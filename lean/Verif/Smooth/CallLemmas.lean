import Verif.Smooth.RuleLemmas
/-!
# Lemmas: the call
-/
namespace Verif.Smooth
open Verif.Curvi Verif.CurviLine

variable {K : Type} [Field K] [LinearOrder K] [IsStrictOrderedRing K]

omit [IsStrictOrderedRing K] in
theorem solve_total (types : Nat → Nat → NodeType) (lo up : Nat × Nat) (g : Grid (Pt K)) (hz : ZoneIn lo up g) :
    ∃ r, solve types lo up g = .ok r ∧ ∀ g', r = some g' → SameShape g g' := by
  have := hz.inside
  unfold solve
  split
  · rw [forBlock g lo.1 (up.1 + 1) lo.2 (up.2 + 1)
      (fun n m p => if skipped (types n m) then p else (position (types n m) g.cell n m).getD inv) (smoothNode types g.cell)
      (fun n m h h1 h2 h3 h4 hs => smoothNode_ok types g.cell g h hs (by omega) (by omega)), Res.ok_bind]
    exact ⟨_, rfl, fun g' e => by cases e; exact mapBlock_shape ..⟩
  · exact ⟨_, rfl, fun g' e => by cases e⟩

omit [IsStrictOrderedRing K] in
theorem rounds_total (types : Nat → Nat → NodeType) (lo up : Nat × Nat) (k : Nat) (g : Grid (Pt K)) (hz : ZoneIn lo up g) :
    ∃ r, rounds types lo up k g = .ok r := by
  induction k generalizing g with
  | zero => exact ⟨_, rfl⟩
  | succ k ih =>
    obtain ⟨r, h1, h2⟩ := solve_total types lo up g hz
    rw [rounds, h1, Res.ok_bind]
    cases r with
    | none => exact ⟨_, rfl⟩
    | some g1 => exact ih g1 ⟨hz.n, hz.m, by rw [(h2 g1 rfl).numN, (h2 g1 rfl).numM]; exact hz.inside⟩

theorem isValid_of_wf {P : Type} {g : Grid P} (hg : WF g) : (!g.isValid) = false := by
  have h1 := hg.two_le_numN
  have h2 := hg.two_le_numM
  have : g.isValid = true := (isValid_iff g).2 ⟨by omega, by omega⟩
  rw [this]; rfl

theorem zone_of_block {P : Type} {g : Grid P} {a b : Nat × Nat} (h : BlockOk g a b) : ZoneIn (low a b) (high a b) g := by
  obtain ⟨h1, h2, _⟩ := h
  refine ⟨?_, ?_, ?_, ?_⟩
  · unfold low high; simp only []; omega
  · unfold low high; simp only []; omega
  · unfold high; simp only []; omega
  · unfold high; simp only []; omega

theorem setBlock_block {P : Type} {g : Grid P} (hN : g.numN ≤ missing) (hM : g.numM ≤ missing) {a b : Nat × Nat} (h : BlockOk g a b) :
    setBlock g a b = .ok (low a b, high a b) := setBlock_ok g a b h.1 h.2.1 hN hM h.2.2

theorem setBlock_not {P : Type} {g : Grid P} (hN : g.numN ≤ missing) (hM : g.numM ≤ missing) {a b : Nat × Nat} (h : ¬ BlockOk g a b) :
    setBlock g a b = .throw := by
  cases e : setBlock g a b with
  | ok r => exact absurd ((block_accepted_iff g a b hN hM).1 ⟨r, e⟩) h
  | throw => rfl
  | ub =>
    unfold setBlock blockFromCorners at e
    simp only at e
    split at e
    · cases e
    · split at e
      · cases e
      · split at e
        · cases e
        · rw [Res.ok_bind] at e
          split at e <;> cases e

/-- The call, for a grid without hidden lines. -/
theorem smoothing_ok (g g1 : Grid (Pt K)) (hg : WF g) (hh : NoHidden g) (hc : clean g = .ok g1) (hN : g.numN ≤ missing) (hM : g.numM ≤ missing)
    (k : Int) {a b : Nat × Nat} (hb : BlockOk g a b) :
    ∃ r, smoothing g k a b = .ok ⟨r, some (.block ⟨(low a b).1, (low a b).2, (high a b).1 + 1, (high a b).2 + 1,
        savedNodes g1 (low a b).1 (low a b).2 ((high a b).1 + 1) ((high a b).2 + 1)⟩)⟩ ∧
      ∀ g', r = some g' ↔ Steps g1 (low a b) (high a b) (unsigned k) g1 g' := by
  obtain ⟨g1', types, h1, h2, hs, ht⟩ := setup_ok g hg
  rw [hc] at h2
  cases h2
  have hb1 : BlockOk g1 a b := by
    unfold BlockOk at *
    rw [hs.numN, hs.numM]
    exact hb
  have hz := zone_of_block hb1
  obtain ⟨r, h3, h4⟩ := rounds_ok types (low a b) (high a b) g1 (unsigned k) g1 (noHidden_same hs hh) ⟨rfl, rfl, rfl, rfl, rfl, rfl⟩ hz ht
  refine ⟨r, ?_, h4⟩
  have hzi := hz.inside
  have hz1 := hz.n
  have hz2 := hz.m
  unfold smoothing
  rw [isValid_of_wf hg, if_neg Bool.false_ne_true, h1, Res.ok_bind]
  simp only [setBlock_block (g := g1) (by rw [hs.numN]; exact hN) (by rw [hs.numM]; exact hM) hb1]
  unfold compute
  rw [saveBlock_ok g1 _ _ _ _ (by omega) (by omega) (by omega) (by omega), Res.ok_bind, h3, Res.ok_bind, Res.ok_bind]

end Verif.Smooth
