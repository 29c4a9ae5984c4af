import Mathlib.Algebra.Order.Field.Basic
import Mathlib.Tactic.Positivity
import Mathlib.Tactic.Linarith
import Verif.GridOrtho.Lemmas
/-!
# Grids that are orthogonalised as a whole
-/
namespace Verif.GridOrtho
open Verif.Smooth (NodeType)
variable {K : Type} [Field K] [DecidableEq K]

theorem full_types {N M n m : Nat} :
    (fullTypes N M n m = .bottomLeft → n = 0 ∧ m = 0) ∧ (fullTypes N M n m = .bottomRight → n = N - 1 ∧ m = 0) ∧
    (fullTypes N M n m = .upperLeft → n = 0 ∧ m = M - 1) ∧ (fullTypes N M n m = .upperRight → n = N - 1 ∧ m = M - 1) ∧
    (fullTypes N M n m = .bottom → m = 0) ∧ (fullTypes N M n m = .up → m = M - 1) ∧
    (fullTypes N M n m = .left → n = 0) ∧ (fullTypes N M n m = .right → n = N - 1) := by
  unfold fullTypes
  split_ifs <;> simp_all

theorem full_internal {N M n m : Nat} (h1 : 1 ≤ n) (h2 : n < N - 1) (h3 : 1 ≤ m) (h4 : m < M - 1) : fullTypes N M n m = .internal := by
  unfold fullTypes
  rw [if_neg (by omega), if_neg (by omega), if_neg (by omega), if_neg (by omega)]

/-- One outer round more. -/
theorem outerRounds_next {s : Setup K} : ∀ {j : Nat} {c : Nodes K},
    outerRounds s (j + 1) c = boundaryRounds s (atp s (outerRounds s j c)) s.boundary (outerRounds s j c) := by
  intro j
  induction j with
  | zero => intro c; rfl
  | succ j ih =>
    intro c
    rw [outerRounds, ih]
    rfl

/-- What all moves of a grid that is orthogonalised as a whole keep, its orthogonalisation keeps. -/
theorem compute_full {s : Setup K} {P R : Nodes K → Prop} (hw : Whole s)
    (hin : ∀ c0 c ω n m, R c0 → P c → 1 ≤ n → n < s.numN - 1 → 1 ≤ m → m < s.numM - 1 → P (put c n m (relaxed (sums (atp s c0) n m) ω c n m)))
    (hb : ∀ c0 c x, R c0 → P c → 1 ≤ x → x < s.numN - 1 → P (put c x 0 (s.project 0 0 (s.numN - 1) (wantedH (atp s c0) c .above x 0))))
    (hu : ∀ c0 c x, R c0 → P c → 1 ≤ x → x < s.numN - 1 →
      P (put c x (s.numM - 1) (s.project (s.numM - 1) 0 (s.numN - 1) (wantedH (atp s c0) c .below x (s.numM - 1)))))
    (hl : ∀ c0 c y, R c0 → P c → 1 ≤ y → y < s.numM - 1 → P (put c 0 y (s.project (s.numM + 0) 0 (s.numM - 1) (wantedV (atp s c0) c .above 0 y))))
    (hr : ∀ c0 c y, R c0 → P c → 1 ≤ y → y < s.numM - 1 →
      P (put c (s.numN - 1) y (s.project (s.numM + (s.numN - 1)) 0 (s.numM - 1) (wantedV (atp s c0) c .below (s.numN - 1) y))))
    {c : Nodes K} (hR : ∀ j, j < s.outer → P (outerRounds s j c) → R (outerRounds s j c)) (hc : P c) : P (compute s c) := by
  -- inner nodes
  have hsolve : ∀ c0, R c0 → ∀ k first ω c, P c → P (solveRounds s (terms s (atp s c0)) k first ω c) := by
    intro c0 h0 k
    induction k with
    | zero => intro _ _ c hc; exact hc
    | succ k ih =>
      intro first ω c hc
      rw [solveRounds]
      apply ih
      refine foldl_inv hc ?_
      rintro b ⟨i, j⟩ hq hb
      rw [mem_places, hw.lo, hw.up] at hq
      obtain ⟨q1, q2, q3, q4⟩ := hq
      simp only at q1 q2 q3 q4
      unfold relaxNode
      split
      · rename_i hty
        have ht : terms s (atp s c0) i j = sums (atp s c0) i j := by
          unfold terms
          rw [if_pos ⟨by rw [hw.lo]; omega, by rw [hw.up]; omega, by rw [hw.lo]; omega, by rw [hw.up]; omega, hty.1⟩]
        simp only
        rw [ht]
        exact hin c0 b ω i j h0 hb (by omega) (by omega) (by omega) (by omega)
      · exact hb
  -- horizontal lines
  have hhor : ∀ c0, R c0 → ∀ c, P c → P (horizontal s (atp s c0) c) := by
    intro c0 h0 c hc
    unfold horizontal
    refine foldl_inv hc ?_
    intro c j hj hc
    rw [List.mem_range] at hj
    refine (foldl_inv (I := fun z : Scan K => P z.nodes ∧ (∀ st, z.start = some st → st = 0) ∧ (z.side = .above → j = 0) ∧ (z.side = .below → j = s.numM - 1))
      ⟨hc, by simp, by simp, by simp⟩ ?_).1
    rintro z i hi ⟨z1, z2, z3, z4⟩
    rw [List.mem_range] at hi
    have hclose : i = s.numN - 1 → P (closeRun (fun side st e => projectH s (atp s c0) side j st e) z i).nodes ∧
        (∀ st, (closeRun (fun side st e => projectH s (atp s c0) side j st e) z i).start = some st → st = 0) ∧
        ((closeRun (fun side st e => projectH s (atp s c0) side j st e) z i).side = .above → j = 0) ∧
        ((closeRun (fun side st e => projectH s (atp s c0) side j st e) z i).side = .below → j = s.numM - 1) := by
      intro hi'
      subst hi'
      unfold closeRun
      split
      · rename_i st hst hside
        have e0 := z2 st hst
        have ej := z3 hside
        subst e0; subst ej
        refine ⟨foldl_inv z1 ?_, z2, z3, z4⟩
        intro b x hx hb'
        rw [List.mem_range'_1] at hx
        simp only [projectH]
        split
        · exact hb c0 b x h0 hb' (by omega) (by omega)
        · exact hb'
      · rename_i st hst hside
        have e0 := z2 st hst
        have ej := z4 hside
        subst e0; subst ej
        refine ⟨foldl_inv z1 ?_, z2, z3, z4⟩
        intro b x hx hb'
        rw [List.mem_range'_1] at hx
        simp only [projectH]
        split
        · exact hu c0 b x h0 hb' (by omega) (by omega)
        · exact hb'
      · exact ⟨z1, z2, z3, z4⟩
    have hty := full_types (n := i) (m := j) (N := s.numN) (M := s.numM)
    rw [← hw.types _ _ (by omega) (by omega)] at hty
    obtain ⟨t1, t2, t3, t4, t5, t6, t7, t8⟩ := hty
    unfold stepH
    split
    · rename_i ht; exact ⟨z1, fun st e => by cases e; exact (t1 ht).1, z3, z4⟩
    · rename_i ht; exact ⟨z1, fun st e => by cases e; exact (t3 ht).1, z3, z4⟩
    · rename_i ht; exact ⟨z1, z2, fun _ => t5 ht, fun e => by cases e⟩
    · rename_i ht; exact ⟨z1, z2, (fun e => by cases e), fun _ => t6 ht⟩
    · rename_i ht; exact hclose (t2 ht).1
    · rename_i ht; exact hclose (t4 ht).1
    · exact ⟨z1, z2, z3, z4⟩
  -- vertical lines
  have hver : ∀ c0, R c0 → ∀ c, P c → P (vertical s (atp s c0) c) := by
    intro c0 h0 c hc
    unfold vertical
    refine foldl_inv hc ?_
    intro c j hj hc
    rw [List.mem_range] at hj
    refine (foldl_inv (I := fun z : Scan K => P z.nodes ∧ (∀ st, z.start = some st → st = 0) ∧ (z.side = .above → j = 0) ∧ (z.side = .below → j = s.numN - 1))
      ⟨hc, by simp, by simp, by simp⟩ ?_).1
    rintro z i hi ⟨z1, z2, z3, z4⟩
    rw [List.mem_range] at hi
    have hclose : i = s.numM - 1 → P (closeRun (fun side st e => projectV s (atp s c0) side j st e) z i).nodes ∧
        (∀ st, (closeRun (fun side st e => projectV s (atp s c0) side j st e) z i).start = some st → st = 0) ∧
        ((closeRun (fun side st e => projectV s (atp s c0) side j st e) z i).side = .above → j = 0) ∧
        ((closeRun (fun side st e => projectV s (atp s c0) side j st e) z i).side = .below → j = s.numN - 1) := by
      intro hi'
      subst hi'
      unfold closeRun
      split
      · rename_i st hst hside
        have e0 := z2 st hst
        have ej := z3 hside
        subst e0; subst ej
        refine ⟨foldl_inv z1 ?_, z2, z3, z4⟩
        intro b x hx hb'
        rw [List.mem_range'_1] at hx
        simp only [projectV]
        split
        · exact hl c0 b x h0 hb' (by omega) (by omega)
        · exact hb'
      · rename_i st hst hside
        have e0 := z2 st hst
        have ej := z4 hside
        subst e0; subst ej
        refine ⟨foldl_inv z1 ?_, z2, z3, z4⟩
        intro b x hx hb'
        rw [List.mem_range'_1] at hx
        simp only [projectV]
        split
        · exact hr c0 b x h0 hb' (by omega) (by omega)
        · exact hb'
      · exact ⟨z1, z2, z3, z4⟩
    have hty := full_types (n := j) (m := i) (N := s.numN) (M := s.numM)
    rw [← hw.types _ _ (by omega) (by omega)] at hty
    obtain ⟨t1, t2, t3, t4, t5, t6, t7, t8⟩ := hty
    unfold stepV
    split
    · rename_i ht; exact ⟨z1, fun st e => by cases e; exact (t1 ht).2, z3, z4⟩
    · rename_i ht; exact ⟨z1, fun st e => by cases e; exact (t2 ht).2, z3, z4⟩
    · rename_i ht; exact ⟨z1, z2, fun _ => t7 ht, fun e => by cases e⟩
    · rename_i ht; exact ⟨z1, z2, (fun e => by cases e), fun _ => t8 ht⟩
    · rename_i ht; exact hclose (t3 ht).2
    · rename_i ht; exact hclose (t4 ht).2
    · exact ⟨z1, z2, z3, z4⟩
  have hround : ∀ c0, R c0 → ∀ k c, P c → P (boundaryRounds s (atp s c0) k c) := by
    intro c0 h0 k
    induction k with
    | zero => intro c hc; exact hc
    | succ k ih =>
      intro c hc
      rw [boundaryRounds]
      exact ih _ (hver c0 h0 _ (hhor c0 h0 _ (hsolve c0 h0 _ _ _ _ hc)))
  have hout : ∀ j, j ≤ s.outer → P (outerRounds s j c) := by
    intro j
    induction j with
    | zero => intro _; exact hc
    | succ j ih =>
      intro hj
      have h := ih (by omega)
      rw [outerRounds_next]
      exact hround _ (hR j (by omega) h) _ _ h
  exact hout _ (Nat.le_refl _)

omit [DecidableEq K] in
theorem atp_whole {s : Setup K} (hw : Whole s) {c : Nodes K} {n m : Nat} (hn : n < s.numN - 1) (hm : m < s.numM - 1) : atp s c n m = s.ratio c n m := by
  unfold atp
  rw [if_pos ⟨by rw [hw.lo]; simp, by rw [hw.up]; exact hn, by rw [hw.lo]; simp, by rw [hw.up]; exact hm, hw.mask n m⟩]

end Verif.GridOrtho
