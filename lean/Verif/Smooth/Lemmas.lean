import Verif.Smooth.Spec
import Verif.CurviLine.AttractLemmas
import Mathlib.Tactic.LinearCombination
/-!
# Lemmas: node types, feet, rounds
-/
namespace Verif.Smooth
open Verif.Curvi Verif.CurviLine

section
variable {P : Type} [PointLike P]

/-- What the type of a node says. -/
def Says (g : Grid P) (n m : Nat) : NodeType → Prop
  | .internal => Inner g n m
  | .bottom => EdgeN g n m ∧ aboveN g n m = true
  | .up => EdgeN g n m ∧ aboveN g n m = false
  | .left => EdgeM g n m ∧ aboveM g n m = true
  | .right => EdgeM g n m ∧ aboveM g n m = false
  | _ => ¬ (Inner g n m ∨ EdgeN g n m ∨ EdgeM g n m)

theorem valid_of_face {g : Grid P} {n m : Nat} (h : faceValid g n m = true) :
    valid (g.node n m) = true ∧ valid (g.node n (m + 1)) = true ∧ valid (g.node (n + 1) m) = true ∧ valid (g.node (n + 1) (m + 1)) = true := by
  unfold faceValid at h
  simp only [Bool.and_eq_true] at h
  exact ⟨h.1.1.1, h.1.1.2, h.1.2, h.2⟩

theorem Inner.isValid {g : Grid P} {n m : Nat} (h : Inner g n m) : valid (g.node n m) = true := (valid_of_face h.2.2.1).1

theorem typeOf_says (g : Grid P) (hg : WF g) (face : Nat → Nat → Bool)
    (hf : ∀ n m, n + 1 < g.numN → m + 1 < g.numM → face n m = faceValid g n m) {n m : Nat} (hn : n < g.numN) (hm : m < g.numM) :
    Says g n m (typeOf g face n m) := by
  have h1 := hg.two_le_numN
  have h2 := hg.two_le_numM
  by_cases hv : valid (g.node n m) = true
  swap
  · have : typeOf g face n m = .invalid := by unfold typeOf; rw [if_pos (by simp [hv])]
    rw [this]
    rintro (h | h | h)
    · exact hv h.isValid
    · exact hv h.2.1
    · exact hv h.2.1
  unfold typeOf
  rw [if_neg (by simp [hv])]
  by_cases m0 : m = 0
  · by_cases n0 : n = 0
    · rw [if_pos ⟨m0, n0⟩]
      rintro (h | h | h)
      · have := h.1; omega
      · have := h.1; omega
      · have := h.1; omega
    rw [if_neg (fun c => n0 c.2)]
    by_cases n1 : n = g.numN - 1
    · rw [if_pos ⟨m0, n1⟩]
      rintro (h | h | h)
      · have := h.1; omega
      · have := h.1; omega
      · have := h.1; omega
    rw [if_neg (fun c => n1 c.2)]
    by_cases v1 : valid (g.node (n - 1) m) = true
    swap
    · rw [if_pos ⟨m0, by simp [v1]⟩]
      rintro (h | h | h)
      · have := h.2.1; omega
      · exact v1 h.2.2.1
      · have := h.1; omega
    rw [if_neg (by simp [v1])]
    by_cases v2 : valid (g.node (n + 1) m) = true
    swap
    · rw [if_pos ⟨m0, by simp [v2]⟩]
      rintro (h | h | h)
      · have := h.2.1; omega
      · exact v2 h.2.2.2.1
      · have := h.1; omega
    rw [if_neg (by simp [v2]), if_pos m0]
    exact ⟨⟨by omega, hv, v1, v2, Or.inl m0⟩, by simp [aboveN, m0]⟩
  rw [if_neg (fun c => m0 c.1), if_neg (fun c => m0 c.1), if_neg (fun c => m0 c.1), if_neg (fun c => m0 c.1), if_neg m0]
  by_cases m1 : m = g.numM - 1
  · by_cases n0 : n = 0
    · rw [if_pos ⟨m1, n0⟩]
      rintro (h | h | h)
      · have := h.1; omega
      · have := h.1; omega
      · have := h.1; omega
    rw [if_neg (fun c => n0 c.2)]
    by_cases n1 : n = g.numN - 1
    · rw [if_pos ⟨m1, n1⟩]
      rintro (h | h | h)
      · have := h.1; omega
      · have := h.1; omega
      · have := h.1; omega
    rw [if_neg (fun c => n1 c.2)]
    by_cases v1 : valid (g.node (n - 1) m) = true
    swap
    · rw [if_pos ⟨m1, by simp [v1]⟩]
      rintro (h | h | h)
      · have := h.2.1; omega
      · exact v1 h.2.2.1
      · have := h.1; omega
    rw [if_neg (by simp [v1])]
    by_cases v2 : valid (g.node (n + 1) m) = true
    swap
    · rw [if_pos ⟨m1, by simp [v2]⟩]
      rintro (h | h | h)
      · have := h.2.1; omega
      · exact v2 h.2.2.2.1
      · have := h.1; omega
    rw [if_neg (by simp [v2]), if_pos m1]
    refine ⟨⟨by omega, hv, v1, v2, Or.inr (Or.inl (by omega))⟩, ?_⟩
    have : ¬ (m + 1 < g.numM) := by omega
    simp [aboveN, m0, this]
  rw [if_neg (fun c => m1 c.1), if_neg (fun c => m1 c.1), if_neg (fun c => m1 c.1), if_neg (fun c => m1 c.1), if_neg m1]
  by_cases n0 : n = 0
  · by_cases v1 : valid (g.node n (m - 1)) = true
    swap
    · rw [if_pos ⟨n0, by simp [v1]⟩]
      rintro (h | h | h)
      · have := h.1; omega
      · have := h.1; omega
      · exact v1 h.2.2.1
    rw [if_neg (by simp [v1])]
    by_cases v2 : valid (g.node n (m + 1)) = true
    swap
    · rw [if_pos ⟨n0, by simp [v2]⟩]
      rintro (h | h | h)
      · have := h.1; omega
      · have := h.1; omega
      · exact v2 h.2.2.2.1
    rw [if_neg (by simp [v2]), if_pos n0]
    exact ⟨⟨by omega, hv, v1, v2, Or.inl n0⟩, by simp [aboveM, n0]⟩
  rw [if_neg (fun c => n0 c.1), if_neg (fun c => n0 c.1), if_neg n0]
  by_cases n1 : n = g.numN - 1
  · by_cases v1 : valid (g.node n (m - 1)) = true
    swap
    · rw [if_pos ⟨n1, by simp [v1]⟩]
      rintro (h | h | h)
      · have := h.1; omega
      · have := h.1; omega
      · exact v1 h.2.2.1
    rw [if_neg (by simp [v1])]
    by_cases v2 : valid (g.node n (m + 1)) = true
    swap
    · rw [if_pos ⟨n1, by simp [v2]⟩]
      rintro (h | h | h)
      · have := h.1; omega
      · have := h.1; omega
      · exact v2 h.2.2.2.1
    rw [if_neg (by simp [v2]), if_pos n1]
    refine ⟨⟨by omega, hv, v1, v2, Or.inr (Or.inl (by omega))⟩, ?_⟩
    have : ¬ (n + 1 < g.numN) := by omega
    simp [aboveM, n0, this]
  rw [if_neg (fun c => n1 c.1), if_neg (fun c => n1 c.1), if_neg n1]
  rw [hf n m (by omega) (by omega), hf (n - 1) m (by omega) (by omega), hf (n - 1) (m - 1) (by omega) (by omega),
    hf n (m - 1) (by omega) (by omega)]
  have hN : 0 < n ∧ n + 1 < g.numN := by omega
  have hM : 0 < m ∧ m + 1 < g.numM := by omega
  have vf := @valid_of_face P _ g
  have e1 : n - 1 + 1 = n := by omega
  have e2 : m - 1 + 1 = m := by omega
  have w1 := @vf n m
  have w2 := @vf (n - 1) m
  have w3 := @vf n (m - 1)
  have w4 := @vf (n - 1) (m - 1)
  rw [e1] at w2 w4
  rw [e2] at w3 w4
  have m2 : ¬ (m + 1 = g.numM) := by omega
  have n2 : ¬ (n + 1 = g.numN) := by omega
  cases c1 : faceValid g n m <;> cases c2 : faceValid g (n - 1) m <;> cases c3 : faceValid g (n - 1) (m - 1) <;>
    cases c4 : faceValid g n (m - 1) <;> rw [c1] at w1 <;> rw [c2] at w2 <;> rw [c3] at w4 <;> rw [c4] at w3 <;>
    simp [typeFromFaces, Says, Inner, EdgeN, EdgeM, aboveN, aboveM, c1, c2, c3, c4, hN, hM, m0, m1, m2, n0, n1, n2, hv] <;>
    simp_all

theorem setup_ok (g : Grid P) (hg : WF g) : ∃ g1 types, setup g = .ok (g1, types) ∧ clean g = .ok g1 ∧ SameShape g g1 ∧
    ∀ n m, n < g1.numN → m < g1.numM → Says g1 n m (types n m) := by
  obtain ⟨g1, h1, h2⟩ := clean_exact g hg
  have hg1 := h2.shape.wf hg
  obtain ⟨mask, h3, _, _, h4⟩ := computeGridFacesMask_ok g1 hg1
  refine ⟨g1, typeOf g1 mask.node, ?_, h1, h2.shape, fun n m hn hm => typeOf_says g1 hg1 _ h4 hn hm⟩
  unfold setup
  rw [h1, Res.ok_bind, h3, Res.ok_bind]

end

end Verif.Smooth
