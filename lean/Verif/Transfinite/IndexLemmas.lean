import Verif.Transfinite.Spec
import Mathlib.Tactic.Linarith
/-!
# Lemmas: node numbers
-/
namespace Verif.Transfinite
open Verif.Curvi Verif.CurviLine

variable {K : Type} [Field K] [LinearOrder K]

theorem wrap_of {z : Int} (h0 : 0 ≤ z) (h1 : z < 4294967296) : (wrap z : Int) = z := by
  unfold wrap; omega

theorem wrap_nat {z : Int} {k : Nat} (h : z = k) (h1 : k < 4294967296) : wrap z = k := by
  unfold wrap; omega

theorem steps_lt {num a b : Nat} (h : 0 < num) : steps num a b < num := by
  unfold steps
  have := Int.emod_lt_of_pos ((b : Int) - a) (show (0 : Int) < num by omega)
  have := Int.emod_nonneg ((b : Int) - a) (show (num : Int) ≠ 0 by omega)
  omega

theorem steps_of {num a b : Nat} (ha : a < num) (hb : b < num) :
    steps num a b = if a > b then b + num - a else b - a := by
  unfold steps
  split
  · rw [← Int.add_emod_right, Int.emod_eq_of_lt (by omega) (by omega)]; omega
  · rw [Int.emod_eq_of_lt (by omega) (by omega)]; omega

theorem ahead_eq {num a b : Nat} (hn : num < 2 ^ 30) (ha : a < num) (hb : b < num) : ahead num a b = steps num a b := by
  rw [steps_of ha hb]
  unfold ahead
  split
  · exact wrap_nat (by omega) (by omega)
  · rfl

theorem forwards_iff {num a b : Nat} (hn : num < 2 ^ 30) (ha : a < num) (hb : b < num) :
    forwards num a b = true ↔ way num a b = 1 := by
  unfold forwards way
  rw [ahead_eq hn ha hb, ahead_eq hn hb ha]
  split <;> simp_all

theorem way_cases (num a b : Nat) : way num a b = 1 ∨ way num a b = -1 := by unfold way; split <;> simp

theorem way_of_forwards {num a b : Nat} (hn : num < 2 ^ 30) (ha : a < num) (hb : b < num) :
    way num a b = if forwards num a b then 1 else -1 := by
  rcases way_cases num a b with h | h
  · rw [if_pos ((forwards_iff hn ha hb).2 h), h]
  · rw [if_neg, h]
    rw [forwards_iff hn ha hb, h]; decide

theorem stepsM_eq {num a b : Nat} (hn : num < 2 ^ 30) (ha : a < num) (hb : b < num) :
    stepsM num a b = cellsP num a b := by
  unfold stepsM cellsP forwards
  rw [ahead_eq hn ha hb, ahead_eq hn hb ha]
  split <;> simp_all <;> omega

theorem stepsN_eq {num a b c : Nat} (hn : num < 2 ^ 30) (ha : a < num) (hb : b < num) (hc : c < num) :
    stepsN num a b c = cellsQ num a b c := by
  unfold stepsN cellsQ
  rw [ahead_eq hn hb hc, ahead_eq hn hc hb]
  simp only [forwards_iff hn ha hb]

theorem cellsP_lt {num a b : Nat} (h : 0 < num) : cellsP num a b < num := by
  have := steps_lt (num := num) (a := a) (b := b) h
  unfold cellsP; omega

theorem cellsQ_lt {num a b c : Nat} (h : 0 < num) : cellsQ num a b c < num := by
  have := steps_lt (num := num) (a := b) (b := c) h
  have := steps_lt (num := num) (a := c) (b := b) h
  unfold cellsQ; split <;> omega

theorem steps_pos {num a b : Nat} (ha : a < num) (hb : b < num) (h : a ≠ b) : 0 < steps num a b := by
  rw [steps_of ha hb]; split <;> omega

theorem cellsP_pos {num a b : Nat} (ha : a < num) (hb : b < num) (h : a ≠ b) : 0 < cellsP num a b := by
  have := steps_pos ha hb h
  have := steps_pos hb ha (Ne.symm h)
  unfold cellsP; omega

theorem cellsQ_pos {num a b c : Nat} (hb : b < num) (hc : c < num) (h : b ≠ c) : 0 < cellsQ num a b c := by
  have := steps_pos hb hc h
  have := steps_pos hc hb (Ne.symm h)
  unfold cellsQ; split <;> omega

/-- Going the short way from `a` leads to `b`. -/
theorem reach_b {num a b : Nat} (ha : a < num) (hb : b < num) :
    ((a : Int) + way num a b * cellsP num a b) % num = b := by
  have h1 := steps_of ha hb
  have h2 := steps_of hb ha
  unfold way cellsP
  split
  · rw [Nat.min_eq_left (by omega), h1]
    split
    · rw [← Int.sub_emod_right, Int.emod_eq_of_lt (by omega) (by omega)]; omega
    · rw [Int.emod_eq_of_lt (by omega) (by omega)]; omega
  · rw [Nat.min_eq_right (by omega), h2]
    split
    · rw [← Int.add_emod_right, Int.emod_eq_of_lt (by omega) (by omega)]; omega
    · rw [Int.emod_eq_of_lt (by omega) (by omega)]; omega

/-- Going on from `b` leads to `c`. -/
theorem reach_c {num a b c : Nat} (hb : b < num) (hc : c < num) :
    ((b : Int) + way num a b * cellsQ num a b c) % num = c := by
  have h1 := steps_of hb hc
  have h2 := steps_of hc hb
  rcases way_cases num a b with h | h
  · rw [h]; unfold cellsQ; rw [if_pos h, h1]
    split
    · rw [← Int.sub_emod_right, Int.emod_eq_of_lt (by omega) (by omega)]; omega
    · rw [Int.emod_eq_of_lt (by omega) (by omega)]; omega
  · rw [h]; unfold cellsQ; rw [if_neg (by omega), h2]
    split
    · rw [← Int.add_emod_right, Int.emod_eq_of_lt (by omega) (by omega)]; omega
    · rw [Int.emod_eq_of_lt (by omega) (by omega)]; omega

/-- The fourth node is right unless counting back passes below zero. -/
theorem fourthNode_of {num a b c : Nat} (hn : num < 2 ^ 30) (ha : a < num) (hb : b < num) (hc : c < num) :
    (way num a b = 1 ∨ cellsP num a b ≤ c →
      fourthNode num a b c < num ∧
        (fourthNode num a b c : Int) = ((c : Int) + way num a b * cellsP num a b) % num) ∧
    (way num a b = -1 ∧ c < cellsP num a b → num < fourthNode num a b c) := by
  have hp := cellsP_lt (a := a) (b := b) (show 0 < num by omega)
  unfold fourthNode
  rw [stepsM_eq hn ha hb]
  rcases way_cases num a b with h | h
  · rw [if_pos ((forwards_iff hn ha hb).2 h), wrap_nat (k := c + cellsP num a b) (by omega) (by omega), h]
    refine ⟨fun _ => ?_, fun hh => by omega⟩
    simp only
    split
    · rw [← Int.sub_emod_right, Int.emod_eq_of_lt (by omega) (by omega)]; omega
    · rw [Int.emod_eq_of_lt (by omega) (by omega)]; omega
  · have hf : ¬ forwards num a b = true := by rw [forwards_iff hn ha hb]; omega
    rw [if_neg hf, h]
    refine ⟨fun hh => ?_, fun hh => ?_⟩
    · have hle : cellsP num a b ≤ c := by omega
      rw [wrap_nat (k := c - cellsP num a b) (by omega) (by omega)]
      simp only
      rw [if_neg (by omega), Int.emod_eq_of_lt (by omega) (by omega)]
      omega
    · have : wrap ((c : Int) - cellsP num a b) = c + 4294967296 - cellsP num a b := by
        unfold wrap; omega
      rw [this]
      simp only
      split <;> omega

theorem required_eq {num a b c : Nat} (hn : num < 2 ^ 30) (ha : a < num) (hb : b < num) (hc : c < num)
    (useFourth : Bool) :
    required num a b c useFourth =
      if useFourth then 2 * cellsP num a b + 2 * cellsQ num a b c else 1 + 2 * cellsP num a b + cellsQ num a b c := by
  have h1 := cellsP_lt (a := a) (b := b) (show 0 < num by omega)
  have h2 := cellsQ_lt (a := a) (b := b) (c := c) (show 0 < num by omega)
  unfold required
  rw [stepsM_eq hn ha hb, stepsN_eq hn ha hb hc]
  split <;> exact wrap_nat (by omega) (by omega)

/-! ## Walking round the polygon -/

theorem next_le {num : Nat} (hn : num < 2 ^ 30) (h0 : 0 < num) (up : Bool) {i : Nat} (hi : i ≤ num) :
    next num up i ≤ num ∧ ∃ k : Int, (next num up i : Int) = i + (if up then 1 else -1) + num * k := by
  unfold next
  cases up
  · simp only [Bool.false_eq_true, if_false]
    split
    · rename_i h
      rw [wrap_nat (k := num - 1) (by omega) (by omega)]
      exact ⟨by omega, 1, by omega⟩
    · rw [wrap_nat (z := (i : Int) - 1) (k := i - 1) (by omega) (by omega)]
      rw [if_neg (by omega)]
      exact ⟨by omega, 0, by omega⟩
  · simp only [if_true]
    rw [wrap_nat (z := (i : Int) + 1) (k := i + 1) (by omega) (by omega)]
    split
    · rw [wrap_nat (k := i + 1 - num) (by omega) (by omega)]
      exact ⟨by omega, -1, by omega⟩
    · exact ⟨by omega, 0, by omega⟩

theorem Closed.last {nodes : List (Pt K)} (h : Closed nodes) : pt nodes (count nodes) = pt nodes 0 := by
  have h1 := h.size
  have h2 := h.closed
  unfold pt count
  rw [List.head?_eq_getElem?, List.getLast?_eq_getElem?] at h2
  rw [List.getD_eq_getElem?_getD, List.getD_eq_getElem?_getD, h2]

theorem node_of_le {nodes : List (Pt K)} (h : Closed nodes) {i : Nat} (hi : i ≤ count nodes) :
    pt nodes i = node nodes i := by
  have h1 := h.size
  unfold node
  by_cases hc : i = count nodes
  · rw [hc, h.last]; simp
  · rw [Int.emod_eq_of_lt (by omega) (by omega)]; simp

theorem node_congr {nodes : List (Pt K)} {i j : Int} (h : ∃ k : Int, i = j + (count nodes : Int) * k) :
    node nodes i = node nodes j := by
  obtain ⟨k, rfl⟩ := h
  unfold node
  rw [Int.add_mul_emod_self_left]

theorem node_emod (nodes : List (Pt K)) (i : Int) : node nodes (i % (count nodes : Int)) = node nodes i := by
  unfold node; rw [Int.emod_emod]

theorem node_of_emod {nodes : List (Pt K)} {i j : Int} (h : i % (count nodes : Int) = j % (count nodes : Int)) :
    node nodes i = node nodes j := by
  unfold node; rw [h]

theorem vget_pt {nodes : List (Pt K)} {i : Nat} (hi : i < nodes.length) : vget nodes i = .ok (pt nodes i) := by
  rw [vget_ok hi]; unfold pt; rw [List.getD_eq_getElem?_getD, List.getElem?_eq_getElem hi]; rfl

theorem walk_eq {nodes : List (Pt K)} (h : Closed nodes) (up : Bool) :
    ∀ (k i : Nat), i ≤ count nodes →
      walk nodes (count nodes) up i k =
        .ok ((List.range k).map fun j : Nat => node nodes ((i : Int) + (if up then 1 else -1) * j)) := by
  have h1 := h.size
  have h2 := h.fits
  intro k
  induction k with
  | zero => intro i _; rfl
  | succ k ih =>
    intro i hi
    have hc : count nodes = nodes.length - 1 := rfl
    obtain ⟨hle, z, hz⟩ := next_le (num := count nodes) (by omega) (by omega) up hi
    rw [walk, vget_pt (by omega), Res.ok_bind, ih _ hle, Res.ok_bind, List.range_succ_eq_map, List.map_cons, List.map_map,
      node_of_le h hi]
    congr 1
    congr 1
    · simp
    · apply List.map_congr_left
      intro j _
      apply node_congr
      refine ⟨z, ?_⟩
      rw [hz]
      simp only [Nat.cast_succ]
      cases up <;> simp <;> omega

omit [Field K] [LinearOrder K] in
theorem walk_ub {nodes : List (Pt K)} {num : Nat} {up : Bool} {i k : Nat} (hi : nodes.length ≤ i) :
    walk nodes num up i (k + 1) = .ub := by
  rw [walk]
  have : vget nodes i = .ub := by unfold vget; rw [List.getElem?_eq_none hi]
  rw [this]; rfl

omit [Field K] [LinearOrder K] in
theorem walkTri_eq_walk {nodes : List (Pt K)} (h : Closed nodes) (up : Bool) :
    ∀ (k i : Nat), i ≤ count nodes →
      walkTri nodes (count nodes) up i k = walk nodes (count nodes) up i k := by
  have h1 := h.size
  have h2 := h.fits
  have hc : count nodes = nodes.length - 1 := rfl
  intro k
  induction k with
  | zero => intro i _; rfl
  | succ k ih =>
    intro i hi
    obtain ⟨hle, z, hz⟩ := next_le (num := count nodes) (by omega) (by omega) up hi
    have hn : nextTri (count nodes) up i = next (count nodes) up i := by
      unfold nextTri next
      cases up
      · simp only [Bool.false_eq_true, if_false]
        split
        · rfl
        · rw [if_neg (by omega), wrap_nat (z := (i : Int) - 1) (k := i - 1) (by omega) (by omega), if_neg (by omega)]
      · rfl
    rw [walk, walkTri, hn, ih _ hle]

end Verif.Transfinite
