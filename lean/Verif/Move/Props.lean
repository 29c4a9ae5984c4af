import Verif.Move.Lemmas
import Mathlib.Algebra.Order.Field.Rat
import Mathlib.Tactic.NormNum
import Mathlib.Tactic.Positivity
import Mathlib.Analysis.SpecialFunctions.Trigonometric.Basic
/-!
# C39: moving a node takes it to the target and is local
-/
namespace Verif.Move
variable {K : Type} [Field K] [LinearOrder K]

/-- What is needed of the weight: all of the displacement at the node itself, and a part of it within reach. -/
structure Weight (w : K → K) : Prop where
  zero : w 0 = 1
  bounds : ∀ r, 0 ≤ r → r ≤ 1 → 0 ≤ w r ∧ w r ≤ 1

/-- The weight of `Mesh.cpp:739`. -/
noncomputable def cosine (r : ℝ) : ℝ := 0.5 * (1 + Real.cos (Real.sqrt r * Real.pi))

/-- The weight used by the code has these properties, and vanishes at the rim. -/
theorem cosine_is_weight : Weight cosine ∧ cosine 1 = 0 := by
  refine ⟨⟨by norm_num [cosine], fun r _ _ => ?_⟩, by norm_num [cosine]⟩
  have h1 := Real.neg_one_le_cos (Real.sqrt r * Real.pi)
  have h2 := Real.cos_le_one (Real.sqrt r * Real.pi)
  unfold cosine
  constructor
  · norm_num; linarith
  · norm_num; linarith

/-- Squared distance of two positions. -/
def dist2 (a b : K × K) : K := (b.1 - a.1) * (b.1 - a.1) + (b.2 - a.2) * (b.2 - a.2)

/-- The position as a node. -/
def node (p : K × K) : Pos K := .at p.1 p.2

/-- Cartesian C39, for a proper move: the call succeeds; the node arrives at the target; every node is displaced by `t` times
the displacement of the node with `t` from 0 to 1, `t = 0` for the nodes that are further away from the node than the
target; the returned action undoes the move and redoes it. -/
theorem move_is_local [IsStrictOrderedRing K] {w : K → K} (hw : Weight w) (ps : List (K × K)) {i : Nat} {old new : K × K}
    (hi : ps[i]? = some old) (hne : new ≠ old) :
    ∃ s s' ns, moveNode w cartesian (ps.map node) (node new) i = .ok (s, ns) ∧
      ns[i]? = some (node new) ∧ ns.length = ps.length ∧
      (∀ (j : Nat) p, ps[j]? = some p → ∃ t, 0 ≤ t ∧ t ≤ 1 ∧
        ns[j]? = some (node (p.1 + t * (new.1 - old.1), p.2 + t * (new.2 - old.2))) ∧
        (dist2 p old > dist2 new old → t = 0)) ∧
      swap s ns = .ok (s', ps.map node) ∧ swap s' (ps.map node) = .ok (s, ns) := by
  have hil : i < ps.length := by
    rw [List.getElem?_eq_some_iff] at hi; exact hi.1
  have hval : val (ps.map node) i = node old := by
    simp [val, List.getElem?_map, hi]
  obtain ⟨s, s', ns, h1, h2, h3, h4⟩ := moveNode_spec w cartesian (ps.map node) (node new) (i := i) (by simpa using hil)
  rw [hval] at h2
  simp only [node, cartesian] at h2
  have hD : sq (new.1 - old.1, new.2 - old.2) ≠ 0 := by
    intro h0
    simp only [sq] at h0
    apply hne
    have hx := mul_self_nonneg (new.1 - old.1)
    have hy := mul_self_nonneg (new.2 - old.2)
    have e1 : new.1 - old.1 = 0 := mul_self_eq_zero.1 (by linarith)
    have e2 : new.2 - old.2 = 0 := mul_self_eq_zero.1 (by linarith)
    exact Prod.ext (by linarith) (by linarith)
  have hDnn : ∀ v : K × K, 0 ≤ sq v := fun v => add_nonneg (mul_self_nonneg _) (mul_self_nonneg _)
  have hDpos : 0 < sq (new.1 - old.1, new.2 - old.2) := lt_of_le_of_ne (hDnn _) (Ne.symm hD)
  have key : ∀ (j : Nat) p, ps[j]? = some p → ns[j]? = some (
      if sq (old.1 - p.1, old.2 - p.2) ≤ sq (new.1 - old.1, new.2 - old.2) then
        node (p.1 + (new.1 - old.1) * w (sq (old.1 - p.1, old.2 - p.2) / sq (new.1 - old.1, new.2 - old.2)),
          p.2 + (new.2 - old.2) * w (sq (old.1 - p.1, old.2 - p.2) / sq (new.1 - old.1, new.2 - old.2)))
      else node p) := by
    intro j p hp
    rw [h2]
    simp only [List.getElem?_map, hp, Option.map_some]
    congr 1
    show moved w cartesian (.at old.1 old.2) (new.1 - old.1, new.2 - old.2) (.at p.1 p.2) = _
    simp only [moved, displacement, cartesian]
    by_cases hc : sq (old.1 - p.1, old.2 - p.2) ≤ sq (new.1 - old.1, new.2 - old.2)
    · rw [if_pos hc, if_pos hc]
      simp only [factor, if_neg hD, scale, Pos.shift, node]
    · rw [if_neg hc, if_neg hc]; rfl
  refine ⟨s, s', ns, h1, ?_, ?_, ?_, h3, h4⟩
  · rw [key i old hi]
    have e0 : sq (old.1 - old.1, old.2 - old.2) = 0 := by simp [sq]
    rw [e0, if_pos (hDnn _), zero_div, hw.zero]
    simp [node]
  · rw [h2]; simp
  · intro j p hp
    by_cases hc : sq (old.1 - p.1, old.2 - p.2) ≤ sq (new.1 - old.1, new.2 - old.2)
    · obtain ⟨b1, b2⟩ := hw.bounds (sq (old.1 - p.1, old.2 - p.2) / sq (new.1 - old.1, new.2 - old.2))
        (div_nonneg (hDnn _) (hDnn _)) ((div_le_one hDpos).2 hc)
      refine ⟨_, b1, b2, ?_, ?_⟩
      · rw [key j p hp, if_pos hc]
        simp only [mul_comm]
      · intro hgt
        exfalso
        unfold dist2 at hgt
        simp only [sq] at hc
        have e : (old.1 - new.1) * (old.1 - new.1) + (old.2 - new.2) * (old.2 - new.2) =
          (new.1 - old.1) * (new.1 - old.1) + (new.2 - old.2) * (new.2 - old.2) := by ring
        rw [e] at hgt
        exact absurd hc (not_le.2 hgt)
    · refine ⟨0, le_refl 0, zero_le_one, ?_, fun _ => rfl⟩
      rw [key j p hp, if_neg hc]
      simp

example : ([(0, 0), (1, 0), (5, 5)] : List (ℚ × ℚ))[0]? = some (0, 0) ∧ ((2, 0) : ℚ × ℚ) ≠ (0, 0) ∧
    Weight (fun r : ℚ => 1 - r) := by
  refine ⟨rfl, by decide, by norm_num, fun r h0 h1 => ⟨by linarith, by linarith⟩⟩

/-- The call throws exactly when there is no such node. -/
theorem move_throws_iff (w : K → K) (delta : Pos K → Pos K → Option (K × K)) (ns : List (Pos K)) (new : Pos K) (i : Nat) :
    moveNode w delta ns new i = .throw ↔ ns.length ≤ i := by
  constructor
  · intro h
    by_contra hc
    obtain ⟨s, s', ns1, h1, _⟩ := moveNode_spec w delta ns new (i := i) (by omega)
    rw [h1] at h; cases h
  · intro h
    unfold moveNode
    rw [if_pos h]

example : ([.at 0 0] : List (Pos ℚ)).length ≤ 1 := by decide

/-- Negation of C39 for the null move: moving a node to where it is makes its coordinates, and those of all nodes at
that position, not a number. -/
theorem null_move_destroys_node [IsStrictOrderedRing K] (w : K → K) (ps : List (K × K)) {i : Nat} {old : K × K} (hi : ps[i]? = some old) :
    ∃ s ns, moveNode w cartesian (ps.map node) (node old) i = .ok (s, ns) ∧
      ∀ (j : Nat), ps[j]? = some old → ns[j]? = some .nan := by
  have hil : i < ps.length := by
    rw [List.getElem?_eq_some_iff] at hi; exact hi.1
  have hval : val (ps.map node) i = node old := by
    simp [val, List.getElem?_map, hi]
  obtain ⟨s, s', ns, h1, h2, _⟩ := moveNode_spec w cartesian (ps.map node) (node old) (i := i) (by simpa using hil)
  rw [hval] at h2
  simp only [node, cartesian] at h2
  refine ⟨s, ns, h1, ?_⟩
  intro j hj
  rw [h2]
  simp only [List.getElem?_map, hj, Option.map_some]
  congr 1
  show moved w cartesian (.at old.1 old.2) (old.1 - old.1, old.2 - old.2) (.at old.1 old.2) = _
  simp [moved, displacement, cartesian, sq, factor, scale, Pos.shift]

example : ([(0, 0), (1, 0)] : List (ℚ × ℚ))[1]? = some (1, 0) := rfl

/-- Negation of C39 for spherical coordinates: the displacement is computed in metres and added to degrees.  A node
moved to another latitude does not arrive there; its latitude becomes the old one plus `r` (radius of the Earth times
degrees to radians, about 111 195) times the difference. -/
theorem spherical_move_misses_target [IsStrictOrderedRing K] {w : K → K} (hw : Weight w) {r : K} (cosPhi : K → K → K)
    (ps : List (K × K)) {i : Nat} {old new : K × K} (hi : ps[i]? = some old) (hne : new.2 ≠ old.2) (hr : r ≠ 0) (hr1 : r ≠ 1) :
    ∃ s ns x, moveNode w (spherical r cosPhi) (ps.map node) (node new) i = .ok (s, ns) ∧
      ns[i]? = some (node (x, old.2 + r * (new.2 - old.2))) ∧ ns[i]? ≠ some (node new) := by
  have hil : i < ps.length := by
    rw [List.getElem?_eq_some_iff] at hi; exact hi.1
  have hval : val (ps.map node) i = node old := by
    simp [val, List.getElem?_map, hi]
  obtain ⟨s, s', ns, h1, h2, _⟩ := moveNode_spec w (spherical r cosPhi) (ps.map node) (node new) (i := i) (by simpa using hil)
  rw [hval] at h2
  simp only [node, spherical] at h2
  have hd : new.2 - old.2 ≠ 0 := sub_ne_zero.2 hne
  have hD : sq (r * cosPhi old.2 new.2 * (new.1 - old.1), r * (new.2 - old.2)) ≠ 0 := by
    intro h0
    simp only [sq] at h0
    have hx := mul_self_nonneg (r * cosPhi old.2 new.2 * (new.1 - old.1))
    have hy := mul_self_nonneg (r * (new.2 - old.2))
    have e2 : r * (new.2 - old.2) = 0 := mul_self_eq_zero.1 (by linarith)
    rcases mul_eq_zero.1 e2 with h | h
    · exact hr h
    · exact hd h
  have hat : ns[i]? = some (node (old.1 + r * cosPhi old.2 new.2 * (new.1 - old.1), old.2 + r * (new.2 - old.2))) := by
    rw [h2]
    simp only [List.getElem?_map, hi, Option.map_some]
    congr 1
    show moved w (spherical r cosPhi) (.at old.1 old.2) (r * cosPhi old.2 new.2 * (new.1 - old.1), r * (new.2 - old.2)) (.at old.1 old.2) = _
    simp only [moved, displacement, spherical]
    have e0 : sq (r * cosPhi old.2 old.2 * (old.1 - old.1), r * (old.2 - old.2)) = 0 := by simp [sq]
    have hnn : 0 ≤ sq (r * cosPhi old.2 new.2 * (new.1 - old.1), r * (new.2 - old.2)) :=
      add_nonneg (mul_self_nonneg _) (mul_self_nonneg _)
    rw [e0, if_pos hnn]
    simp only [factor, if_neg hD, zero_div, hw.zero, scale, Pos.shift, mul_one, node]
  refine ⟨s, ns, _, h1, hat, ?_⟩
  rw [hat]
  intro h
  simp only [Option.some.injEq, node, Pos.at.injEq] at h
  have h3 : (r - 1) * (new.2 - old.2) = 0 := by linarith [h.2]
  rcases mul_eq_zero.1 h3 with h4 | h4
  · exact hr1 (by linarith)
  · exact hd h4

example : ([(0, 50)] : List (ℚ × ℚ))[0]? = some (0, 50) ∧ ((0, 51) : ℚ × ℚ).2 ≠ ((0, 50) : ℚ × ℚ).2 ∧ (111195 : ℚ) ≠ 0 ∧
    (111195 : ℚ) ≠ 1 ∧ Weight (fun r : ℚ => 1 - r) := by
  refine ⟨rfl, by decide, by decide, by decide, by norm_num, fun r h0 h1 => ⟨by linarith, by linarith⟩⟩

/-- Negation of C39: deleted nodes (both coordinates -999) within reach are moved, too, and come back as nodes of the
mesh. -/
theorem move_revives_deleted_node : ∃ s ns,
    moveNode (fun r : ℚ => 1 - r) cartesian [.at (-1000) (-999), .at (-999) (-999)] (.at (-1000) (-989)) 0 = .ok (s, ns) ∧
    ns[1]? = some (.at (-999) (-9891 / 10)) := by
  refine ⟨[(0, .at (-1000) (-999)), (1, .at (-999) (-999))], [.at (-1000) (-989), .at (-999) (-9891 / 10)], ?_, ?_⟩ <;>
    decide +kernel

end Verif.Move
