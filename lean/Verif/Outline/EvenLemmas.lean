import Verif.Outline.Spec
import Mathlib.Combinatorics.Enumerative.DoubleCounting
import Mathlib.Algebra.BigOperators.Ring.Nat
/-!
# An even number of boundary edges meets in every node
-/
namespace Verif.Outline
open Verif.Mesh Verif.Faces

/-- The edge ends at the node. -/
def endsAt (edges : List Edge) (n e : Nat) : Bool :=
  match edges[e]? with
  | some p => decide (p.1 = n) || decide (p.2 = n)
  | none => false

theorem endsAt_iff {edges : List Edge} {n e : Nat} {p : Edge} (h : edges[e]? = some p) : endsAt edges n e = true ↔ p.1 = n ∨ p.2 = n := by
  simp [endsAt, h]

theorem endsAt_joins {edges : List Edge} {n e a b : Nat} {p : Edge} (h : edges[e]? = some p) (hj : Joins p a b) :
    endsAt edges n e = true ↔ a = n ∨ b = n := by
  rw [endsAt_iff h]
  rcases hj with rfl | rfl
  · rfl
  · exact Or.comm

/-- Of the sides of a polygon, none or two end at a node. -/
theorem sides_at {edges : List Edge} {ns es : List Nat} (h : Proper edges ns es) (n : Nat) :
    Even (es.toFinset.filter fun e => endsAt edges n e = true).card := by
  have h3 := h.atLeast
  by_cases hn : n ∈ ns
  · obtain ⟨j, hj, hjn⟩ := List.mem_iff_getElem.1 hn
    obtain ⟨j', hj', hjj⟩ : ∃ j', j' < ns.length ∧ (j' + 1) % ns.length = j := by
      rcases Nat.eq_zero_or_pos j with h0 | h0
      · exact ⟨ns.length - 1, by omega, by rw [show ns.length - 1 + 1 = ns.length by omega, Nat.mod_self, h0]⟩
      · exact ⟨j - 1, by omega, by rw [show j - 1 + 1 = j by omega, Nat.mod_eq_of_lt hj]⟩
    have hne : j ≠ j' := by
      rintro rfl
      rcases Nat.lt_or_ge (j + 1) ns.length with h0 | h0
      · rw [Nat.mod_eq_of_lt h0] at hjj; omega
      · have : j + 1 = ns.length := by omega
        rw [this, Nat.mod_self] at hjj; omega
    have huniq : ∀ i, i < ns.length → (i + 1) % ns.length = j → i = j' := by
      intro i hi hij
      have m1 : (i + 1 < ns.length ∧ (i + 1) % ns.length = i + 1) ∨ (i + 1 = ns.length ∧ (i + 1) % ns.length = 0) := by
        rcases Nat.lt_or_ge (i + 1) ns.length with h0 | h0
        · exact Or.inl ⟨h0, Nat.mod_eq_of_lt h0⟩
        · exact Or.inr ⟨by omega, by rw [show i + 1 = ns.length by omega, Nat.mod_self]⟩
      have m2 : (j' + 1 < ns.length ∧ (j' + 1) % ns.length = j' + 1) ∨ (j' + 1 = ns.length ∧ (j' + 1) % ns.length = 0) := by
        rcases Nat.lt_or_ge (j' + 1) ns.length with h0 | h0
        · exact Or.inl ⟨h0, Nat.mod_eq_of_lt h0⟩
        · exact Or.inr ⟨by omega, by rw [show j' + 1 = ns.length by omega, Nat.mod_self]⟩
      omega
    have hes : j < es.length := by rw [h.len]; exact hj
    have hes' : j' < es.length := by rw [h.len]; exact hj'
    have key : ∀ i (hi : i < es.length), endsAt edges n es[i] = true ↔ i = j ∨ i = j' := by
      intro i hi
      have hi' : i < ns.length := by rw [← h.len]; exact hi
      obtain ⟨a, b, e, p, s1, s2, s3, s4, s5⟩ := h.sides i hi'
      rw [List.getElem?_eq_getElem hi] at s3
      obtain rfl := Option.some.inj s3
      rw [endsAt_joins s4 s5]
      have e1 : a = n ↔ i = j := by
        rw [← h.nodesDistinct.getElem_inj_iff (hi := hi') (hj := hj), hjn]
        rw [List.getElem?_eq_getElem hi'] at s1
        rw [Option.some.inj s1]
      have hm : (i + 1) % ns.length < ns.length := Nat.mod_lt _ (by omega)
      have e2 : b = n ↔ (i + 1) % ns.length = j := by
        rw [← h.nodesDistinct.getElem_inj_iff (hi := hm) (hj := hj), hjn]
        rw [List.getElem?_eq_getElem hm] at s2
        rw [Option.some.inj s2]
      rw [e1, e2]
      constructor
      · rintro (h1 | h1)
        · exact Or.inl h1
        · exact Or.inr (huniq i hi' h1)
      · rintro (h1 | h1)
        · exact Or.inl h1
        · exact Or.inr (by rw [h1]; exact hjj)
    have : (es.toFinset.filter fun e => endsAt edges n e = true) = {es[j], es[j']} := by
      ext e
      simp only [Finset.mem_filter, List.mem_toFinset, Finset.mem_insert, Finset.mem_singleton]
      constructor
      · rintro ⟨h1, h2⟩
        obtain ⟨i, hi, rfl⟩ := List.mem_iff_getElem.1 h1
        rcases (key i hi).1 h2 with rfl | rfl
        · exact Or.inl rfl
        · exact Or.inr rfl
      · rintro (rfl | rfl)
        · exact ⟨List.getElem_mem _, (key j hes).2 (Or.inl rfl)⟩
        · exact ⟨List.getElem_mem _, (key j' hes').2 (Or.inr rfl)⟩
    rw [this, Finset.card_pair]
    · exact ⟨1, rfl⟩
    · intro h0
      exact hne ((h.edgesDistinct.getElem_inj_iff (hi := hes) (hj := hes')).1 h0)
  · have : (es.toFinset.filter fun e => endsAt edges n e = true) = ∅ := by
      rw [Finset.filter_eq_empty_iff]
      intro e he h0
      obtain ⟨i, hi, rfl⟩ := List.mem_iff_getElem.1 (List.mem_toFinset.1 he)
      have hi' : i < ns.length := by rw [← h.len]; exact hi
      obtain ⟨a, b, e, p, s1, s2, s3, s4, s5⟩ := h.sides i hi'
      rw [List.getElem?_eq_getElem hi] at s3
      obtain rfl := Option.some.inj s3
      rcases (endsAt_joins s4 s5).1 h0 with rfl | rfl
      · exact hn (List.mem_of_getElem? s1)
      · exact hn (List.mem_of_getElem? s2)
    rw [this, Finset.card_empty]
    exact ⟨0, rfl⟩

variable {edges : List Edge} {cw : List Nat → Bool} {s : State}

/-- An edge is on the boundary when it has been counted once. -/
theorem onBoundary_iff (h : Consistent edges cw s) {e : Nat} : s.numFaces[e]? = some 1 ↔ OnBoundary s e := by
  constructor
  · intro h1
    have he : e < edges.length := by rw [← h.numFaces]; exact (List.getElem?_eq_some_iff.1 h1).1
    obtain ⟨c, p, l, q1, q2, q3, q4, q5⟩ := h.faces e he
    rw [h1] at q1
    obtain rfl := Option.some.inj q1
    cases q3 with
    | one f => exact ⟨f, (q5 f).1 (by simp), fun g hg => by simpa using (q5 g).2 hg⟩
  · rintro ⟨f, hf, hu⟩
    have he : e < edges.length := by
      obtain ⟨es, h1, h2⟩ := hf
      have hlt := (List.getElem?_eq_some_iff.1 h1).1
      obtain ⟨hp, _⟩ := h.proper f _ es (List.getElem?_eq_getElem (by rw [h.lengths]; exact hlt)) h1
      obtain ⟨i, hi, rfl⟩ := List.mem_iff_getElem.1 h2
      obtain ⟨a, b, e, p, s1, s2, s3, s4, s5⟩ := hp.sides i (by rw [← hp.len]; exact hi)
      rw [List.getElem?_eq_getElem hi] at s3
      rw [Option.some.inj s3]
      exact (List.getElem?_eq_some_iff.1 s4).1
    obtain ⟨c, p, l, q1, q2, q3, q4, q5⟩ := h.faces e he
    rw [q1]
    cases q3 with
    | none => exact absurd ((q5 f).2 hf) (by simp)
    | one g => rfl
    | two g g' =>
      have e1 := hu g ((q5 g).1 (by simp))
      have e2 := hu g' ((q5 g').1 (by simp))
      simp [e1, e2] at q4

/-- **Parity.** Every node has an even number of boundary edges. -/
theorem even_boundary (h : Consistent edges cw s) (n : Nat) :
    Even ((Finset.range edges.length).filter fun e => endsAt edges n e = true ∧ s.numFaces[e]? = some 1).card := by
  classical
  have hd := Finset.sum_card_bipartiteAbove_eq_sum_card_bipartiteBelow (s := (Finset.range edges.length).filter fun e => endsAt edges n e = true)
    (t := Finset.range s.facesEdges.length) (fun e f => Borders s f e)
  have hr : Even (∑ f ∈ Finset.range s.facesEdges.length,
      (Finset.bipartiteBelow (fun e f => Borders s f e) ((Finset.range edges.length).filter fun e => endsAt edges n e = true) f).card) := by
    refine Finset.even_sum _ ?_
    intro f hf
    have hf' := Finset.mem_range.1 hf
    have g1 : s.facesEdges[f]? = some s.facesEdges[f] := List.getElem?_eq_getElem hf'
    have g2 : s.facesNodes[f]? = some (s.facesNodes[f]'(by rw [h.lengths]; exact hf')) := List.getElem?_eq_getElem _
    obtain ⟨hp, _⟩ := h.proper f _ _ g2 g1
    have := sides_at hp n
    refine (congrArg (fun A : Finset Nat => Even A.card) ?_).mpr this
    ext e
    simp only [Finset.bipartiteBelow, Finset.mem_filter, Finset.mem_range, List.mem_toFinset]
    constructor
    · rintro ⟨⟨_, h2⟩, es, h3, h4⟩
      rw [g1] at h3
      obtain rfl := Option.some.inj h3
      exact ⟨h4, h2⟩
    · rintro ⟨h1, h2⟩
      refine ⟨⟨?_, h2⟩, _, g1, h1⟩
      unfold endsAt at h2
      split at h2
      · rename_i h3; exact (List.getElem?_eq_some_iff.1 h3).1
      · cases h2
  rw [← hd, Finset.even_sum_iff_even_card_odd] at hr
  convert hr using 2
  ext e
  simp only [Finset.mem_filter, Finset.mem_range]
  rw [and_assoc]
  refine and_congr_right fun he => and_congr_right fun _ => ?_
  obtain ⟨c, p, l, q1, q2, q3, q4, q5⟩ := h.faces e he
  have hc : (Finset.bipartiteAbove (fun e f => Borders s f e) (Finset.range s.facesEdges.length) e).card = l.length := by
    rw [← List.toFinset_card_of_nodup q4]
    congr 1
    ext f
    simp only [Finset.bipartiteAbove, Finset.mem_filter, Finset.mem_range, List.mem_toFinset, q5]
    constructor
    · exact fun h => h.2
    · rintro ⟨es, h1, h2⟩
      exact ⟨(List.getElem?_eq_some_iff.1 h1).1, es, h1, h2⟩
  rw [hc, q1]
  cases q3 with
  | none => exact ⟨fun h => by simp at h, fun h => by simp at h⟩
  | one g => exact ⟨fun _ => ⟨0, rfl⟩, fun _ => rfl⟩
  | two g g' => exact ⟨fun h => by simp at h, fun ⟨k, hk⟩ => by simp at hk⟩

end Verif.Outline
