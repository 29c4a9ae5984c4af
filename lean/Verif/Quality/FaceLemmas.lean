import Verif.Quality.Lemmas
import Mathlib.Tactic.IntervalCases
/-!
# Lemmas: triangular faces
-/
namespace Verif.Quality
open Verif.Mesh Verif.Faces
open Verif.Polygons (Pt area2 shoelace minArea)

theorem shoelace_three (p q r : Pt) : shoelace [p, q, r] = area2 p q r / 2 := by
  unfold shoelace area2
  simp [Polygons.sides, Polygons.ringOf]
  ring

theorem not_obtuse_three {m : Mesh Pt} {s : State} {f : Nat} {p q r : Pt} (hc : corners m s f = [p, q, r]) (h : ¬ ObtuseFace m s f) : ¬ Obtuse p q r :=
  fun ho => h ⟨p, q, r, hc, ho⟩

/-- A triangle with a neighbour, all of whose angles are at most right, has its circumcentre as its centre. -/
theorem centreOf_triangle {other : List Pt → List Nat → Pt} {m : Mesh Pt} {s : State} {f e : Nat} (hf : Borders s f e)
    (h2 : s.numFaces[e]? = some 2) {p q r : Pt} (hc : corners m s f = [p, q, r]) : centreOf other m s f = triangleCentre p q r := by
  obtain ⟨es, h1, hm⟩ := hf
  have hd : s.facesEdges.getD f [] = es := by rw [List.getD_eq_getElem?_getD, h1]; rfl
  unfold centreOf centre
  simp only []
  rw [hd, if_neg]
  · unfold corners at hc
    rw [hc]
  · simp only [List.all_eq_true, List.mem_map, forall_exists_index, and_imp, forall_apply_eq_imp_iff₂]
    intro h
    have := h e hm
    rw [List.getD_eq_getElem?_getD, h2] at this
    simp at this

/-- The ends of a side of a triangular face are two of its corners. -/
theorem side_corners {m : Mesh Pt} {s : State} (r : Ready m s) {f e : Nat} (hf : Borders s f e) {x y z : Pt} (hc : corners m s f = [x, y, z]) :
    0 < area2 x y z ∧ ∃ p a b, m.edges[e]? = some p ∧ seg m.nodes p = some (a, b) ∧ a ≠ b ∧ a ∈ [x, y, z] ∧ b ∈ [x, y, z] := by
  have hlt := borders_lt hf
  obtain ⟨_, _, _, _, hpos⟩ := areas_get (other := fun _ _ => ⟨0, 0⟩) r hlt
  rw [hc, shoelace_three] at hpos
  have hA : 0 < area2 x y z := by linarith
  refine ⟨hA, ?_⟩
  obtain ⟨d1, d2, d3⟩ := corners_distinct hA.ne'
  obtain ⟨es, h1, h2⟩ := hf
  have hlt' : f < s.facesNodes.length := by rw [r.consistent.lengths]; exact hlt
  have hg : s.facesNodes[f]? = some s.facesNodes[f] := List.getElem?_eq_getElem hlt'
  have hval := r.valid f _ hg
  obtain ⟨hp, _⟩ := r.consistent.proper f _ es hg h1
  have hd : s.facesNodes.getD f [] = s.facesNodes[f] := by simp [hlt']
  unfold corners at hc
  rw [hd] at hc
  generalize s.facesNodes[f] = ns at *
  have hlen : ns.length = 3 := by
    have := congrArg List.length hc
    simpa using this
  obtain ⟨i, j, k, rfl⟩ := List.length_eq_three.1 hlen
  simp only [List.map_cons, List.map_nil, List.cons.injEq, and_true] at hc
  obtain ⟨hx, hy, hz⟩ := hc
  obtain ⟨a, ha⟩ := validNode_get (hval i (by simp))
  obtain ⟨b, hb⟩ := validNode_get (hval j (by simp))
  obtain ⟨c, hcc⟩ := validNode_get (hval k (by simp))
  rw [position_get ha] at hx
  rw [position_get hb] at hy
  rw [position_get hcc] at hz
  subst hx hy hz
  obtain ⟨t, ht, rfl⟩ := List.getElem_of_mem h2
  have ht3 : t < 3 := by rw [hp.len] at ht; simpa using ht
  obtain ⟨u, v, e', p, g1, g2, g3, g4, g5⟩ := hp.sides t (by simpa using ht3)
  rw [List.getElem?_eq_getElem ht] at g3
  obtain rfl := Option.some.inj g3
  have fin : ∀ (u v : Nat) (a' b' : Pt), m.nodes[u]? = some (some a') → m.nodes[v]? = some (some b') → a' ≠ b' → a' ∈ [a, b, c] → b' ∈ [a, b, c] →
      (p = (u, v) ∨ p = (v, u)) → ∃ p a' b', m.edges[es[t]]? = some p ∧ seg m.nodes p = some (a', b') ∧ a' ≠ b' ∧ a' ∈ [a, b, c] ∧ b' ∈ [a, b, c] := by
    rintro u v a' b' hu hv hne m1 m2 (rfl | rfl)
    · exact ⟨(u, v), a', b', g4, by simp [seg, hu, hv], hne, m1, m2⟩
    · exact ⟨(v, u), b', a', g4, by simp [seg, hu, hv], hne.symm, m2, m1⟩
  interval_cases t
  · obtain rfl := Option.some.inj g1
    obtain rfl := Option.some.inj g2
    exact fin _ _ a b ha hb d1 (by simp) (by simp) g5
  · obtain rfl := Option.some.inj g1
    obtain rfl := Option.some.inj g2
    exact fin _ _ b c hb hcc d2 (by simp) (by simp) g5
  · obtain rfl := Option.some.inj g1
    obtain rfl : i = v := by simpa using g2
    exact fin _ _ c a hcc ha d3 (by simp) (by simp) g5

theorem circumcentre_mem {p q r : Pt} (h : area2 p q r ≠ 0) {a b : Pt} (ha : a ∈ [p, q, r]) (hb : b ∈ [p, q, r]) :
    gap (circumcentre p q r) a = gap (circumcentre p q r) b := by
  obtain ⟨h1, h2⟩ := circumcentre_gap h
  have all : ∀ x ∈ [p, q, r], gap (circumcentre p q r) x = gap (circumcentre p q r) p := by
    intro x hx
    simp only [List.mem_cons, List.not_mem_nil, or_false] at hx
    rcases hx with rfl | rfl | rfl
    · rfl
    · exact h1.symm
    · exact (h1.trans h2).symm
  rw [all a ha, all b hb]

theorem dot_of_gap {a b c d : Pt} (h1 : gap c a = gap c b) (h2 : gap d a = gap d b) : dot a b c d = 0 := by
  unfold gap at h1 h2
  unfold dot
  linear_combination (h2 - h1) / 2

theorem absCosine_zero {v : ℝ} {a b c d : Pt} (hab : a ≠ b) (hcd : c ≠ d) (h : AbsCosine v a b c d) : v = 0 ↔ dot a b c d = 0 := by
  obtain ⟨_, _, h3⟩ := h
  have g1 : (0 : ℝ) < gap a b := by exact_mod_cast gap_pos hab
  have g2 : (0 : ℝ) < gap c d := by exact_mod_cast gap_pos hcd
  constructor
  · rintro rfl
    have : ((dot a b c d : ℚ) : ℝ) ^ 2 = 0 := by rw [← h3]; ring
    have := pow_eq_zero_iff (two_ne_zero) |>.1 this
    exact_mod_cast this
  · intro h0
    rw [h0] at h3
    have : v ^ 2 = 0 := by
      have h4 : v ^ 2 * ((gap a b : ℝ) * (gap c d : ℝ)) = 0 := by rw [h3]; norm_num
      rcases mul_eq_zero.1 h4 with h5 | h5
      · exact h5
      · exact absurd h5 (mul_pos g1 g2).ne'
    exact pow_eq_zero_iff (two_ne_zero) |>.1 this

theorem absCosine_one {v : ℝ} {a b c d : Pt} (hab : a ≠ b) (hcd : c ≠ d) (h : AbsCosine v a b c d) :
    v = 1 ↔ (b.x - a.x) * (d.y - c.y) = (b.y - a.y) * (d.x - c.x) := by
  obtain ⟨h1, _, h3⟩ := h
  have g1 : (0 : ℝ) < gap a b := by exact_mod_cast gap_pos hab
  have g2 : (0 : ℝ) < gap c d := by exact_mod_cast gap_pos hcd
  have lag : gap a b * gap c d = dot a b c d ^ 2 + ((b.x - a.x) * (d.y - c.y) - (b.y - a.y) * (d.x - c.x)) ^ 2 := by
    unfold gap dot; ring
  constructor
  · rintro rfl
    have : gap a b * gap c d = dot a b c d ^ 2 := by
      have : ((gap a b * gap c d : ℚ) : ℝ) = ((dot a b c d ^ 2 : ℚ) : ℝ) := by push_cast; linarith [h3]
      exact_mod_cast this
    have hz : ((b.x - a.x) * (d.y - c.y) - (b.y - a.y) * (d.x - c.x)) ^ 2 = 0 := by linarith
    have := pow_eq_zero_iff (two_ne_zero) |>.1 hz
    linarith
  · intro hz
    have e : gap a b * gap c d = dot a b c d ^ 2 := by rw [lag, hz]; ring
    have er : (gap a b : ℝ) * (gap c d : ℝ) = (dot a b c d : ℝ) ^ 2 := by exact_mod_cast e
    rw [← er] at h3
    have hp := mul_pos g1 g2
    have : v ^ 2 = 1 := by
      have h4 : (v ^ 2 - 1) * ((gap a b : ℝ) * (gap c d : ℝ)) = 0 := by linarith
      rcases mul_eq_zero.1 h4 with h5 | h5
      · linarith
      · exact absurd h5 hp.ne'
    nlinarith

theorem absCosine_swap {v : ℝ} {a b c d : Pt} (h : AbsCosine v a b c d) : AbsCosine v a b d c := by
  obtain ⟨h1, h2, h3⟩ := h
  refine ⟨h1, h2, ?_⟩
  have e : dot a b d c = -dot a b c d := by unfold dot; ring
  rw [gap_comm d c, e, h3]
  push_cast
  ring

/-- In a triangle with an obtuse angle the other angles are acute. -/
theorem one_obtuse {p q r : Pt} (h : 0 < area2 p q r) : dotAt p q r + dotAt q r p = gap p q ∧ dotAt q r p + dotAt r p q = gap q r ∧
    dotAt r p q + dotAt p q r = gap r p ∧ 0 < gap p q ∧ 0 < gap q r ∧ 0 < gap r p := by
  obtain ⟨d1, d2, d3⟩ := corners_distinct h.ne'
  refine ⟨?_, ?_, ?_, gap_pos d1, gap_pos d2, gap_pos d3⟩ <;> unfold dotAt gap <;> ring

theorem area2_turn (p q r : Pt) : area2 q r p = area2 p q r ∧ area2 r p q = area2 p q r := by
  constructor <;> unfold area2 <;> ring

theorem dotAt_comm (o p q : Pt) : dotAt o p q = dotAt o q p := by unfold dotAt; ring

end Verif.Quality
