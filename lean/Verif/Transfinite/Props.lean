import Verif.Transfinite.MoveLemmas
import Verif.Transfinite.TriLemmas
import Mathlib.Algebra.Order.Field.Rat
/-!
# Grids between the sides of a polygon: what holds
-/
namespace Verif.Transfinite
open Verif.Curvi Verif.CurviLine

variable {K : Type} [Field K] [LinearOrder K]

/-! ## When a grid is made -/

/-- C66: three nodes of which two are the same are refused. -/
theorem repeated_node_refused (dist : Pt K → Pt K → K) (nodes : List (Pt K)) (a b c : Nat) (useFourth : Bool)
    (h : a = b ∨ b = c ∨ a = c) :
    fromPolygon dist nodes a b c useFourth = .throw ∧ fromTriangle dist nodes a b c = .throw := by
  unfold fromPolygon fromTriangle
  simp only
  constructor
  · rw [if_pos h]; split <;> rfl
  · rw [if_pos h]; split <;> rfl

/-- C66: for nodes of the polygon the request is refused exactly when the polygon has too few nodes for the sides. -/
theorem refused_iff (dist : Pt K → Pt K → K) {nodes : List (Pt K)} (h : Closed nodes) {a b c : Nat}
    (hp : Picked nodes a b c) (useFourth : Bool) :
    fromPolygon dist nodes a b c useFourth = .throw ↔ count nodes < needed (count nodes) a b c useFourth := by
  constructor
  · intro hr
    by_contra hno
    by_cases hb : Below (count nodes) a b c
    · rw [fromPolygon_ub dist h hp useFourth (by omega) hb] at hr; exact absurd hr (by simp)
    · rw [fromPolygon_eq dist h hp useFourth (by omega) hb] at hr; exact absurd hr (by simp)
  · intro hn
    exact fromPolygon_throw dist h hp useFourth (by omega)

/-- C66: memory outside the polygon is read exactly when the nodes are given against the order of the polygon and
counting back from the third node passes number zero. -/
theorem reads_outside_iff (dist : Pt K → Pt K → K) {nodes : List (Pt K)} (h : Closed nodes) {a b c : Nat}
    (hp : Picked nodes a b c) (useFourth : Bool) (hneed : needed (count nodes) a b c useFourth ≤ count nodes) :
    fromPolygon dist nodes a b c useFourth = .ub ↔ Below (count nodes) a b c := by
  constructor
  · intro hr
    by_contra hb
    rw [fromPolygon_eq dist h hp useFourth hneed hb] at hr; exact absurd hr (by simp)
  · exact fromPolygon_ub dist h hp useFourth hneed

/-! ## The border -/

/-- C66: the border of the grid is made of the nodes of the polygon, in order, from the first given node to the second,
on to the third, and so on; the fourth side is the straight line if asked for. Partial: see `reads_outside_iff` for
when there is no grid, and `skips_nodes` for polygons with more nodes than needed. -/
theorem border_partial (dist : Pt K → Pt K → K) {nodes : List (Pt K)} (h : Closed nodes) {a b c : Nat}
    (hp : Picked nodes a b c) (useFourth : Bool) {g : Grid (Pt K)}
    (hg : fromPolygon dist nodes a b c useFourth = .ok (some g)) : (outline nodes a b c useFourth).Borders g := by
  by_cases hneed : needed (count nodes) a b c useFourth ≤ count nodes
  · by_cases hb : Below (count nodes) a b c
    · rw [fromPolygon_ub dist h hp useFourth hneed hb] at hg; exact absurd hg (by simp)
    · rw [fromPolygon_eq dist h hp useFourth hneed hb] at hg
      split at hg
      · have : g = _ := (Option.some.inj (Res.ok.inj hg)).symm
        subst this
        exact filled_borders dist _ _ (outline_meets hp useFourth)
      · simp at hg
  · rw [fromPolygon_throw dist h hp useFourth hneed] at hg; exact absurd hg (by simp)

/-- The corners the user pointed at are corners of the grid. -/
theorem corners_partial (dist : Pt K → Pt K → K) {nodes : List (Pt K)} (h : Closed nodes) {a b c : Nat}
    (hp : Picked nodes a b c) (useFourth : Bool) {g : Grid (Pt K)}
    (hg : fromPolygon dist nodes a b c useFourth = .ok (some g)) :
    g.cell 0 0 = pt nodes a ∧ g.cell (g.rows - 1) 0 = pt nodes b ∧ g.cell (g.rows - 1) (g.cols - 1) = pt nodes c := by
  have hB := border_partial dist h hp useFourth hg
  have hm := outline_meets hp useFourth
  rw [hB.rows, hB.cols, Nat.add_sub_cancel, Nat.add_sub_cancel, hB.bottom 0 (by omega), hB.right 0 (by omega),
    hB.right _ (le_refl _), hm.c]
  refine ⟨?_, ?_, ?_⟩
  · rw [node_of_le h hp.ha.le]; unfold outline; simp
  · rw [node_of_le h hp.hb.le]; unfold outline; simp
  · rw [node_of_le h hp.hc.le]; unfold outline; simp

/-- C66: when the polygon has just the nodes needed, with the fourth side, the border closes and every node of the
polygon is on it. -/
theorem every_node_used_partial (dist : Pt K → Pt K → K) {nodes : List (Pt K)} (h : Closed nodes) {a b c : Nat}
    (hp : Picked nodes a b c) {g : Grid (Pt K)} (hg : fromPolygon dist nodes a b c true = .ok (some g))
    (hall : needed (count nodes) a b c true = count nodes) :
    (∀ n < g.rows, g.cell n (g.cols - 1) = (outline nodes a b c true).upper n) ∧
    ∀ i : Int, ∃ n m, n < g.rows ∧ m < g.cols ∧ (n = 0 ∨ n = g.rows - 1 ∨ m = 0 ∨ m = g.cols - 1) ∧
      g.cell n m = node nodes i := by
  have hs := h.size
  have hcn : count nodes = nodes.length - 1 := rfl
  have hB := border_partial dist h hp true hg
  have hP : (outline nodes a b c true).p = cellsP (count nodes) a b := rfl
  have hQ : (outline nodes a b c true).q = cellsQ (count nodes) a b c := rfl
  have rb := reach_b hp.ha hp.hb
  have rc := reach_c (a := a) hp.hb hp.hc
  have p0 := cellsP_pos hp.ha hp.hb hp.ab
  have q0 := cellsQ_pos (a := a) hp.hb hp.hc hp.bc
  unfold needed at hall
  rw [if_pos rfl] at hall
  generalize hPv : cellsP (count nodes) a b = p at *
  generalize hQv : cellsQ (count nodes) a b c = q at *
  have hw := way_cases (count nodes) a b
  generalize hS : way (count nodes) a b = s at *
  have eb : ∀ z : Int, node nodes (b + z) = node nodes (a + s * p + z) := by
    intro z; apply node_of_emod; rw [← rb, Int.emod_add_emod]
  have ec : ∀ z : Int, node nodes (c + z) = node nodes (a + s * p + s * q + z) := by
    intro z
    rw [show node nodes (c + z) = node nodes (b + s * q + z) by
      apply node_of_emod; rw [← rc, Int.emod_add_emod], add_assoc (b : Int), eb]
    congr 1; ring
  have hnum : (count nodes : Int) = 2 * p + 2 * q := by omega
  have hback : ∀ m : Int, node nodes (a - s * m) = node nodes (a + s * (2 * p + 2 * q - m)) := by
    intro m
    apply node_congr
    refine ⟨-s, ?_⟩
    rw [hnum]; ring
  have fb : ∀ n, (outline nodes a b c true).bottom n = node nodes (a + s * n) := by
    intro n; unfold outline; simp only; rw [hS]
  have fr : ∀ m, (outline nodes a b c true).right m = node nodes (a + s * (p + m)) := by
    intro m; unfold outline; simp only; rw [hS, eb]; congr 1; ring
  have fu : ∀ n, (outline nodes a b c true).upper n = node nodes (a + s * (p + q + (p - n))) := by
    intro n; unfold outline; simp only; rw [hS, hPv, ec]; congr 1; ring
  have fl : ∀ m, (outline nodes a b c true).left m = node nodes (a + s * (2 * p + 2 * q - m)) := by
    intro m; unfold outline; simp only [if_true]; rw [hS, hback]
  have cB := hB.bottom
  have cR := hB.right
  have cL := hB.left
  have cU := hB.upper
  rw [hP] at cB cR cU
  rw [hQ] at cR cL cU
  rw [hB.rows, hB.cols, hP, hQ, Nat.add_sub_cancel, Nat.add_sub_cancel]
  constructor
  · intro n hn
    rcases Nat.eq_zero_or_pos n with rfl | h0
    · rw [cL q (le_refl _), fl, fu]; congr 1; push_cast; ring
    · exact cU n h0 (by omega)
  · intro i
    have hs2 : s * s = 1 := by rcases hw with rfl | rfl <;> rfl
    obtain ⟨t, ht, hi⟩ : ∃ t : Nat, t < 2 * p + 2 * q ∧ node nodes i = node nodes (a + s * t) := by
      have hpos : (0 : Int) < count nodes := by omega
      have h1 := Int.emod_nonneg (s * (i - a)) (show (count nodes : Int) ≠ 0 by omega)
      have h2 := Int.emod_lt_of_pos (s * (i - a)) hpos
      refine ⟨(s * (i - a) % count nodes).toNat, by omega, ?_⟩
      rw [Int.toNat_of_nonneg h1]
      apply node_congr
      refine ⟨s * (s * (i - a) / count nodes), ?_⟩
      have := Int.emod_add_mul_ediv (s * (i - a)) (count nodes)
      have e : s * (s * (i - a)) = i - a := by rw [← mul_assoc, hs2, one_mul]
      linear_combination (-s) * this - e
    rw [hi]
    by_cases t1 : t ≤ p
    · exact ⟨t, 0, by omega, by omega, by omega, by rw [cB t t1, fb]⟩
    by_cases t2 : t ≤ p + q
    · refine ⟨p, t - p, by omega, by omega, by omega, ?_⟩
      rw [cR _ (by omega), fr, show (p : Int) + (t - p : Nat) = t by omega]
    by_cases t3 : t < 2 * p + q
    · refine ⟨2 * p + q - t, q, by omega, by omega, by omega, ?_⟩
      rw [cU _ (by omega) (by omega), fu, show (p : Int) + q + (p - (2 * p + q - t : Nat)) = t by omega]
    · refine ⟨0, 2 * p + 2 * q - t, by omega, by omega, by omega, ?_⟩
      rw [cL _ (by omega), fl, show (2 : Int) * p + 2 * q - (2 * p + 2 * q - t : Nat) = t by omega]

/-! ## The nodes inside -/

section
variable [IsStrictOrderedRing K]

theorem between_half {α β γ : K} {a b : Pt K} (ha : Half α β γ a) (hb : Half α β γ b) {k i : Nat} (hi : i ≤ k) :
    Half α β γ (between a b k i) := by
  have h0 : (0 : K) ≤ (i : K) / (k : K) := div_nonneg (Nat.cast_nonneg i) (Nat.cast_nonneg k)
  have h1 : (i : K) / (k : K) ≤ 1 := by
    apply div_le_one_of_le₀ _ (Nat.cast_nonneg k); exact_mod_cast hi
  unfold Half between add scale at *
  generalize (i : K) / (k : K) = t at *
  simp only
  have p1 := mul_le_mul_of_nonneg_left ha (sub_nonneg.2 h1)
  have p2 := mul_le_mul_of_nonneg_left hb h0
  calc _ = (1 - t) * (α * a.x + β * a.y) + t * (α * b.x + β * b.y) := by ring
    _ ≤ (1 - t) * γ + t * γ := add_le_add p1 p2
    _ = γ := by ring

omit [IsStrictOrderedRing K] in
theorem node_mem {nodes : List (Pt K)} (h : 2 ≤ nodes.length) (i : Int) : node nodes i ∈ nodes := by
  have h0 : 0 < count nodes := by unfold count; omega
  have := Int.emod_lt_of_pos i (show (0 : Int) < count nodes by omega)
  have := Int.emod_nonneg i (show (count nodes : Int) ≠ 0 by omega)
  have hk : (i % (count nodes : Int)).toNat < nodes.length := by unfold count at *; omega
  unfold node pt
  rw [List.getD_eq_getElem?_getD, List.getElem?_eq_getElem hk]
  exact List.getElem_mem hk

theorem outline_half {nodes : List (Pt K)} (h : 2 ≤ nodes.length) {α β γ : K} (hh : ∀ p ∈ nodes, Half α β γ p)
    (a b c : Nat) (useFourth : Bool) :
    (∀ n, Half α β γ ((outline nodes a b c useFourth).bottom n)) ∧
    (∀ n, Half α β γ ((outline nodes a b c useFourth).upper n)) ∧
    (∀ n, Half α β γ ((outline nodes a b c useFourth).right n)) ∧
    ∀ m ≤ (outline nodes a b c useFourth).q, Half α β γ ((outline nodes a b c useFourth).left m) := by
  refine ⟨fun n => hh _ (node_mem h _), fun n => hh _ (node_mem h _), fun n => hh _ (node_mem h _), ?_⟩
  intro m hm
  unfold outline at hm ⊢
  simp only at hm ⊢
  cases useFourth
  · simp only [Bool.false_eq_true, if_false]
    exact between_half (hh _ (node_mem h _)) (hh _ (node_mem h _)) hm
  · simp only [if_true]
    exact hh _ (node_mem h _)

/-- C66: when opposite sides are divided in the same proportions, a grid is made and all its nodes lie in the convex hull
of the polygon. Partial: for other sides see `node_outside`. -/
theorem inside_partial {dist : Pt K → Pt K → K} {nodes : List (Pt K)} (h : Closed nodes) {a b c : Nat}
    (hp : Picked nodes a b c) (useFourth : Bool) (hneed : needed (count nodes) a b c useFourth ≤ count nodes)
    (hb : ¬ Below (count nodes) a b c) (hv : (outline nodes a b c useFourth).Valid)
    (he : (outline nodes a b c useFourth).Even dist) :
    ∃ g, fromPolygon dist nodes a b c useFourth = .ok (some g) ∧
      ∀ α β γ : K, (∀ p ∈ nodes, Half α β γ p) → ∀ n < g.rows, ∀ m < g.cols, Half α β γ (g.cell n m) := by
  have hs := h.size
  have hpos := (prop_of_even (max (cellsQ (count nodes) a b c + 1) (cellsP (count nodes) a b + 1))
    (outline_meets hp useFourth).p (outline_meets hp useFourth).q hv he).positive
  have hpos' : (sidesOf dist nodes a b c useFourth).Positive := hpos
  rw [fromPolygon_eq dist h hp useFourth hneed hb, if_pos hpos'.finite]
  refine ⟨_, rfl, ?_⟩
  intro α β γ hh n hn m hm
  obtain ⟨h1, h2, h3, h4⟩ := outline_half (by omega) hh a b c useFourth
  refine sweeps_half hpos' ?_ ?_ ?_ ?_ numIterations n (Nat.lt_succ_iff.1 hn) m (Nat.lt_succ_iff.1 hm)
  · intro m hm
    have e := h4 m hm
    have e2 := pt_listOf (K := K) (outline nodes a b c useFourth).left hm
    rw [← e2, ← pt_pad (max (cellsQ (count nodes) a b c + 1) (cellsP (count nodes) a b + 1))] at e
    exact e
  · intro m hm
    have e := h3 m
    have e2 := pt_listOf (K := K) (outline nodes a b c useFourth).right hm
    rw [← e2, ← pt_pad (max (cellsQ (count nodes) a b c + 1) (cellsP (count nodes) a b + 1))] at e
    exact e
  · intro n hn
    have e := h1 n
    have e2 := pt_listOf (K := K) (outline nodes a b c useFourth).bottom hn
    rw [← e2, ← pt_pad (max (cellsQ (count nodes) a b c + 1) (cellsP (count nodes) a b + 1))] at e
    exact e
  · intro n hn
    have e := h2 n
    have e2 := pt_listOf (K := K) (outline nodes a b c useFourth).upper hn
    rw [← e2, ← pt_pad (max (cellsQ (count nodes) a b c + 1) (cellsP (count nodes) a b + 1))] at e
    exact e

/-- C66: on a parallelogram whose opposite sides are divided alike the grid is the one between the lines through
opposite nodes. -/
theorem parallelogram_partial {dist : Pt K → Pt K → K}
    (hd : ∀ (p v : Pt K) (t : K), 0 ≤ t → dist p (add p (scale v t)) = t * dist ⟨0, 0⟩ v)
    {nodes : List (Pt K)} (h : Closed nodes) {a b c : Nat} (hp : Picked nodes a b c) (useFourth : Bool)
    (hneed : needed (count nodes) a b c useFourth ≤ count nodes) (hb : ¬ Below (count nodes) a b c)
    (hv : (outline nodes a b c useFourth).Valid) {o u v : Pt K} {β γ : Nat → K}
    (hpar : (outline nodes a b c useFourth).Parallelogram o u v β γ) (hu : 0 < dist ⟨0, 0⟩ u) (hv' : 0 < dist ⟨0, 0⟩ v) :
    ∃ g, fromPolygon dist nodes a b c useFourth = .ok (some g) ∧
      ∀ n < g.rows, ∀ m < g.cols, g.cell n m = add (add o (scale u (β n))) (scale v (γ m)) := by
  have he := parallelogram_even hd hpar hu hv'
  have hm := outline_meets hp useFourth
  have hprop := prop_of_even (max (cellsQ (count nodes) a b c + 1) (cellsP (count nodes) a b + 1)) hm.p hm.q hv he
  obtain ⟨b0, b1, g0, g1⟩ := hpar.ends
  obtain ⟨lb, -⟩ := lengthTo_straight hd hpar.bottom b0 hpar.along
  obtain ⟨lu, -⟩ := lengthTo_straight hd hpar.upper b0 hpar.along
  obtain ⟨ll, -⟩ := lengthTo_straight hd hpar.left g0 hpar.across
  obtain ⟨lr, -⟩ := lengthTo_straight hd hpar.right g0 hpar.across
  have sb : ∀ n ≤ (outline nodes a b c useFourth).p,
      share dist (outline nodes a b c useFourth).bottom (outline nodes a b c useFourth).p n = β n := by
    intro n hn
    unfold share
    rw [lb n hn, lb _ (le_refl _), b1, one_mul, mul_div_cancel_right₀ _ hu.ne']
  have sl : ∀ m ≤ (outline nodes a b c useFourth).q,
      share dist (outline nodes a b c useFourth).left (outline nodes a b c useFourth).q m = γ m := by
    intro m hm
    unfold share
    rw [ll m hm, ll _ (le_refl _), g1, one_mul, mul_div_cancel_right₀ _ hv'.ne']
  rw [lb _ (le_refl _), lu _ (le_refl _), ll _ (le_refl _), lr _ (le_refl _), b1, g1, one_mul, one_mul] at hprop
  have hprop' : (sidesOf dist nodes a b c useFourth).Prop' β γ (dist ⟨0, 0⟩ u) (dist ⟨0, 0⟩ u) (dist ⟨0, 0⟩ v)
      (dist ⟨0, 0⟩ v) := by
    refine ⟨?_, ?_, ?_, ?_, hprop.tb, hprop.tu, hprop.tl, hprop.tr, hprop.pos, ?_, ?_, ?_, ?_⟩
    · intro n hn; exact (hprop.b n hn).trans (sb n hn)
    · intro n hn; exact (hprop.u n hn).trans (sb n hn)
    · intro n hn; exact (hprop.l n hn).trans (sl n hn)
    · intro n hn; exact (hprop.r n hn).trans (sl n hn)
    · intro n hn; rw [← sb n hn]; exact hprop.rb n hn
    · intro n hn; rw [← sl n hn]; exact hprop.rl n hn
    · intro n h0 hn
      rw [← sb n hn, ← sb (n - 1) (by have : n ≤ (outline nodes a b c useFourth).p := hn; omega)]; exact hprop.ib n h0 hn
    · intro n h0 hn
      rw [← sl n hn, ← sl (n - 1) (by have : n ≤ (outline nodes a b c useFourth).q := hn; omega)]; exact hprop.il n h0 hn
  rw [fromPolygon_eq dist h hp useFourth hneed hb, if_pos hprop'.positive.finite]
  refine ⟨_, rfl, ?_⟩
  intro n hn m hm
  exact parallelogram_sweeps hprop' (c := o) (u := u) (v := v)
    (fun n hn => ((pt_pad _ _ _).trans (pt_listOf _ hn)).trans (hpar.bottom n hn))
    (fun n hn => ((pt_pad _ _ _).trans (pt_listOf _ hn)).trans (hpar.upper n hn))
    (fun n hn => ((pt_pad _ _ _).trans (pt_listOf _ hn)).trans (hpar.left n hn))
    (fun n hn => ((pt_pad _ _ _).trans (pt_listOf _ hn)).trans (hpar.right n hn))
    hpar.ends numIterations n (Nat.lt_succ_iff.1 hn) m (Nat.lt_succ_iff.1 hm)

end

/-- C66: moving, turning or scaling the polygon does the same to the grid. `f` is an affine map that multiplies all
distances by the same number. -/
theorem moved_partial {dist : Pt K → Pt K → K} {f : Affine K} {σ : K} (hσ : σ ≠ 0)
    (hd : ∀ p q, dist (f.apply p) (f.apply q) = σ * dist p q) {nodes : List (Pt K)} (h : Closed nodes) {a b c : Nat}
    (hp : Picked nodes a b c) (useFourth : Bool) (hv : (outline nodes a b c useFourth).Valid)
    (hv' : (outline (nodes.map f.apply) a b c useFourth).Valid) (hl : (outline nodes a b c useFourth).Long dist)
    {g : Grid (Pt K)} (hg : fromPolygon dist nodes a b c useFourth = .ok (some g)) :
    ∃ g', fromPolygon dist (nodes.map f.apply) a b c useFourth = .ok (some g') ∧ g'.rows = g.rows ∧ g'.cols = g.cols ∧
      ∀ n < g.rows, ∀ m < g.cols, g'.cell n m = f.apply (g.cell n m) := by
  have hs := h.size
  have hc : count (nodes.map f.apply) = count nodes := by unfold count; rw [List.length_map]
  have h' : Closed (nodes.map f.apply) := by
    refine ⟨by rw [List.length_map]; exact h.size, by rw [List.length_map]; exact h.fits, ?_⟩
    rw [List.head?_map, List.getLast?_map, h.closed]
  have hp' : Picked (nodes.map f.apply) a b c := by
    obtain ⟨q1, q2, q3, q4, q5, q6⟩ := hp
    exact ⟨by omega, by omega, by omega, q4, q5, q6⟩
  by_cases hneed : needed (count nodes) a b c useFourth ≤ count nodes
  swap
  · rw [fromPolygon_throw dist h hp useFourth hneed] at hg; exact absurd hg (by simp)
  by_cases hb : Below (count nodes) a b c
  · rw [fromPolygon_ub dist h hp useFourth hneed hb] at hg; exact absurd hg (by simp)
  rw [fromPolygon_eq dist h hp useFourth hneed hb] at hg
  have him : (sidesOf dist nodes a b c useFourth).Image (sidesOf dist (nodes.map f.apply) a b c useFourth) f σ := by
    unfold sidesOf
    rw [hc]
    exact (outline_image f (by omega) a b c useFourth).sides _ hσ hd hv hv' hl
  split at hg
  swap
  · simp at hg
  rename_i hf
  have : g = _ := (Option.some.inj (Res.ok.inj hg)).symm
  subst this
  rw [fromPolygon_eq dist h' hp' useFourth (by rw [hc]; exact hneed) (by rw [hc]; exact hb), him.finite, if_pos hf]
  refine ⟨_, rfl, ?_, ?_, ?_⟩
  · unfold filled; simp only; rw [him.n]
  · unfold filled; simp only; rw [him.m]
  · intro n hn m hm
    exact him.sweeps hf numIterations n (Nat.lt_succ_iff.1 hn) m (Nat.lt_succ_iff.1 hm)

/-! ## Triangles -/

/-- C66: for nodes of the polygon, a triangle is refused exactly when the nodes are not in the order of the polygon or a
side has half of the nodes or more; otherwise nothing outside the polygon is read. -/
theorem triangle_outcome (dist : Pt K → Pt K → K) {nodes : List (Pt K)} (h : Closed nodes) {a b c : Nat}
    (hp : Picked nodes a b c) :
    (fromTriangle dist nodes a b c = .throw ↔ ¬ (InOrder (count nodes) a b c ∧ Balanced (count nodes) a b c)) ∧
      fromTriangle dist nodes a b c ≠ .ub := by
  have hs := h.size
  have hf := h.fits
  have hcn : count nodes = nodes.length - 1 := rfl
  have hn : count nodes < 2 ^ 30 := by omega
  by_cases hacc : InOrder (count nodes) a b c ∧ Balanced (count nodes) a b c
  · obtain ⟨mid, k, s0, s1, s2, -, -, -, -, hrun⟩ := fromTriangle_eq dist h hp hacc.1 hacc.2
    rw [hrun]
    simp [hacc]
  · obtain ⟨ha, hB, hC, ab, bc, ac⟩ := hp
    have : fromTriangle dist nodes a b c = .throw := by
      unfold fromTriangle
      simp only
      rw [← hcn, if_neg (by omega), if_neg (by tauto), if_pos ((accepted_iff hn ha hB hC ab bc ac).2 hacc)]
    rw [this]
    simp [hacc]

/-- C66: with an even number of nodes, the grid of a triangle follows the polygon along its three sides, and its three
blocks meet along straight lines from the middles of the sides to one point. -/
theorem triangle_follows_partial [CharZero K] (dist : Pt K → Pt K → K) {nodes : List (Pt K)} (h : Closed nodes) {a b c : Nat}
    (hp : Picked nodes a b c) (hev : count nodes % 2 = 0) {g : Grid (Pt K)}
    (hg : fromTriangle dist nodes a b c = .ok (some g)) :
    ∃ mid, TriGrid nodes a b c mid (cut (count nodes) a b c) g := by
  obtain ⟨mid, -, ht⟩ := fromTriangle_grid dist h hp hev hg
  exact ⟨mid, ht⟩

/-- C66: the sides of the triangle have the cells the cut says. -/
theorem triangle_cells {num a b c : Nat} (ho : InOrder num a b c) (hb : Balanced num a b c) (hev : num % 2 = 0) :
    steps num a b = (cut num a b c).x + (cut num a b c).y ∧ steps num b c = (cut num a b c).x + (cut num a b c).z ∧
      steps num c a = (cut num a b c).y + (cut num a b c).z := by
  unfold InOrder at ho
  obtain ⟨h1, h2, h3⟩ := hb
  unfold cut
  simp only
  omega

/-- C66: the point where the blocks meet lies in the triangle of the three nodes, if the side from `b` to `c` is not too
short. Partial: for a short side see `middle_outside`. -/
theorem middle_inside_partial [IsStrictOrderedRing K] (dist : Pt K → Pt K → K) {nodes : List (Pt K)} (h : Closed nodes)
    {a b c : Nat} (hp : Picked nodes a b c) (hev : count nodes % 2 = 0) {g : Grid (Pt K)}
    (hg : fromTriangle dist nodes a b c = .ok (some g))
    (hw : (cut (count nodes) a b c).y ≤ (cut (count nodes) a b c).x + (cut (count nodes) a b c).z) :
    ∃ α β γ : K, 0 ≤ α ∧ 0 ≤ β ∧ 0 ≤ γ ∧ Mean3 (pt nodes a) (pt nodes b) (pt nodes c)
      (g.cell (cut (count nodes) a b c).x (cut (count nodes) a b c).z) α β γ := by
  have hs := h.size
  have hf := h.fits
  have hcn : count nodes = nodes.length - 1 := rfl
  have hn : count nodes < 2 ^ 30 := by omega
  obtain ⟨mid, hmid, ht⟩ := fromTriangle_grid dist h hp hev hg
  have hacc : InOrder (count nodes) a b c ∧ Balanced (count nodes) a b c := by
    by_contra hno
    have := ((triangle_outcome dist h hp).1).2 hno
    rw [this] at hg; exact absurd hg (by simp)
  obtain ⟨ho, hb⟩ := hacc
  obtain ⟨c1, c2, c3⟩ := triangle_cells ho hb hev
  obtain ⟨ha, hB, hC, ab, bc, ac⟩ := hp
  obtain ⟨e1, e2, e3⟩ := cut_eq hn ha hB hC ab bc ac ho
  have t0 : triSide (count nodes) a b c 0 = steps (count nodes) a b := ahead_eq hn ha hB
  have t1 : triSide (count nodes) a b c 1 = steps (count nodes) b c := ahead_eq hn hB hC
  have t2 := (triSide_two hn ha hB hC ab bc ac).1 ho
  have hz : 0 < (cut (count nodes) a b c).z := by
    have : (cut (count nodes) a b c).z = count nodes / 2 - steps (count nodes) a b := rfl
    have := hb.1; omega
  have hx : 0 < (cut (count nodes) a b c).x := by
    have : (cut (count nodes) a b c).x = count nodes / 2 - steps (count nodes) c a := rfl
    have := hb.2.2; omega
  rw [ht.seamAB _ (le_refl _), between_full _ _ hz]
  unfold centre at hmid
  rw [vget_pt (by omega), vget_pt (by omega), vget_pt (by omega), Res.ok_bind, Res.ok_bind, Res.ok_bind] at hmid
  have hm := (Res.ok.inj hmid).symm
  rw [e1, e2, e3, t0, t1, t2, c1, c2, c3] at hm
  generalize (cut (count nodes) a b c).x = x at *
  generalize (cut (count nodes) a b c).y = y at *
  generalize (cut (count nodes) a b c).z = z at *
  have r : ∀ i k : Nat, i ≤ k → 0 ≤ (i : K) / (k : K) ∧ (i : K) / (k : K) ≤ 1 := by
    intro i k hk
    refine ⟨div_nonneg (Nat.cast_nonneg i) (Nat.cast_nonneg k), ?_⟩
    apply div_le_one_of_le₀ _ (Nat.cast_nonneg k); exact_mod_cast hk
  obtain ⟨xa0, xa1⟩ := r x (x + y) (by omega)
  obtain ⟨xb0, xb1⟩ := r y (x + z) (by omega)
  obtain ⟨xc0, xc1⟩ := r z (y + z) (by omega)
  generalize (x : K) / ((x + y : Nat) : K) = p at *
  generalize (y : K) / ((x + z : Nat) : K) = q at *
  generalize (z : K) / ((y + z : Nat) : K) = s at *
  subst hm
  refine ⟨((1 - p) * s + (1 - p) + s * q) * (1 / 3), (p * s + (1 - q) * p + (1 - q)) * (1 / 3),
    ((1 - s) + q * p + (1 - s) * q) * (1 / 3), ?_, ?_, ?_, ⟨?_, ?_, ?_⟩⟩
  · have h1 := mul_nonneg (sub_nonneg.2 xa1) xc0
    have h2 := mul_nonneg xc0 xb0
    have h3 := sub_nonneg.2 xa1
    positivity
  · have h1 := mul_nonneg (sub_nonneg.2 xb1) xa0
    have h2 := mul_nonneg xa0 xc0
    have h3 := sub_nonneg.2 xb1
    positivity
  · have h1 := mul_nonneg (sub_nonneg.2 xc1) xb0
    have h2 := mul_nonneg xb0 xa0
    have h3 := sub_nonneg.2 xc1
    positivity
  · ring
  · unfold centreOf; ring
  · unfold centreOf; ring

/-! ## The calls -/

/-- C66: the call works on the polygon as given when no point is repeated. -/
theorem calls_partial (dist : Pt K → Pt K → K) {nodes : List (Pt K)} (h : Closed nodes)
    (hv : ∀ p ∈ nodes, valid p = true) (hd : ∀ i, i + 1 < nodes.length → pt nodes i ≠ pt nodes (i + 1))
    {a b c : Nat} (ha : a < 2 ^ 32) (hb : b < 2 ^ 32) (hc : c < 2 ^ 32) (useFourth : Int) :
    polygonCall dist nodes a b c useFourth = fromPolygon dist nodes a b c (decide (useFourth = 1)) ∧
      triangleCall dist nodes a b c = fromTriangle dist nodes a b c := by
  have hs := h.size
  have hloop : ∀ (l : List (Pt K)) (p : Pt K), (∀ i, i + 1 < (p :: l).length → pt (p :: l) i ≠ pt (p :: l) (i + 1)) →
      convertLoop p l = l := by
    intro l
    induction l with
    | nil => intro p _; rfl
    | cons q l ih =>
      intro p hpq
      have h0 := hpq 0 (by simp)
      have hne : ¬ (q.x = p.x ∧ q.y = p.y) := by
        intro ⟨h1, h2⟩
        apply h0
        unfold pt
        simp only [List.getD_cons_zero, List.getD_cons_succ]
        cases p; cases q; simp_all
      rw [convertLoop, if_neg hne, ih q]
      intro i hi
      exact hpq (i + 1) (by simp only [List.length_cons] at hi ⊢; omega)
  have hconv : convert nodes = nodes := by
    cases nodes with
    | nil => rfl
    | cons p l => rw [convert, hloop l p hd]
  have hmk : makePolygon nodes = .ok nodes := by
    unfold makePolygon
    rw [if_neg (by omega), if_neg (by rw [h.closed]; simp), if_neg]
    rw [List.any_eq_true]
    rintro ⟨p, hp, hq⟩
    rw [hv p hp] at hq
    simp at hq
  have w : ∀ k : Nat, k < 2 ^ 32 → wrap (k : Int) = k := fun k hk => wrap_nat rfl (by omega)
  unfold polygonCall triangleCall
  rw [hconv, hmk, Res.ok_bind, Res.ok_bind, w a ha, w b hb, w c hc]
  exact ⟨rfl, rfl⟩

end Verif.Transfinite
