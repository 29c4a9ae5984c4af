import Verif.Transfinite.IndexLemmas
import Mathlib.Tactic.Ring
/-!
# Lemmas: the sides handed to the interpolation
-/
namespace Verif.Transfinite
open Verif.Curvi Verif.CurviLine

variable {K : Type} [Field K] [LinearOrder K]

/-- The points of a line up to number `p`. -/
def listOf (f : Nat → Pt K) (p : Nat) : List (Pt K) := (List.range (p + 1)).map f

/-- The sides of an outline as they are handed on. -/
def ofOutline (dist : Pt K → Pt K → K) (k : Nat) (o : Outline K) : Sides K :=
  ⟨dist, pad k (listOf o.left o.q), pad k (listOf o.right o.q), pad k (listOf o.bottom o.p), pad k (listOf o.upper o.p),
    o.q, o.p⟩

theorem pt_pad (k : Nat) (side : List (Pt K)) (i : Nat) : pt (pad k side) i = pt side i := by
  unfold pt pad
  rw [List.getD_eq_getElem?_getD, List.getD_eq_getElem?_getD, List.getElem?_append]
  split
  · rfl
  · rename_i h
    rw [List.getElem?_eq_none (l := side) (by omega), List.getElem?_replicate]
    split <;> rfl

theorem pt_listOf (f : Nat → Pt K) {p i : Nat} (h : i ≤ p) : pt (listOf f p) i = f i := by
  unfold pt listOf
  rw [List.getD_eq_getElem?_getD, List.getElem?_map, List.getElem?_range (by omega)]; rfl

theorem pt_listOf_beyond (f : Nat → Pt K) {p i : Nat} (h : p < i) : pt (listOf f p) i = inv := by
  unfold pt listOf
  rw [List.getD_eq_getElem?_getD, List.getElem?_eq_none (by simp; omega)]; rfl

theorem travelled_pad (dist : Pt K → Pt K → K) (k : Nat) (side : List (Pt K)) (i : Nat) :
    travelled dist (pad k side) i = travelled dist side i := by
  induction i with
  | zero => rfl
  | succ i ih => rw [travelled, travelled, ih, pt_pad, pt_pad]

theorem travelled_listOf (dist : Pt K → Pt K → K) {f : Nat → Pt K} {p : Nat} (hv : ∀ i ≤ p, valid (f i) = true) :
    ∀ i, i ≤ p → travelled dist (listOf f p) i = lengthTo dist f i := by
  intro i
  induction i with
  | zero => intro _; rfl
  | succ i ih =>
    intro hi
    rw [travelled, lengthTo, ih (by omega), pt_listOf f (by omega), pt_listOf f hi, step, hv i (by omega), hv _ hi]
    rfl

theorem travelled_beyond (dist : Pt K → Pt K → K) (f : Nat → Pt K) (p : Nat) :
    ∀ j, travelled dist (listOf f p) (p + j) = travelled dist (listOf f p) p := by
  intro j
  induction j with
  | zero => rfl
  | succ j ih =>
    rw [show p + (j + 1) = (p + j) + 1 from rfl, travelled, ih, step, pt_listOf_beyond f (i := p + j + 1) (by omega),
      PointLike.valid_inv]
    simp

theorem total_pad (dist : Pt K → Pt K → K) (k : Nat) (f : Nat → Pt K) (p : Nat) :
    total dist (pad k (listOf f p)) = travelled dist (listOf f p) p := by
  have hl : (listOf f p).length = p + 1 := by simp [listOf]
  unfold total
  rw [travelled_pad]
  have : (pad k (listOf f p)).length - 1 = p + (k - (p + 1)) := by
    unfold pad; rw [List.length_append, List.length_replicate, hl]; omega
  rw [this, travelled_beyond]

/-- Length of a padded side. -/
theorem total_of (dist : Pt K → Pt K → K) (k : Nat) {f : Nat → Pt K} {p : Nat} (hv : ∀ i ≤ p, valid (f i) = true) :
    total dist (pad k (listOf f p)) = lengthTo dist f p := by
  rw [total_pad, travelled_listOf dist hv p (le_refl p)]

theorem adim_of (dist : Pt K → Pt K → K) (k : Nat) {f : Nat → Pt K} {p : Nat} (hv : ∀ i ≤ p, valid (f i) = true)
    (hp : lengthTo dist f p ≠ 0) {i : Nat} (hi : i ≤ p) :
    adim dist (pad k (listOf f p)) i = lengthTo dist f i / lengthTo dist f p := by
  unfold adim
  rw [total_of dist k hv, if_neg hp, travelled_pad, travelled_listOf dist hv i hi, mul_one_div]

theorem longEnough_of (dist : Pt K → Pt K → K) {k : Nat} (o : Outline K) : (ofOutline dist k o).longEnough = true := by
  unfold Sides.longEnough ofOutline pad listOf
  simp
  omega

/-! ## The sides of a polygon -/

theorem sign_not (up : Bool) : (if (!up) = true then (1 : Int) else -1) = -(if up = true then 1 else -1) := by
  cases up <;> rfl

theorem polygonSides_eq (dist : Pt K → Pt K → K) {nodes : List (Pt K)} (h : Closed nodes) {a b c : Nat}
    (hp : Picked nodes a b c) (useFourth : Bool) (hb : ¬ Below (count nodes) a b c) :
    polygonSides dist nodes (count nodes) a b c useFourth =
      .ok (ofOutline dist (max (cellsQ (count nodes) a b c + 1) (cellsP (count nodes) a b + 1))
        (outline nodes a b c useFourth)) := by
  have h1 := h.size
  have h2 := h.fits
  have hcn : count nodes = nodes.length - 1 := rfl
  have hn : count nodes < 2 ^ 30 := by omega
  have ha := hp.ha
  have hB := hp.hb
  have hC := hp.hc
  obtain ⟨hd, -⟩ := fourthNode_of hn ha hB hC
  obtain ⟨hd1, hd2⟩ := hd (by
    rcases way_cases (count nodes) a b with hw | hw
    · exact Or.inl hw
    · right; by_contra hh; exact hb ⟨hw, by omega⟩)
  have hw := way_of_forwards hn ha hB
  have hup : ∀ j : Int, node nodes ((fourthNode (count nodes) a b c : Int) + -way (count nodes) a b * j) =
      node nodes (c + way (count nodes) a b * (cellsP (count nodes) a b - j)) := by
    intro j
    rw [hd2]
    apply node_of_emod
    rw [Int.emod_add_emod]
    congr 1
    ring
  have hone : sideOne nodes (count nodes) a b c useFourth =
      .ok (listOf (outline nodes a b c useFourth).left (cellsQ (count nodes) a b c)) := by
    unfold sideOne
    cases useFourth
    · simp only [Bool.false_eq_true, if_false]
      rw [vget_pt (by omega), vget_pt (by omega), Res.ok_bind, Res.ok_bind, stepsN_eq hn ha hB hC, node_of_le h (by omega),
        node_of_le h (by omega), hd2, node_emod]
      rfl
    · simp only [if_true]
      rw [walk_eq h _ _ _ (by omega), stepsN_eq hn ha hB hC, sign_not, ← hw]
      unfold listOf outline
      simp only [if_true]
      congr 1
      apply List.map_congr_left
      intro j _
      congr 1
      ring
  unfold polygonSides
  rw [hone, Res.ok_bind, walk_eq h _ _ _ (by omega), walk_eq h _ _ _ (by omega), walk_eq h _ _ _ (by omega), Res.ok_bind,
    Res.ok_bind, Res.ok_bind, stepsM_eq hn ha hB, stepsN_eq hn ha hB hC, sign_not, ← hw]
  simp only [hup]
  rfl

theorem polygonSides_ub (dist : Pt K → Pt K → K) {nodes : List (Pt K)} (h : Closed nodes) {a b c : Nat}
    (hp : Picked nodes a b c) (useFourth : Bool) (hb : Below (count nodes) a b c) :
    polygonSides dist nodes (count nodes) a b c useFourth = .ub := by
  have h1 := h.size
  have h2 := h.fits
  have hcn : count nodes = nodes.length - 1 := rfl
  have hn : count nodes < 2 ^ 30 := by omega
  obtain ⟨-, hd⟩ := fourthNode_of hn hp.ha hp.hb hp.hc
  have hd := hd hb
  have ha := hp.ha
  have hB := hp.hb
  unfold polygonSides
  unfold sideOne
  cases useFourth
  · simp only [Bool.false_eq_true, if_false]
    have : vget nodes (fourthNode (count nodes) a b c) = .ub := by
      unfold vget; rw [List.getElem?_eq_none (by omega)]
    rw [this, vget_pt (by omega)]
    rfl
  · simp only [if_true]
    rw [walk_eq h _ _ _ (by omega), Res.ok_bind, walk_eq h _ _ _ (by omega), walk_eq h _ _ _ (by omega), walk_ub (by omega)]
    rfl

/-- The sides of the grid, as handed on. -/
def sidesOf (dist : Pt K → Pt K → K) (nodes : List (Pt K)) (a b c : Nat) (useFourth : Bool) : Sides K :=
  ofOutline dist (max (cellsQ (count nodes) a b c + 1) (cellsP (count nodes) a b + 1)) (outline nodes a b c useFourth)

/-- The grid between sides. -/
def filled (s : Sides K) : Grid (Pt K) := { rows := s.numN + 1, cols := s.numM + 1, cell := s.sweeps numIterations }

theorem fromPolygon_eq (dist : Pt K → Pt K → K) {nodes : List (Pt K)} (h : Closed nodes) {a b c : Nat}
    (hp : Picked nodes a b c) (useFourth : Bool) (hneed : needed (count nodes) a b c useFourth ≤ count nodes)
    (hb : ¬ Below (count nodes) a b c) :
    fromPolygon dist nodes a b c useFourth =
      .ok (if (sidesOf dist nodes a b c useFourth).finite then some (filled (sidesOf dist nodes a b c useFourth))
        else none) := by
  have h1 := h.size
  have h2 := h.fits
  have hcn : count nodes = nodes.length - 1 := rfl
  have hn : count nodes < 2 ^ 30 := by omega
  have e1 := cellsP_pos hp.ha hp.hb hp.ab
  have e2 := cellsQ_pos (a := a) hp.hb hp.hc hp.bc
  unfold fromPolygon
  rw [if_neg (by omega), if_neg (by have := hp.ab; have := hp.bc; have := hp.ac; tauto), ← hcn,
    required_eq hn hp.ha hp.hb hp.hc, if_neg (by unfold needed at hneed; omega), polygonSides_eq dist h hp useFourth hb,
    Res.ok_bind]
  change (discretize (sidesOf dist nodes a b c useFourth) >>= gridOfMaybe _ _) = _
  unfold discretize
  rw [show (sidesOf dist nodes a b c useFourth).longEnough = true from longEnough_of dist _, if_pos rfl, Res.ok_bind]
  have hN : (sidesOf dist nodes a b c useFourth).numN = cellsP (count nodes) a b := rfl
  have hM : (sidesOf dist nodes a b c useFourth).numM = cellsQ (count nodes) a b c := rfl
  change gridOfMaybe ((sidesOf dist nodes a b c useFourth).numN + 1) ((sidesOf dist nodes a b c useFourth).numM + 1) _ = _
  split
  · unfold gridOfMaybe gridOf setGridNodes
    simp only
    rw [if_neg (by omega)]
    rfl
  · unfold gridOfMaybe
    simp only
    rw [if_neg (by omega)]

theorem fromPolygon_throw (dist : Pt K → Pt K → K) {nodes : List (Pt K)} (h : Closed nodes) {a b c : Nat}
    (hp : Picked nodes a b c) (useFourth : Bool) (hneed : ¬ needed (count nodes) a b c useFourth ≤ count nodes) :
    fromPolygon dist nodes a b c useFourth = .throw := by
  have h1 := h.size
  have h2 := h.fits
  have hcn : count nodes = nodes.length - 1 := rfl
  have hn : count nodes < 2 ^ 30 := by omega
  unfold fromPolygon
  rw [if_neg (by omega), if_neg (by have := hp.ab; have := hp.bc; have := hp.ac; tauto), ← hcn,
    required_eq hn hp.ha hp.hb hp.hc, if_pos (by unfold needed at hneed; omega)]

theorem fromPolygon_ub (dist : Pt K → Pt K → K) {nodes : List (Pt K)} (h : Closed nodes) {a b c : Nat}
    (hp : Picked nodes a b c) (useFourth : Bool) (hneed : needed (count nodes) a b c useFourth ≤ count nodes)
    (hb : Below (count nodes) a b c) : fromPolygon dist nodes a b c useFourth = .ub := by
  have h1 := h.size
  have h2 := h.fits
  have hcn : count nodes = nodes.length - 1 := rfl
  have hn : count nodes < 2 ^ 30 := by omega
  unfold fromPolygon
  rw [if_neg (by omega), if_neg (by have := hp.ab; have := hp.bc; have := hp.ac; tauto), ← hcn,
    required_eq hn hp.ha hp.hb hp.hc, if_neg (by unfold needed at hneed; omega), polygonSides_ub dist h hp useFourth hb]
  rfl

/-! ## The border of the filled grid -/

theorem sweeps_border (s : Sides K) {n m : Nat} (h : s.inner n m = false) : ∀ k, s.sweeps k n m = s.first n m := by
  intro k
  induction k with
  | zero => rfl
  | succ k ih => rw [Sides.sweeps, Sides.sweep, h, if_neg (by simp), ih]

omit [Field K] [LinearOrder K] in
theorem inner_iff (s : Sides K) (n m : Nat) : s.inner n m = true ↔ 1 ≤ n ∧ n < s.numN ∧ 1 ≤ m ∧ m < s.numM := by
  unfold Sides.inner; simp [and_assoc]

omit [Field K] [LinearOrder K] in
theorem not_inner (s : Sides K) {n m : Nat} (h : n = 0 ∨ n = s.numN ∨ m = 0 ∨ m = s.numM) : s.inner n m = false := by
  rw [Bool.eq_false_iff]
  intro hh
  rw [inner_iff] at hh
  omega

theorem first_right (dist : Pt K → Pt K → K) (k : Nat) (o : Outline K) {m : Nat} (hm : m ≤ o.q) :
    (ofOutline dist k o).first o.p m = o.right m := by
  have hN : (ofOutline dist k o).numN = o.p := rfl
  unfold Sides.first
  rw [if_pos hN.symm]
  exact (pt_pad _ _ _).trans (pt_listOf _ hm)

theorem first_left (dist : Pt K → Pt K → K) (k : Nat) (o : Outline K) {m : Nat} (hp : 0 < o.p) (hm : m ≤ o.q) :
    (ofOutline dist k o).first 0 m = o.left m := by
  have hN : (ofOutline dist k o).numN = o.p := rfl
  unfold Sides.first
  rw [if_neg (by omega), if_pos rfl]
  exact (pt_pad _ _ _).trans (pt_listOf _ hm)

theorem first_upper (dist : Pt K → Pt K → K) (k : Nat) (o : Outline K) {n : Nat} (h0 : 0 < n) (hn : n < o.p) :
    (ofOutline dist k o).first n o.q = o.upper n := by
  have hN : (ofOutline dist k o).numN = o.p := rfl
  have hM : (ofOutline dist k o).numM = o.q := rfl
  unfold Sides.first
  rw [if_neg (by omega), if_neg (by omega), if_pos hM.symm]
  exact (pt_pad _ _ _).trans (pt_listOf _ (by omega))

theorem first_bottom (dist : Pt K → Pt K → K) (k : Nat) (o : Outline K) {n : Nat} (hq : 0 < o.q) (h0 : 0 < n)
    (hn : n < o.p) : (ofOutline dist k o).first n 0 = o.bottom n := by
  have hN : (ofOutline dist k o).numN = o.p := rfl
  have hM : (ofOutline dist k o).numM = o.q := rfl
  unfold Sides.first
  rw [if_neg (by omega), if_neg (by omega), if_neg (by omega), if_pos rfl]
  exact (pt_pad _ _ _).trans (pt_listOf _ (by omega))

/-- Sides that meet where they should, apart from the fourth corner. -/
structure Outline.Meets (o : Outline K) : Prop where
  p : 0 < o.p
  q : 0 < o.q
  a : o.left 0 = o.bottom 0
  b : o.right 0 = o.bottom o.p
  c : o.right o.q = o.upper o.p

theorem outline_meets {nodes : List (Pt K)} {a b c : Nat} (hp : Picked nodes a b c) (useFourth : Bool)
    : (outline nodes a b c useFourth).Meets := by
  have e1 := cellsP_pos hp.ha hp.hb hp.ab
  have e2 := cellsQ_pos (a := a) hp.hb hp.hc hp.bc
  refine ⟨e1, e2, ?_, ?_, ?_⟩
  · unfold outline
    cases useFourth
    · simp [between, add, scale]
    · simp
  · unfold outline
    simp only
    apply node_of_emod
    rw [reach_b hp.ha hp.hb]
    simp only [Nat.cast_zero, mul_zero, add_zero]
    have := hp.hb
    exact Int.emod_eq_of_lt (by omega) (by omega)
  · unfold outline
    simp only
    apply node_of_emod
    rw [reach_c hp.hb hp.hc]
    simp only [sub_self, mul_zero, add_zero]
    have := hp.hc
    exact (Int.emod_eq_of_lt (by omega) (by omega)).symm

theorem filled_borders (dist : Pt K → Pt K → K) (k : Nat) (o : Outline K) (h : o.Meets) :
    o.Borders (filled (ofOutline dist k o)) := by
  have hN : (ofOutline dist k o).numN = o.p := rfl
  have hM : (ofOutline dist k o).numM = o.q := rfl
  have h1 := h.p
  have h2 := h.q
  have hbr : ∀ n m, n = 0 ∨ n = o.p ∨ m = 0 ∨ m = o.q →
      (filled (ofOutline dist k o)).cell n m = (ofOutline dist k o).first n m := fun n m hh =>
    sweeps_border _ (not_inner _ (by rw [hN, hM]; exact hh)) _
  refine ⟨rfl, rfl, ⟨rfl, rfl, rfl, rfl⟩, ?_, ?_, ?_, ?_⟩
  · intro n hn
    rw [hbr n 0 (by tauto)]
    rcases Nat.eq_zero_or_pos n with rfl | h0
    · rw [first_left dist k o h1 (by omega), h.a]
    · rcases Nat.lt_or_ge n o.p with hlt | hge
      · exact first_bottom dist k o h2 h0 hlt
      · have : n = o.p := by omega
        subst this
        rw [first_right dist k o (by omega), h.b]
  · intro m hm
    rw [hbr _ m (by tauto)]
    exact first_right dist k o hm
  · intro m hm
    rw [hbr _ m (by tauto)]
    exact first_left dist k o h1 hm
  · intro n h0 hn
    rw [hbr n _ (by tauto)]
    rcases Nat.lt_or_ge n o.p with hlt | hge
    · exact first_upper dist k o (by omega) hlt
    · have : n = o.p := by omega
      subst this
      rw [first_right dist k o (le_refl _), h.c]

end Verif.Transfinite
