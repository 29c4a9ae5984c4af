import Verif.Transfinite.FillLemmas
/-!
# Lemmas: triangles
-/
namespace Verif.Transfinite
open Verif.Curvi Verif.CurviLine

variable {K : Type} [Field K] [LinearOrder K]

theorem steps_sum {num a b c : Nat} (ha : a < num) (hb : b < num) (hc : c < num) (hab : a ≠ b) (hbc : b ≠ c) (hac : a ≠ c) :
    steps num a b + steps num b c + steps num c a = num ∨ steps num a b + steps num b c + steps num c a = 2 * num := by
  rw [steps_of ha hb, steps_of hb hc, steps_of hc ha]
  split <;> split <;> split <;> omega

theorem triSide_two {num a b c : Nat} (hn : num < 2 ^ 30) (ha : a < num) (hb : b < num) (hc : c < num) (hab : a ≠ b)
    (hbc : b ≠ c) (hac : a ≠ c) :
    (InOrder num a b c → triSide num a b c 2 = steps num c a) ∧ (¬ InOrder num a b c → num < triSide num a b c 2) := by
  have h1 := steps_lt (num := num) (a := a) (b := b) (by omega)
  have h2 := steps_lt (num := num) (a := b) (b := c) (by omega)
  have h3 := steps_lt (num := num) (a := c) (b := a) (by omega)
  have hs := steps_sum ha hb hc hab hbc hac
  unfold triSide InOrder
  rw [ahead_eq hn ha hb, ahead_eq hn hb hc]
  constructor
  · intro h; exact wrap_nat (by omega) (by omega)
  · intro h
    have : wrap ((num : Int) - (steps num a b + steps num b c)) = 4294967296 + num - (steps num a b + steps num b c) := by
      unfold wrap; omega
    rw [this]; simp only; omega

theorem further_eq {num a k : Nat} (hn : num < 2 ^ 30) (ha : a < num) (hk : k < num) :
    further num a k < num ∧ (further num a k : Int) % num = ((a : Int) + k) % num := by
  unfold further
  rw [wrap_nat (k := a + k) (by omega) (by omega)]
  split
  · refine ⟨by omega, ?_⟩
    rw [← Int.sub_emod_right ((a : Int) + k)]
    congr 1; omega
  · exact ⟨by omega, by congr 1⟩

theorem accepted_iff {num a b c : Nat} (hn : num < 2 ^ 30) (ha : a < num) (hb : b < num) (hc : c < num) (hab : a ≠ b)
    (hbc : b ≠ c) (hac : a ≠ c) :
    (triSide num a b c 2 ≥ blockSize num ∨ triSide num a b c 1 ≥ blockSize num ∨ triSide num a b c 0 ≥ blockSize num) ↔
      ¬ (InOrder num a b c ∧ Balanced num a b c) := by
  obtain ⟨h1, h2⟩ := triSide_two hn ha hb hc hab hbc hac
  have e0 : triSide num a b c 0 = steps num a b := ahead_eq hn ha hb
  have e1 : triSide num a b c 1 = steps num b c := ahead_eq hn hb hc
  rw [e0, e1]
  unfold Balanced blockSize
  by_cases ho : InOrder num a b c
  · rw [h1 ho]; simp only [ho, true_and]; omega
  · have := h2 ho
    simp only [ho, false_and, not_false_iff, iff_true]; omega

theorem cut_eq {num a b c : Nat} (hn : num < 2 ^ 30) (ha : a < num) (hb : b < num) (hc : c < num) (hab : a ≠ b)
    (hbc : b ≠ c) (hac : a ≠ c) (ho : InOrder num a b c) :
    n1 num a b c = (cut num a b c).x ∧ n2 num a b c = (cut num a b c).y ∧ n3 num a b c = (cut num a b c).z := by
  obtain ⟨h1, -⟩ := triSide_two hn ha hb hc hab hbc hac
  have e0 : triSide num a b c 0 = steps num a b := ahead_eq hn ha hb
  have e1 : triSide num a b c 1 = steps num b c := ahead_eq hn hb hc
  unfold n1 n2 n3 blockSize
  rw [h1 ho, e0, e1]
  exact ⟨rfl, rfl, rfl⟩

/-- The sides of a block. -/
def blockOutline (nodes : List (Pt K)) (corner left right : Nat) (mid : Pt K) (numN numM : Nat) : Outline K :=
  { p := numN
    q := numM
    bottom := fun n => node nodes (corner + n)
    left := fun m => node nodes (corner - m)
    right := between (pt nodes right) mid numM
    upper := between (pt nodes left) mid numN }

theorem block_eq (dist : Pt K → Pt K → K) {nodes : List (Pt K)} (h : Closed nodes) (k : Nat) {corner left right : Nat}
    (mid : Pt K) (numN numM : Nat) (h1 : corner < count nodes) (h2 : left < count nodes) (h3 : right < count nodes) :
    block dist nodes (count nodes) k corner left right mid numN numM =
      .ok (if (ofOutline dist k (blockOutline nodes corner left right mid numN numM)).finite then
        some ((ofOutline dist k (blockOutline nodes corner left right mid numN numM)).sweeps numIterations) else none) := by
  have hs := h.size
  have hcn : count nodes = nodes.length - 1 := rfl
  unfold block
  rw [walkTri_eq_walk h _ _ _ (by omega), walkTri_eq_walk h _ _ _ (by omega), walk_eq h _ _ _ (by omega),
    walk_eq h _ _ _ (by omega), vget_pt (by omega), vget_pt (by omega), Res.ok_bind, Res.ok_bind, Res.ok_bind, Res.ok_bind]
  have e : (⟨dist, pad k ((List.range (numM + 1)).map fun j : Nat =>
        node nodes ((corner : Int) + (if false = true then 1 else -1) * j)),
      pad k (straight (pt nodes right) mid numM),
      pad k ((List.range (numN + 1)).map fun j : Nat => node nodes ((corner : Int) + (if true = true then 1 else -1) * j)),
      pad k (straight (pt nodes left) mid numN), numM, numN⟩ : Sides K) =
      ofOutline dist k (blockOutline nodes corner left right mid numN numM) := by
    unfold ofOutline blockOutline listOf
    simp only [Bool.false_eq_true, if_false, if_true]
    congr 2
    · apply List.map_congr_left; intro j _; congr 1; ring
    · apply List.map_congr_left; intro j _; congr 1; ring
  rw [e]
  unfold discretize
  rw [longEnough_of, if_pos rfl]

omit [LinearOrder K] in
theorem between_zero (a b : Pt K) (k : Nat) : between a b k 0 = a := by
  unfold between add scale; simp

section
variable [CharZero K]

omit [LinearOrder K] in
theorem between_full (a b : Pt K) {k : Nat} (hk : 0 < k) : between a b k k = b := by
  have : ((k : Nat) : K) ≠ 0 := by exact_mod_cast hk.ne'
  unfold between add scale; simp [div_self this]

theorem block_meets {nodes : List (Pt K)} (h : Closed nodes) {corner left right : Nat} (mid : Pt K) {numN numM : Nat}
    (hN : 0 < numN) (hM : 0 < numM) (h3 : right < count nodes)
    (hr : (right : Int) % count nodes = ((corner : Int) + numN) % count nodes) :
    (blockOutline nodes corner left right mid numN numM).Meets := by
  refine ⟨hN, hM, ?_, ?_, ?_⟩
  · unfold blockOutline; simp
  · unfold blockOutline
    simp only
    rw [between_zero, node_of_le h h3.le]
    exact node_of_emod hr
  · unfold blockOutline
    simp only
    rw [between_full _ _ hM, between_full _ _ hN]

end

/-- What the run of the triangle makes: the three blocks put together. -/
theorem fromTriangle_eq (dist : Pt K → Pt K → K) {nodes : List (Pt K)} (h : Closed nodes) {a b c : Nat}
    (hp : Picked nodes a b c) (ho : InOrder (count nodes) a b c) (hb : Balanced (count nodes) a b c) :
    ∃ (mid : Pt K) (k : Nat) (s0 s1 s2 : Sides K),
      centre nodes (count nodes) a b c = .ok mid ∧
      s0 = ofOutline dist k (blockOutline nodes a (further (count nodes) c (cut (count nodes) a b c).y)
        (further (count nodes) a (cut (count nodes) a b c).x) mid (cut (count nodes) a b c).x (cut (count nodes) a b c).z) ∧
      s1 = ofOutline dist k (blockOutline nodes b (further (count nodes) a (cut (count nodes) a b c).x)
        (further (count nodes) b (cut (count nodes) a b c).z) mid (cut (count nodes) a b c).z (cut (count nodes) a b c).y) ∧
      s2 = ofOutline dist k (blockOutline nodes c (further (count nodes) b (cut (count nodes) a b c).z)
        (further (count nodes) c (cut (count nodes) a b c).y) mid (cut (count nodes) a b c).y (cut (count nodes) a b c).x) ∧
      fromTriangle dist nodes a b c = .ok (if s0.finite ∧ s1.finite ∧ s2.finite then
        some { rows := (cut (count nodes) a b c).x + (cut (count nodes) a b c).z + 1,
               cols := (cut (count nodes) a b c).y + (cut (count nodes) a b c).z + 1,
               cell := assemble (cut (count nodes) a b c).x (cut (count nodes) a b c).y (cut (count nodes) a b c).z
                (s0.sweeps numIterations) (s1.sweeps numIterations) (s2.sweeps numIterations) } else none) := by
  have hs := h.size
  have hf := h.fits
  have hcn : count nodes = nodes.length - 1 := rfl
  have hn : count nodes < 2 ^ 30 := by omega
  obtain ⟨ha, hB, hC, ab, bc, ac⟩ := hp
  obtain ⟨e1, e2, e3⟩ := cut_eq hn ha hB hC ab bc ac ho
  obtain ⟨q1, q2, q3⟩ := hb
  have hx : (cut (count nodes) a b c).x = count nodes / 2 - steps (count nodes) c a := rfl
  have hy : (cut (count nodes) a b c).y = count nodes / 2 - steps (count nodes) b c := rfl
  have hz : (cut (count nodes) a b c).z = count nodes / 2 - steps (count nodes) a b := rfl
  have fA := (further_eq (a := a) (k := (cut (count nodes) a b c).x) hn ha (by omega)).1
  have fB := (further_eq (a := b) (k := (cut (count nodes) a b c).z) hn hB (by omega)).1
  have fC := (further_eq (a := c) (k := (cut (count nodes) a b c).y) hn hC (by omega)).1
  have hmid : ∃ mid, centre nodes (count nodes) a b c = .ok mid := by
    unfold centre
    rw [vget_pt (by omega), vget_pt (by omega), vget_pt (by omega)]
    exact ⟨_, rfl⟩
  obtain ⟨mid, hmid⟩ := hmid
  refine ⟨mid, max (max (cut (count nodes) a b c).x (cut (count nodes) a b c).y) (cut (count nodes) a b c).z + 1,
    _, _, _, hmid, rfl, rfl, rfl, ?_⟩
  unfold fromTriangle
  simp only
  rw [← hcn, if_neg (by omega), if_neg (by tauto), if_neg (by
    rw [accepted_iff hn ha hB hC ab bc ac]; simp only [not_not]; exact ⟨ho, q1, q2, q3⟩), e1, e2, e3, hmid, Res.ok_bind,
    block_eq dist h _ mid _ _ ha fC fA, Res.ok_bind, block_eq dist h _ mid _ _ hB fA fB, Res.ok_bind,
    block_eq dist h _ mid _ _ hC fB fC, Res.ok_bind]
  generalize ofOutline dist _ (blockOutline nodes a _ _ _ _ _) = s0
  generalize ofOutline dist _ (blockOutline nodes b _ _ _ _ _) = s1
  generalize ofOutline dist _ (blockOutline nodes c _ _ _ _ _) = s2
  have hr : ¬ ((cut (count nodes) a b c).x + (cut (count nodes) a b c).z + 1 ≤ 1 ∨
      (cut (count nodes) a b c).y + (cut (count nodes) a b c).z + 1 ≤ 1) := by omega
  cases h0 : s0.finite
  · simp only [Bool.false_eq_true, if_false, false_and, gridOfMaybe, if_neg hr]
  · cases h1 : s1.finite
    · simp only [Bool.false_eq_true, if_false, if_true, false_and, and_false, gridOfMaybe, if_neg hr]
    · cases h2 : s2.finite
      · simp only [Bool.false_eq_true, if_false, if_true, and_false, gridOfMaybe, if_neg hr]
      · simp only [if_true, and_self, gridOfMaybe, gridOf, setGridNodes, if_neg hr]
        rfl

/-- The three blocks fit when the number of nodes is even. -/
theorem fromTriangle_grid [CharZero K] (dist : Pt K → Pt K → K) {nodes : List (Pt K)} (h : Closed nodes) {a b c : Nat}
    (hp : Picked nodes a b c) (hev : count nodes % 2 = 0) {g : Grid (Pt K)} (hg : fromTriangle dist nodes a b c = .ok (some g)) :
    ∃ mid, centre nodes (count nodes) a b c = .ok mid ∧ TriGrid nodes a b c mid (cut (count nodes) a b c) g := by
  have hs := h.size
  have hf := h.fits
  have hcn : count nodes = nodes.length - 1 := rfl
  have hn : count nodes < 2 ^ 30 := by omega
  have hp' := hp
  obtain ⟨ha, hB, hC, ab, bc, ac⟩ := hp'
  have hacc : InOrder (count nodes) a b c ∧ Balanced (count nodes) a b c := by
    by_contra hno
    unfold fromTriangle at hg
    simp only at hg
    rw [← hcn, if_neg (by omega), if_neg (by tauto), if_pos ((accepted_iff hn ha hB hC ab bc ac).2 hno)] at hg
    exact absurd hg (by simp)
  obtain ⟨ho, hb⟩ := hacc
  obtain ⟨mid, k, s0, s1, s2, hmid, h0, h1, h2, hrun⟩ := fromTriangle_eq dist h hp ho hb
  refine ⟨mid, hmid, ?_⟩
  rw [hrun] at hg
  have hx : (cut (count nodes) a b c).x = count nodes / 2 - steps (count nodes) c a := rfl
  have hy : (cut (count nodes) a b c).y = count nodes / 2 - steps (count nodes) b c := rfl
  have hz : (cut (count nodes) a b c).z = count nodes / 2 - steps (count nodes) a b := rfl
  generalize cut (count nodes) a b c = w at *
  obtain ⟨x, y, z⟩ := w
  simp only at hx hy hz h0 h1 h2 hrun hg
  obtain ⟨q1, q2, q3⟩ := hb
  unfold InOrder at ho
  have hX : 0 < x := by omega
  have hY : 0 < y := by omega
  have hZ : 0 < z := by omega
  obtain ⟨fA, gA⟩ := further_eq (a := a) (k := x) hn ha (by omega)
  obtain ⟨fB, gB⟩ := further_eq (a := b) (k := z) hn hB (by omega)
  obtain ⟨fC, gC⟩ := further_eq (a := c) (k := y) hn hC (by omega)
  have B0 := filled_borders dist k _ (block_meets h (left := further (count nodes) c y) mid hX hZ fA gA)
  have B1 := filled_borders dist k _ (block_meets h (left := further (count nodes) a x) mid hZ hY fB gB)
  have B2 := filled_borders dist k _ (block_meets h (left := further (count nodes) b z) mid hY hX fC gC)
  rw [← h0] at B0
  rw [← h1] at B1
  rw [← h2] at B2
  have pA : pt nodes (further (count nodes) a x) = node nodes (a + x) := by
    rw [node_of_le h fA.le]; exact node_of_emod gA
  have pB : pt nodes (further (count nodes) b z) = node nodes (b + z) := by
    rw [node_of_le h fB.le]; exact node_of_emod gB
  have pC : pt nodes (further (count nodes) c y) = node nodes (c + y) := by
    rw [node_of_le h fC.le]; exact node_of_emod gC
  have eAB : ((a : Int) + (x + y)) % count nodes = b := by
    have e := steps_of ha hB
    have : ((x : Int) + y) = steps (count nodes) a b := by omega
    rw [this, e]
    split
    · rw [← Int.sub_emod_right, Int.emod_eq_of_lt (by omega) (by omega)]; omega
    · rw [Int.emod_eq_of_lt (by omega) (by omega)]; omega
  have eBC : ((b : Int) + (x + z)) % count nodes = c := by
    have e := steps_of hB hC
    have : ((x : Int) + z) = steps (count nodes) b c := by omega
    rw [this, e]
    split
    · rw [← Int.sub_emod_right, Int.emod_eq_of_lt (by omega) (by omega)]; omega
    · rw [Int.emod_eq_of_lt (by omega) (by omega)]; omega
  have eCA : ((c : Int) + (y + z)) % count nodes = a := by
    have e := steps_of hC ha
    have : ((y : Int) + z) = steps (count nodes) c a := by omega
    rw [this, e]
    split
    · rw [← Int.sub_emod_right, Int.emod_eq_of_lt (by omega) (by omega)]; omega
    · rw [Int.emod_eq_of_lt (by omega) (by omega)]; omega
  have back : ∀ (p q : Nat) (l j : Int), ((p : Int) + l) % count nodes = q → node nodes (q - j) = node nodes (p + (l - j)) := by
    intro p q l j hh
    apply node_of_emod
    rw [← hh, Int.emod_sub_emod]
    congr 1; ring
  split at hg
  swap
  · simp at hg
  · rename_i hfin
    have hg' : g = _ := (Option.some.inj (Res.ok.inj hg)).symm
    subst hg'
    have c0 : ∀ i j, s0.sweeps numIterations i j = (filled s0).cell i j := fun _ _ => rfl
    have c1 : ∀ i j, s1.sweeps numIterations i j = (filled s1).cell i j := fun _ _ => rfl
    have c2 : ∀ i j, s2.sweeps numIterations i j = (filled s2).cell i j := fun _ _ => rfl
    have l0 : ∀ m ≤ z, (filled s0).cell 0 m = node nodes (c + ((y + z : Nat) - m)) := by
      intro m hm
      rw [B0.left m hm]
      refine (back c a (y + z) m eCA).trans ?_
      push_cast; rfl
    have b0 : ∀ n ≤ x, (filled s0).cell n 0 = node nodes (a + n) := fun n hn => B0.bottom n hn
    have r0 : ∀ m ≤ z, (filled s0).cell x m = between (node nodes (a + x)) mid z m := by
      intro m hm; rw [← pA]; exact B0.right m hm
    have l1 : ∀ m ≤ y, (filled s1).cell 0 m = node nodes (a + (x + y - m)) := by
      intro m hm
      rw [B1.left m hm]
      exact back a b (x + y) m eAB
    have b1 : ∀ n ≤ z, (filled s1).cell n 0 = node nodes (b + n) := fun n hn => B1.bottom n hn
    have u1 : ∀ n, 1 ≤ n → n ≤ z → (filled s1).cell n y = between (node nodes (a + x)) mid z n := by
      intro n h1 hn; rw [← pA]; exact B1.upper n h1 hn
    have l2 : ∀ m ≤ x, (filled s2).cell 0 m = node nodes (b + (x + z - m)) := by
      intro m hm
      rw [B2.left m hm]
      exact back b c (x + z) m eBC
    have b2 : ∀ n ≤ y, (filled s2).cell n 0 = node nodes (c + n) := fun n hn => B2.bottom n hn
    have r2 : ∀ m ≤ x, (filled s2).cell y m = between (node nodes (c + y)) mid x m := by
      intro m hm; rw [← pC]; exact B2.right m hm
    have u2 : ∀ n, 1 ≤ n → n ≤ y → (filled s2).cell n x = between (node nodes (b + z)) mid y n := by
      intro n h1 hn; rw [← pB]; exact B2.upper n h1 hn
    refine ⟨rfl, rfl, ⟨rfl, rfl, rfl, rfl⟩, ?_, ?_, ?_, ?_, ?_, ?_, ?_, ?_, ?_⟩
    · intro i hi
      simp only at hi
      simp only [assemble]
      rw [if_neg (by omega), if_neg (by omega), if_pos (by omega), c0, b0 i hi]
    · intro j hj
      simp only at hj
      simp only [assemble]
      rw [if_neg (by omega), if_pos (by omega), c1, show x + z - (x + z) = 0 by omega, show y + z - (z + j) = y - j by omega,
        l1 (y - j) (by omega)]
      congr 1; omega
    · intro i hi
      simp only at hi
      simp only [assemble]
      by_cases hh : x + z - i ≤ x
      · rw [if_pos (by omega), c2, show y + z - (y + z) = 0 by omega, l2 _ (by omega)]
        congr 1; omega
      · rw [if_neg (by omega), if_pos (by omega), c1, show y + z - (y + z) = 0 by omega,
          show x + z - (x + z - i) = i by omega, b1 i (by omega)]
    · intro j hj
      simp only at hj
      simp only [assemble]
      by_cases hh : z ≤ y + z - j
      · rw [if_pos (by omega), c2, show y + z - (y + z - j) = j by omega, b2 j (by omega)]
      · rw [if_neg (by omega), if_neg (by omega), if_pos (by omega), c0, l0 _ (by omega)]
        congr 1; omega
    · intro j hj
      simp only at hj
      simp only [assemble]
      by_cases hh : z ≤ j
      · have : j = z := by omega
        subst this
        rw [if_pos (by omega), c2, show y + j - j = y by omega, r2 x (le_refl _), between_full _ _ hX, between_full _ _ hZ]
      · rw [if_neg (by omega), if_neg (by omega), if_pos (by omega), c0, r0 j hj]
    · intro j hj
      simp only at hj
      simp only [assemble]
      by_cases hh : x + z - j ≤ x
      · have : j = z := by omega
        subst this
        rw [if_pos (by omega), c2, show y + j - j = y by omega, show x + j - j = x by omega, r2 x (le_refl _),
          between_full _ _ hX, between_full _ _ hZ]
      · rw [if_neg (by omega), if_pos (by omega), c1, show y + z - z = y by omega, show x + z - (x + z - j) = j by omega]
        rcases Nat.eq_zero_or_pos j with rfl | hj0
        · rw [l1 y (le_refl _), between_zero]
          congr 1; push_cast; ring
        · exact u1 j hj0 hj
    · intro j hj
      simp only at hj
      simp only [assemble]
      rw [if_pos (by omega), c2, show y + z - (y + z - j) = j by omega]
      rcases Nat.eq_zero_or_pos j with rfl | hj0
      · rw [l2 x (le_refl _), between_zero]
        congr 1; ring
      · exact u2 j hj0 hj
    · intro i hi
      simp only at hi
      simp only [assemble]
      rw [if_pos (by omega), c2, show y + z - z = y by omega, r2 i hi]
    · intro i j hi hj
      simp only at hi hj
      simp only [assemble]
      rw [if_neg (by omega), if_neg (by omega), if_neg (by omega)]

end Verif.Transfinite
