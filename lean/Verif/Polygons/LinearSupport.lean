import Verif.Polygons.LinearLemmas
import Verif.Polygons.RefineProps
/-!
# C41: linear refinement of a polygon

`SampledAt` and `AtLength` (with `lengthTo`, `Rising` and `SidesPositive`) are the specification: the new nodes are points
of the old polyline at increasing lengths from its start to its end.
-/
namespace Verif.Polygons

/-! ## The specification says what it should -/

theorem lengthTo_strict {dist : Pt → Pt → ℚ} {nodes : List Pt} (hs : SidesPositive dist nodes) {i j : Nat} (hij : i < j)
    (hj : j < nodes.length) : lengthTo dist nodes i < lengthTo dist nodes j := by
  have hr := (cumulate_sorted dist 0 nodes hs).1
  have hl := cumulate_length dist 0 nodes
  have hp := List.pairwise_iff_getElem.1 hr i j (by omega) (by omega) hij
  have e1 := cumulate_get dist 0 nodes i (by omega)
  have e2 := cumulate_get dist 0 nodes j (by omega)
  rw [List.getElem?_eq_getElem (by omega)] at e1 e2
  rw [Option.some.inj e1, Option.some.inj e2] at hp
  linarith

theorem pointAt_zero (a b : Pt) : pointAt a b 0 = a := by simp [pointAt]

theorem pointAt_one (a b : Pt) : pointAt a b 1 = b := by simp [pointAt]

theorem side_pos {dist : Pt → Pt → ℚ} {nodes : List Pt} (hs : SidesPositive dist nodes) {i : Nat} {a b : Pt}
    (ha : nodes[i]? = some a) (hb : nodes[i + 1]? = some b) : 0 < dist b a := by
  have h1 := side_length dist nodes i ha hb
  have h2 := lengthTo_strict hs (Nat.lt_succ_self i) (List.getElem?_eq_some_iff.1 hb).1
  simp only [Nat.succ_eq_add_one] at h2
  linarith

/-- The point at the length of a node is the node. -/
theorem atLength_node {dist : Pt → Pt → ℚ} {nodes : List Pt} (hs : SidesPositive dist nodes) {i : Nat} {p : Pt}
    (hi : i < nodes.length) (h : AtLength dist nodes (lengthTo dist nodes i) p) : nodes[i]? = some p := by
  obtain ⟨k, a, b, t, ha, hb, h0, h1, rfl, heq⟩ := h
  have hpos := side_pos hs ha hb
  have hside := side_length dist nodes k ha hb
  have hk := (List.getElem?_eq_some_iff.1 hb).1
  rcases Nat.lt_trichotomy i k with hlt | hlt | hlt
  · have := lengthTo_strict hs hlt (by omega)
    have : 0 ≤ t * dist b a := by positivity
    linarith
  · subst hlt
    have ht : t * dist b a = 0 := by linarith
    have : t = 0 := by
      rcases mul_eq_zero.1 ht with h | h
      · exact h
      · linarith
    rw [this, pointAt_zero]
    exact ha
  · rcases Nat.lt_or_eq_of_le (Nat.succ_le_of_lt hlt) with hlt2 | heq2
    · have := lengthTo_strict hs hlt2 hi
      have h3 : t * dist b a ≤ 1 * dist b a := mul_le_mul_of_nonneg_right h1 (le_of_lt hpos)
      simp only [Nat.succ_eq_add_one] at this
      linarith
    · obtain rfl : i = k + 1 := heq2.symm
      have ht : (t - 1) * dist b a = 0 := by linarith
      have : t = 1 := by
        rcases mul_eq_zero.1 ht with h | h
        · linarith
        · linarith
      rw [this, pointAt_one]
      exact hb

theorem lengthTo_zero (dist : Pt → Pt → ℚ) (nodes : List Pt) : lengthTo dist nodes 0 = 0 := by
  cases nodes with
  | nil => rfl
  | cons a t => cases t <;> rfl

/-- A sampling has at least two nodes and begins and ends where the polyline does. -/
theorem sampled_ends {dist : Pt → Pt → ℚ} {nodes g : List Pt} (hs : SidesPositive dist nodes) (h2 : 2 ≤ nodes.length)
    (h : SampledAt dist nodes g) : 2 ≤ g.length ∧ g[0]? = nodes[0]? ∧ g[g.length - 1]? = nodes[nodes.length - 1]? := by
  obtain ⟨ds, hr, hf⟩ := h
  have hl := hf.length_eq
  have htwo := hr.two
  have get : ∀ (k : Nat) d, ds[k]? = some d → ∃ p, g[k]? = some p ∧ AtLength dist nodes d p := by
    intro k d hk
    obtain ⟨hlt, rfl⟩ := List.getElem?_eq_some_iff.1 hk
    have hlt' : k < g.length := by omega
    exact ⟨g[k], List.getElem?_eq_getElem hlt', hf.get hlt hlt'⟩
  refine ⟨by omega, ?_, ?_⟩
  · obtain ⟨p, hp, hat⟩ := get 0 0 hr.first
    rw [hp, atLength_node hs (i := 0) (by omega) (by rw [lengthTo_zero]; exact hat)]
  · obtain ⟨p, hp, hat⟩ := get _ _ hr.last
    rw [← hl, hp, atLength_node hs (i := nodes.length - 1) (by omega) hat]

/-! ## The theorems -/

theorem averages_ends {cum : List ℚ} (h : 2 ≤ cum.length) {act : List ℚ} (ha : averages cum = .ok act) :
    act[0]? = some (cum[1] - cum[0]) ∧ act[act.length - 1]? = some (cum[cum.length - 1] - cum[cum.length - 2]) := by
  unfold averages at ha
  rw [vget_ok (by omega), Res.ok_bind, vget_ok (by omega), Res.ok_bind, vget_ok (by omega), Res.ok_bind,
    vget_ok (by omega), Res.ok_bind] at ha
  obtain rfl := Res.ok.inj ha
  refine ⟨by simp, ?_⟩
  rw [← List.getLast?_eq_getElem?, List.getLast?_append]
  simp

theorem resample_outcome {dist : Pt → Pt → ℚ} {nodes : List Pt} (hs : SidesPositive dist nodes)
    (h2 : 2 ≤ nodes.length) : ∃ r, resample dist nodes = .ok r ∧ Outcome dist nodes r := by
  have hr := cumulate_rising hs h2
  have hl := cumulate_length dist 0 nodes
  obtain ⟨act, hact, hactl⟩ := averages_ok hr.two
  obtain ⟨e1, e2⟩ := averages_ends hr.two hact
  have hp1 := List.pairwise_iff_getElem.1 hr.sorted 0 1 (by omega) (by omega) (by omega)
  have hp2 := List.pairwise_iff_getElem.1 hr.sorted ((cumulate dist 0 nodes).length - 2)
    ((cumulate dist 0 nodes).length - 1) (by omega) (by omega) (by omega)
  unfold resample
  simp only [hact, Res.ok_bind, vget_eq_ok.2 e1, vget_eq_ok.2 e2, vget_eq_ok.2 hr.last]
  obtain ⟨t, ht, ho⟩ := outerLoop_ok (total := lengthTo dist nodes (nodes.length - 1)) hs h2
    (sub_pos.2 hp1) (sub_pos.2 hp2) nodes.length
    (s := ⟨cumulate dist 0 nodes, act, List.replicate nodes.length 0, List.replicate nodes.length missingPt⟩) hr
    (Or.inl (by omega))
  rw [ht, Res.ok_bind]
  exact ⟨t.result, rfl, ho⟩

/-! ### Ranges with equal end sides -/

/-- Arithmetic progression with `k` terms. -/
def arith (a d : ℚ) : Nat → List ℚ
  | 0 => []
  | k + 1 => a :: arith (a + d) d k

theorem arith_length (a d : ℚ) (k : Nat) : (arith a d k).length = k := by
  induction k generalizing a with
  | zero => rfl
  | succ k ih => simp [arith, ih]

theorem arith_get (a d : ℚ) (k i : Nat) (h : i < k) : (arith a d k)[i]? = some (a + i * d) := by
  induction k generalizing a i with
  | zero => omega
  | succ k ih =>
    cases i with
    | zero => simp [arith]
    | succ i =>
      simp only [arith, List.getElem?_cons_succ]
      rw [ih _ i (by omega)]
      congr 1
      push_cast
      ring

theorem averageInner_arith (a d : ℚ) (k : Nat) : averageInner (arith a d k) = List.replicate (k - 2) d := by
  induction k generalizing a with
  | zero => rfl
  | succ k ih =>
    match k, ih with
    | 0, _ => rfl
    | 1, _ => rfl
    | k + 2, ih =>
      have := ih (a + d)
      simp only [arith, averageInner] at *
      rw [this]
      have e : 1 / 2 * (a + d + d - a) = d := by ring
      rw [e]
      rfl

theorem averages_arith (a d : ℚ) (k : Nat) : averages (arith a d (k + 2)) = .ok (List.replicate (k + 2) d) := by
  unfold averages
  rw [arith_length, vget_eq_ok.2 (arith_get a d (k + 2) 0 (by omega)), Res.ok_bind,
    vget_eq_ok.2 (arith_get a d (k + 2) 1 (by omega)), Res.ok_bind,
    vget_eq_ok.2 (arith_get a d (k + 2) (k + 2 - 2) (by omega)), Res.ok_bind,
    vget_eq_ok.2 (arith_get a d (k + 2) (k + 2 - 1) (by omega)), Res.ok_bind, averageInner_arith]
  congr 1
  have e1 : a + ((1 : Nat) : ℚ) * d - (a + ((0 : Nat) : ℚ) * d) = d := by push_cast; ring
  have e2 : a + ((k + 2 - 1 : Nat) : ℚ) * d - (a + ((k + 2 - 2 : Nat) : ℚ) * d) = d := by
    have : k + 2 - 1 = k + 2 - 2 + 1 := by omega
    rw [this]
    push_cast
    ring
  rw [e1, e2]
  have : k + 2 - 2 = k := by omega
  rw [this, show [d] = List.replicate 1 d from rfl, List.cons_append, List.replicate_append_replicate]
  rfl

theorem smoothLoop_replicate (c d acc : ℚ) (k : Nat) :
    smoothLoop d acc (List.replicate (k + 2) c) = arith ((acc + c) * d) (c * d) k := by
  induction k generalizing acc with
  | zero => rfl
  | succ k ih =>
    have h1 : List.replicate (k + 1 + 2) c = c :: c :: c :: List.replicate k c := rfl
    have h2 := ih (acc + 1 / 2 * (c + c))
    have h3 : List.replicate (k + 2) c = c :: c :: List.replicate k c := rfl
    rw [h3] at h2
    rw [h1]
    simp only [smoothLoop, h2, arith]
    have e1 : acc + 1 / 2 * (c + c) = acc + c := by ring
    have e2 : (acc + c + c) * d = (acc + c) * d + c * d := by ring
    rw [e1, e2]

theorem arith_snoc (a d : ℚ) (k : Nat) : arith a d k ++ [a + k * d] = arith a d (k + 1) := by
  induction k generalizing a with
  | zero => simp [arith]
  | succ k ih =>
    have := ih (a + d)
    have e : a + ((k + 1 : Nat) : ℚ) * d = a + d + k * d := by push_cast; ring
    rw [e]
    simp only [arith, List.cons_append] at *
    rw [this]

theorem trapezoid_replicate (c : ℚ) (k : Nat) : trapezoid (List.replicate (k + 1) c) = k * c := by
  induction k with
  | zero => simp [trapezoid]
  | succ k ih =>
    have h1 : List.replicate (k + 1 + 1) c = c :: c :: List.replicate k c := rfl
    have h2 : List.replicate (k + 1) c = c :: List.replicate k c := rfl
    rw [h2] at ih
    rw [h1]
    simp only [trapezoid, ih]
    push_cast
    ring

/-- The distances of `m` equal pieces. -/
def pieces (total : ℚ) (m : Nat) : List ℚ := arith 0 (total / m) (m + 1)

theorem smoothCumulative_equal {total : ℚ} {cum : List ℚ} (hc : Rising total cum) {m : Nat} (hm : 1 ≤ m)
    (hl : cum.length = m + 1) {c : ℚ} (hpos : 0 < c) :
    smoothCumulative (List.replicate (m + 1) c) cum = .ok (pieces total m) := by
  obtain ⟨k, rfl⟩ : ∃ k, m = k + 1 := ⟨m - 1, by omega⟩
  unfold smoothCumulative
  rw [target_eq (by simp), Res.ok_bind, vget_eq_ok.2 hc.first, Res.ok_bind, vget_eq_ok.2 hc.last, Res.ok_bind,
    trapezoid_replicate]
  have hk : (0 : ℚ) < ((k + 1 : Nat) : ℚ) := by positivity
  rw [if_neg (by positivity)]
  congr 1
  have hd : c * (total / (((k + 1 : Nat) : ℚ) * c)) = total / ((k + 1 : Nat) : ℚ) := by
    field_simp
  rw [smoothLoop_replicate, zero_add, hd]
  unfold pieces
  have h := arith_snoc (total / ((k + 1 : Nat) : ℚ)) (total / ((k + 1 : Nat) : ℚ)) k
  have e : total / ((k + 1 : Nat) : ℚ) + (k : ℚ) * (total / ((k + 1 : Nat) : ℚ)) = total := by
    have hk' : ((k + 1 : Nat) : ℚ) ≠ 0 := by positivity
    field_simp
    push_cast
    ring
  rw [e] at h
  rw [List.cons_append, h]
  simp only [arith, zero_add]

theorem smoothAverages_equal {total : ℚ} {cum : List ℚ} (hc : Rising total cum) {m : Nat} (hl : cum.length = m + 1)
    (c : ℚ) : smoothAverages cum c c = .ok (List.replicate (m + 1) c) := by
  have htot := hc.total_pos
  unfold smoothAverages
  rw [vget_eq_ok.2 hc.last, Res.ok_bind, if_neg (by linarith)]
  congr 1
  rw [List.eq_replicate_iff]
  refine ⟨by simpa using hl, ?_⟩
  intro b hb
  obtain ⟨x, -, rfl⟩ := List.mem_map.1 hb
  ring

theorem pieces_rising {total : ℚ} (ht : 0 < total) {m : Nat} (hm : 1 ≤ m) : Rising total (pieces total m) := by
  have hm' : (0 : ℚ) < m := by exact_mod_cast hm
  have hl : (pieces total m).length = m + 1 := arith_length _ _ _
  refine ⟨by omega, ?_, ?_, ?_⟩
  · unfold pieces; rw [arith_get _ _ _ _ (by omega)]; simp
  · rw [hl]
    unfold pieces
    rw [arith_get _ _ _ _ (by omega)]
    simp only [Nat.add_sub_cancel, zero_add]
    congr 1
    field_simp
  · have hd : 0 < total / (m : ℚ) := by positivity
    have : ∀ (k : Nat) (a : ℚ), (arith a (total / m) k).Pairwise (· < ·) ∧ ∀ x ∈ arith a (total / m) k, a ≤ x := by
      intro k
      induction k with
      | zero => intro a; simp [arith]
      | succ k ih =>
        intro a
        obtain ⟨h1, h2⟩ := ih (a + total / m)
        simp only [arith]
        refine ⟨List.pairwise_cons.2 ⟨fun x hx => ?_, h1⟩, ?_⟩
        · have := h2 x hx; linarith
        · intro x hx
          rcases List.mem_cons.1 hx with rfl | hx
          · exact le_refl _
          · have := h2 x hx; linarith
    exact (this _ _).1

/-- After the inner loop the distances are those of equal pieces. -/
theorem innerLoop_equal {dist : Pt → Pt → ℚ} {nodes : List Pt} (hs : SidesPositive dist nodes) (h2 : 2 ≤ nodes.length)
    {c : ℚ} (hc : 0 < c) {m : Nat} (hm : 1 ≤ m) (k : Nat) {s : LinState}
    (hr : Rising (lengthTo dist nodes (nodes.length - 1)) s.cum) (hl : s.cum.length = m + 1) :
    ∃ t, innerLoop nodes (cumulate dist 0 nodes) c c (k + 2) s = .ok t ∧
      t.cum = pieces (lengthTo dist nodes (nodes.length - 1)) m ∧ t.avg = List.replicate (m + 1) c ∧
      t.act = List.replicate (m + 1) (lengthTo dist nodes (nodes.length - 1) / m) ∧
      List.Forall₂ (AtLength dist nodes) (pieces (lengthTo dist nodes (nodes.length - 1)) m) t.result := by
  have htot := hr.total_pos
  have step : ∀ s : LinState, Rising (lengthTo dist nodes (nodes.length - 1)) s.cum → s.cum.length = m + 1 →
      ∃ t, innerStep nodes (cumulate dist 0 nodes) c c s = .ok t ∧
        t.cum = pieces (lengthTo dist nodes (nodes.length - 1)) m ∧ t.avg = List.replicate (m + 1) c ∧
        averages s.cum = .ok t.act ∧ List.Forall₂ (AtLength dist nodes) s.cum t.result := by
    intro s hr hl
    obtain ⟨ps, hps, hpsa⟩ := sampleAll_ok hs h2 s.cum hr.bounds
    obtain ⟨act, hact, hactl⟩ := averages_ok hr.two
    unfold innerStep
    rw [hps, Res.ok_bind, hact, Res.ok_bind, smoothAverages_equal hr hl, Res.ok_bind,
      smoothCumulative_equal hr hm hl hc, Res.ok_bind]
    exact ⟨_, rfl, rfl, rfl, rfl, hpsa⟩
  have hp := pieces_rising htot hm
  have hpl : (pieces (lengthTo dist nodes (nodes.length - 1)) m).length = m + 1 := arith_length _ _ _
  induction k generalizing s with
  | zero =>
    obtain ⟨t1, ht1, hc1, -⟩ := step s hr hl
    obtain ⟨t2, ht2, hc2, ha2, hact2, hf2⟩ := step t1 (by rw [hc1]; exact hp) (by rw [hc1]; exact hpl)
    refine ⟨t2, ?_, hc2, ha2, ?_, by rw [hc1] at hf2; exact hf2⟩
    · rw [innerLoop, ht1, Res.ok_bind, innerLoop, ht2, Res.ok_bind, innerLoop]
    · obtain ⟨k, rfl⟩ : ∃ k, m = k + 1 := ⟨m - 1, by omega⟩
      rw [hc1] at hact2
      unfold pieces at hact2
      rw [averages_arith] at hact2
      exact (Res.ok.inj hact2).symm
  | succ k ih =>
    obtain ⟨t1, ht1, hc1, -⟩ := step s hr hl
    rw [innerLoop, ht1, Res.ok_bind]
    exact ih (by rw [hc1]; exact hp) (by rw [hc1]; exact hpl)

theorem ratios_equal_rest (a v : ℚ) (hv : v ≠ 0) (k i : Nat) :
    ratios (List.replicate k a) (List.replicate k v) (i + 2) (some (a / v, 1)) (some (a / v, 0)) =
      .ok (some (a / v, 1), some (a / v, 0)) := by
  induction k generalizing i with
  | zero => rfl
  | succ k ih =>
    cases k with
    | zero => rfl
    | succ k =>
      have h1 : ∀ x : ℚ, List.replicate (k + 1 + 1) x = x :: x :: List.replicate k x := fun _ => rfl
      have h2 := ih (i + 1)
      have h3 : ∀ x : ℚ, List.replicate (k + 1) x = x :: List.replicate k x := fun _ => rfl
      rw [h3, h3] at h2
      rw [h1, h1]
      simp only [ratios, hv, if_false, Option.all_some, lt_irrefl, decide_false, Bool.false_eq_true, and_false]
      exact h2

theorem ratios_equal (a v : ℚ) (hv : v ≠ 0) {m : Nat} (hm : 1 ≤ m) :
    ratios (List.replicate (m + 1) a) (List.replicate (m + 1) v) 0 none none =
      .ok (if 2 ≤ m then some (a / v, 1) else none, some (a / v, 0)) := by
  match m, hm with
  | 1, _ =>
    have h1 : ∀ x : ℚ, List.replicate (1 + 1) x = [x, x] := fun _ => rfl
    rw [h1, h1]
    simp [ratios, hv]
  | k + 2, _ =>
    have h1 : ∀ x : ℚ, List.replicate (k + 2 + 1) x = x :: x :: List.replicate (k + 1) x := fun _ => rfl
    have h3 : ∀ x : ℚ, List.replicate (k + 1) x = x :: List.replicate k x := fun _ => rfl
    have := ratios_equal_rest a v hv (k + 1) 0
    rw [h3, h3] at this
    rw [h1, h1, h3, h3]
    simp only [ratios, hv, if_false, Option.all_none, Option.all_some, lt_irrefl, decide_false, Bool.false_eq_true,
      and_true, if_true, Nat.zero_add, Nat.zero_lt_one]
    rw [if_pos (by omega)]
    exact this

/-- One round of the outer loop for equal end sides. -/
theorem outerStep_equal {dist : Pt → Pt → ℚ} {nodes : List Pt} (hs : SidesPositive dist nodes) (h2 : 2 ≤ nodes.length)
    {c : ℚ} (hc : 0 < c) {m : Nat} (hm : 1 ≤ m) {s : LinState} {L : ℚ} (hL : L = lengthTo dist nodes (nodes.length - 1))
    (hr : Rising L s.cum) (hl : s.cum.length = m + 1) :
    ∃ t stop, outerStep nodes (cumulate dist 0 nodes) c c L s = .ok (t, stop) ∧ Rising L t.cum ∧
      ((2 ≤ m ∧ L < m * c - 3 / 2 * c ∧ stop = false ∧ t.cum.length = m) ∨
       (¬ (2 ≤ m ∧ L < m * c - 3 / 2 * c) ∧ m * c + 1 / 2 * (L / m) < L ∧ stop = false ∧ t.cum.length = m + 1 + 1 ∧
         missingPt ∈ t.result) ∨
       (¬ (2 ≤ m ∧ L < m * c - 3 / 2 * c) ∧ ¬ m * c + 1 / 2 * (L / m) < L ∧ stop = true ∧
         List.Forall₂ (AtLength dist nodes) (pieces L m) t.result)) := by
  subst hL
  obtain ⟨s1, hs1, hcum, havg, hact, hf⟩ := innerLoop_equal hs h2 hc hm 18 hr hl
  have hp := pieces_rising hr.total_pos hm
  have hpl : (pieces (lengthTo dist nodes (nodes.length - 1)) m).length = m + 1 := arith_length _ _ _
  unfold outerStep
  rw [hs1, Res.ok_bind, havg, target_eq (by simp), Res.ok_bind, hact, trapezoid_replicate,
    ratios_equal _ _ (by linarith) hm, Res.ok_bind]
  have hins : ¬ (2 ≤ m ∧ lengthTo dist nodes (nodes.length - 1) < m * c - 3 / 2 * c) →
      ∃ t stop, insertOrStop (lengthTo dist nodes (nodes.length - 1)) (m * c) s1
        (some (lengthTo dist nodes (nodes.length - 1) / m / c, 0)) = .ok (t, stop) ∧
      Rising (lengthTo dist nodes (nodes.length - 1)) t.cum ∧
      ((2 ≤ m ∧ lengthTo dist nodes (nodes.length - 1) < m * c - 3 / 2 * c ∧ stop = false ∧ t.cum.length = m) ∨
       (¬ (2 ≤ m ∧ lengthTo dist nodes (nodes.length - 1) < m * c - 3 / 2 * c) ∧
         m * c + 1 / 2 * (lengthTo dist nodes (nodes.length - 1) / m) < lengthTo dist nodes (nodes.length - 1) ∧
         stop = false ∧ t.cum.length = m + 1 + 1 ∧ missingPt ∈ t.result) ∨
       (¬ (2 ≤ m ∧ lengthTo dist nodes (nodes.length - 1) < m * c - 3 / 2 * c) ∧
         ¬ m * c + 1 / 2 * (lengthTo dist nodes (nodes.length - 1) / m) < lengthTo dist nodes (nodes.length - 1) ∧
         stop = true ∧
         List.Forall₂ (AtLength dist nodes) (pieces (lengthTo dist nodes (nodes.length - 1)) m) t.result)) := by
    intro hno
    simp only [insertOrStop]
    have hget : vget s1.act 0 = .ok (lengthTo dist nodes (nodes.length - 1) / m) := by
      rw [hact, vget_eq_ok]
      simp
    rw [hget, Res.ok_bind]
    split
    · rename_i hlt
      unfold insertNode
      rw [hcum, vget_ok (by omega), Res.ok_bind, vget_ok (by omega), Res.ok_bind, Res.ok_bind]
      refine ⟨_, _, rfl, hp.insert (by omega), Or.inr (Or.inl ⟨hno, hlt, rfl, ?_, by simp⟩)⟩
      rw [List.length_insertIdx, if_pos (by omega)]
      omega
    · rename_i hlt
      exact ⟨_, _, rfl, by rw [hcum]; exact hp, Or.inr (Or.inr ⟨hno, hlt, rfl, hf⟩)⟩
  by_cases h2m : 2 ≤ m
  · simp only [h2m, if_true, chooseStep]
    have hget : vget s1.avg 1 = .ok c := by
      rw [havg, vget_eq_ok, List.getElem?_replicate, if_pos (by omega)]
    rw [hget, Res.ok_bind]
    split
    · rename_i hlt
      refine ⟨_, _, rfl, ?_, Or.inl ⟨trivial, hlt, rfl, ?_⟩⟩
      · simp only [removeNode, hcum]
        exact hp.erase (by omega) (by omega)
      · simp only [removeNode, hcum]
        rw [List.length_eraseIdx, if_pos (by omega), hpl]
        omega
    · rename_i hlt
      have := hins (fun h => hlt h.2)
      simpa only [h2m, true_and] using this
  · simp only [h2m, if_false, chooseStep]
    have := hins (fun h => h2m h.1)
    simpa only [h2m, false_and, if_false] using this

/-- What the number of pieces satisfies when the loop stops: `m` pieces of the wanted length are at most one and a half pieces
too long and at most half a piece too short. -/
def FinalCount (L c : ℚ) (m : Nat) : Prop :=
  1 ≤ m ∧ (m = 1 ∨ m * c ≤ L + 3 / 2 * c) ∧ L ≤ m * c + 1 / 2 * (L / m)

theorem outerLoop_down {dist : Pt → Pt → ℚ} {nodes : List Pt} (hs : SidesPositive dist nodes) (h2 : 2 ≤ nodes.length)
    {c : ℚ} (hc : 0 < c) {L : ℚ} (hL : L = lengthTo dist nodes (nodes.length - 1)) (m : Nat) (hm : 1 ≤ m)
    (hmc : L < m * c - 1 / 2 * c) (k : Nat) (hk : m ≤ k) {s : LinState} (hr : Rising L s.cum)
    (hl : s.cum.length = m + 1) :
    ∃ t m', outerLoop nodes (cumulate dist 0 nodes) c c L k s = .ok t ∧ FinalCount L c m' ∧
      List.Forall₂ (AtLength dist nodes) (pieces L m') t.result := by
  induction m generalizing k s with
  | zero => omega
  | succ m ih =>
    obtain ⟨k, rfl⟩ : ∃ j, k = j + 1 := ⟨k - 1, by omega⟩
    obtain ⟨t, stop, ht, hrt, hor⟩ := outerStep_equal hs h2 hc hm hL hr hl
    have hLp : 0 < L := hr.total_pos
    have hmp : (0 : ℚ) < ((m + 1 : Nat) : ℚ) := by positivity
    simp only [outerLoop, ht, Res.ok_bind]
    rcases hor with ⟨h1, h2', rfl, h4⟩ | ⟨h1, h2', h3, -⟩ | ⟨h1, h2', rfl, h4⟩
    · simp only [Bool.false_eq_true, if_false]
      refine ih (by omega) ?_ k (by omega) hrt h4
      push_cast at h2'
      linarith
    · exfalso
      have : 0 < L / ((m + 1 : Nat) : ℚ) := by positivity
      linarith
    · simp only [if_true]
      refine ⟨t, m + 1, rfl, ⟨hm, ?_, not_lt.1 h2'⟩, h4⟩
      by_cases hm1 : m + 1 = 1
      · exact Or.inl hm1
      · right
        by_contra hlt
        exact h1 ⟨by omega, by linarith⟩

theorem outerLoop_up {dist : Pt → Pt → ℚ} {nodes : List Pt} (hs : SidesPositive dist nodes) (h2 : 2 ≤ nodes.length)
    {c : ℚ} (hc : 0 < c) {L : ℚ} (hL : L = lengthTo dist nodes (nodes.length - 1)) (k : Nat) (m : Nat) (hm : 1 ≤ m)
    (hmc : m * c ≤ L + 3 / 2 * c) (hk : L ≤ ((m + k : Nat) : ℚ) * c) {s : LinState} (hr : Rising L s.cum)
    (hl : s.cum.length = m + 1) :
    ∃ t m', outerLoop nodes (cumulate dist 0 nodes) c c L (k + 1) s = .ok t ∧ FinalCount L c m' ∧
      List.Forall₂ (AtLength dist nodes) (pieces L m') t.result := by
  induction k generalizing m s with
  | zero =>
    obtain ⟨t, stop, ht, hrt, hor⟩ := outerStep_equal hs h2 hc hm hL hr hl
    have hLp : 0 < L := hr.total_pos
    have hmp : (0 : ℚ) < (m : ℚ) := by exact_mod_cast hm
    simp only [outerLoop, ht, Res.ok_bind]
    rcases hor with ⟨h1, h2', -⟩ | ⟨h1, h2', -⟩ | ⟨h1, h2', rfl, h4⟩
    · exfalso; linarith
    · exfalso
      have : 0 < L / (m : ℚ) := by positivity
      simp only [Nat.add_zero] at hk
      linarith
    · simp only [if_true]
      exact ⟨t, m, rfl, ⟨hm, Or.inr hmc, not_lt.1 h2'⟩, h4⟩
  | succ k ih =>
    obtain ⟨t, stop, ht, hrt, hor⟩ := outerStep_equal hs h2 hc hm hL hr hl
    have hLp : 0 < L := hr.total_pos
    have hmp : (0 : ℚ) < (m : ℚ) := by exact_mod_cast hm
    rw [outerLoop, ht, Res.ok_bind]
    rcases hor with ⟨h1, h2', -⟩ | ⟨h1, h2', rfl, h4, -⟩ | ⟨h1, h2', rfl, h4⟩
    · exfalso; linarith
    · simp only [Bool.false_eq_true, if_false]
      refine ih (m + 1) (by omega) ?_ ?_ hrt h4
      · have : 0 < L / (m : ℚ) := by positivity
        push_cast
        linarith
      · have e : m + 1 + k = m + (k + 1) := by omega
        rw [e]; exact hk
    · simp only [if_true]
      exact ⟨t, m, rfl, ⟨hm, Or.inr hmc, not_lt.1 h2'⟩, h4⟩

theorem outerLoop_missing {dist : Pt → Pt → ℚ} {nodes : List Pt} (hs : SidesPositive dist nodes) (h2 : 2 ≤ nodes.length)
    {c : ℚ} (hc : 0 < c) {L : ℚ} (hL : L = lengthTo dist nodes (nodes.length - 1)) (k : Nat) (m : Nat) (hm : 1 ≤ m)
    (hk : 2 * ((m + k : Nat) : ℚ) * c < L) {s : LinState} (hr : Rising L s.cum)
    (hl : s.cum.length = m + 1) (hmiss : 0 < k ∨ missingPt ∈ s.result) :
    ∃ t, outerLoop nodes (cumulate dist 0 nodes) c c L k s = .ok t ∧ missingPt ∈ t.result := by
  induction k generalizing m s with
  | zero => exact ⟨s, rfl, hmiss.resolve_left (by omega)⟩
  | succ k ih =>
    obtain ⟨t, stop, ht, hrt, hor⟩ := outerStep_equal hs h2 hc hm hL hr hl
    have hLp : 0 < L := hr.total_pos
    have hm1 : (1 : ℚ) ≤ (m : ℚ) := by exact_mod_cast hm
    have hkq : (0 : ℚ) ≤ (k : ℚ) := by positivity
    have hmk : 2 * (m : ℚ) * c < L := by
      push_cast at hk
      nlinarith
    have hdiv : L / (m : ℚ) ≤ L := div_le_self (le_of_lt hLp) hm1
    rw [outerLoop, ht, Res.ok_bind]
    rcases hor with ⟨h1, h2', -⟩ | ⟨h1, h2', rfl, h4, h5⟩ | ⟨h1, h2', rfl, h4⟩
    · exfalso
      nlinarith
    · simp only [Bool.false_eq_true, if_false]
      refine ih (m + 1) (by omega) ?_ hrt h4 (Or.inr h5)
      have e : m + 1 + k = m + (k + 1) := by omega
      rw [e]; exact hk
    · exfalso
      linarith

theorem resample_start {dist : Pt → Pt → ℚ} {nodes : List Pt} (hs : SidesPositive dist nodes)
    (h2 : 2 ≤ nodes.length) {c : ℚ} (hfirst : dist nodes[1] nodes[0] = c)
    (hlast : dist nodes[nodes.length - 1] nodes[nodes.length - 2] = c) :
    0 < c ∧ ∃ s, s.cum = cumulate dist 0 nodes ∧ resample dist nodes =
      (outerLoop nodes (cumulate dist 0 nodes) c c (lengthTo dist nodes (nodes.length - 1)) nodes.length s >>=
        fun t => .ok t.result) := by
  have hr := cumulate_rising hs h2
  have hl := cumulate_length dist 0 nodes
  obtain ⟨act, hact, hactl⟩ := averages_ok hr.two
  obtain ⟨e1, e2⟩ := averages_ends hr.two hact
  have get : ∀ i (hi : i < (cumulate dist 0 nodes).length), (cumulate dist 0 nodes)[i] = lengthTo dist nodes i := by
    intro i hi
    have := cumulate_get dist 0 nodes i (by omega)
    rw [List.getElem?_eq_getElem hi] at this
    rw [Option.some.inj this, zero_add]
  have s1 := side_length dist nodes 0 (List.getElem?_eq_getElem (by omega)) (List.getElem?_eq_getElem (by omega))
  have s2 := side_length dist nodes (nodes.length - 2) (List.getElem?_eq_getElem (by omega))
    (b := nodes[nodes.length - 1]) (by
      have : nodes.length - 2 + 1 = nodes.length - 1 := by omega
      rw [this]; exact List.getElem?_eq_getElem (by omega))
  rw [get, get] at e1 e2
  have hlen1 : (cumulate dist 0 nodes).length - 1 = nodes.length - 2 + 1 := by omega
  have hlen2 : (cumulate dist 0 nodes).length - 2 = nodes.length - 2 := by omega
  rw [hlen1, hlen2, s2, hlast] at e2
  simp only [Nat.zero_add] at s1
  rw [s1, hfirst] at e1
  have c1 : lengthTo dist nodes 0 + c - lengthTo dist nodes 0 = c := by ring
  have c2 : lengthTo dist nodes (nodes.length - 2) + c - lengthTo dist nodes (nodes.length - 2) = c := by ring
  rw [c1] at e1
  rw [c2] at e2
  refine ⟨?_, ⟨cumulate dist 0 nodes, act, List.replicate nodes.length 0, List.replicate nodes.length missingPt⟩, rfl, ?_⟩
  · rw [← hfirst]
    exact side_pos hs (i := 0) (List.getElem?_eq_getElem (by omega)) (List.getElem?_eq_getElem (by omega))
  · unfold resample
    simp only [hact, Res.ok_bind, vget_eq_ok.2 e1, vget_eq_ok.2 e2, vget_eq_ok.2 hr.last]

/-- If the first and the last side of the range have the same length `c`, and the range is at most `2 * c` times as long as
its number of sides, it is divided into equal pieces of about that length. -/
theorem resample_equal_ends {dist : Pt → Pt → ℚ} {nodes : List Pt} (hs : SidesPositive dist nodes)
    (h2 : 2 ≤ nodes.length) {c : ℚ} (hfirst : dist nodes[1] nodes[0] = c)
    (hlast : dist nodes[nodes.length - 1] nodes[nodes.length - 2] = c)
    (hlong : lengthTo dist nodes (nodes.length - 1) ≤ 2 * ((nodes.length - 1 : Nat) : ℚ) * c) :
    ∃ g m, resample dist nodes = .ok g ∧ FinalCount (lengthTo dist nodes (nodes.length - 1)) c m ∧
      g.length = m + 1 ∧ ∀ (k : Nat) (p : Pt), g[k]? = some p →
        AtLength dist nodes (k * (lengthTo dist nodes (nodes.length - 1) / m)) p := by
  obtain ⟨hc, s, hcum, hres⟩ := resample_start hs h2 hfirst hlast
  have hr := cumulate_rising hs h2
  have hl := cumulate_length dist 0 nodes
  have hloop : ∃ t m', outerLoop nodes (cumulate dist 0 nodes) c c (lengthTo dist nodes (nodes.length - 1)) nodes.length s
      = .ok t ∧ FinalCount (lengthTo dist nodes (nodes.length - 1)) c m' ∧
      List.Forall₂ (AtLength dist nodes) (pieces (lengthTo dist nodes (nodes.length - 1)) m') t.result := by
    rcases le_or_gt (((nodes.length - 1 : Nat) : ℚ) * c) (lengthTo dist nodes (nodes.length - 1) + 3 / 2 * c) with h | h
    · have := outerLoop_up hs h2 hc rfl (nodes.length - 1) (nodes.length - 1) (by omega) h
        (by push_cast; linarith) (s := s) (by rw [hcum]; exact hr) (by rw [hcum]; omega)
      rwa [show nodes.length - 1 + 1 = nodes.length by omega] at this
    · exact outerLoop_down hs h2 hc rfl (nodes.length - 1) (by omega) (by linarith) nodes.length (by omega)
        (by rw [hcum]; exact hr) (by rw [hcum]; omega)
  obtain ⟨t, m, ht, hfin, hf⟩ := hloop
  have hfl := hf.length_eq
  have hpl : (pieces (lengthTo dist nodes (nodes.length - 1)) m).length = m + 1 := arith_length _ _ _
  refine ⟨t.result, m, by rw [hres, ht, Res.ok_bind], hfin, by omega, ?_⟩
  intro k p hp
  obtain ⟨hk, rfl⟩ := List.getElem?_eq_some_iff.1 hp
  have hk' : k < (pieces (lengthTo dist nodes (nodes.length - 1)) m).length := by omega
  have := hf.get hk' hk
  have e := arith_get 0 (lengthTo dist nodes (nodes.length - 1) / m) (m + 1) k (by omega)
  have e' : (pieces (lengthTo dist nodes (nodes.length - 1)) m)[k] = k * (lengthTo dist nodes (nodes.length - 1) / m) := by
    have e2 : (pieces (lengthTo dist nodes (nodes.length - 1)) m)[k]? = some (0 + k * (lengthTo dist nodes (nodes.length - 1) / m)) := e
    rw [List.getElem?_eq_getElem hk'] at e2
    rw [Option.some.inj e2, zero_add]
  simp only [List.get_eq_getElem] at this
  rw [e'] at this
  exact this

/-- If the end sides are equal but the range is more than `4 * c + 2 * c / sides` times as long as its number of sides, the
result always contains a missing point. -/
theorem resample_long_range_missing {dist : Pt → Pt → ℚ} {nodes : List Pt} (hs : SidesPositive dist nodes)
    (h2 : 2 ≤ nodes.length) {c : ℚ} (hfirst : dist nodes[1] nodes[0] = c)
    (hlast : dist nodes[nodes.length - 1] nodes[nodes.length - 2] = c)
    (hlong : 2 * ((nodes.length - 1 + nodes.length : Nat) : ℚ) * c < lengthTo dist nodes (nodes.length - 1)) :
    ∃ g, resample dist nodes = .ok g ∧ missingPt ∈ g := by
  obtain ⟨hc, s, hcum, hres⟩ := resample_start hs h2 hfirst hlast
  have hr := cumulate_rising hs h2
  have hl := cumulate_length dist 0 nodes
  obtain ⟨t, ht, hm⟩ := outerLoop_missing hs h2 hc rfl nodes.length (nodes.length - 1) (by omega) hlong
    (s := s) (by rw [hcum]; exact hr) (by rw [hcum]; omega) (Or.inl (by omega))
  exact ⟨t.result, by rw [hres, ht, Res.ok_bind], hm⟩

end Verif.Polygons
