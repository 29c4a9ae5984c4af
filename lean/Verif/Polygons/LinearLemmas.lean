import Verif.Polygons.LinearModel
import Mathlib.Tactic.Linarith
import Mathlib.Tactic.Ring
import Mathlib.Tactic.FieldSimp
import Mathlib.Tactic.Positivity
/-!
# Lemmas about the linear refinement
-/
namespace Verif.Polygons

/-! ## Increasing distances from zero to the total length -/

/-- Distances that increase from zero to `total`. -/
structure Rising (total : ℚ) (cum : List ℚ) : Prop where
  two : 2 ≤ cum.length
  first : cum[0]? = some 0
  last : cum[cum.length - 1]? = some total
  sorted : cum.Pairwise (· < ·)

theorem Rising.form {total : ℚ} {cum : List ℚ} (h : Rising total cum) : ∃ mid, cum = 0 :: mid ++ [total] := by
  obtain ⟨h2, hf, hl, -⟩ := h
  cases cum with
  | nil => simp at h2
  | cons a t =>
    have ha : a = 0 := by simpa using hf
    subst ha
    have hne : t ≠ [] := by
      rintro rfl
      simp at h2
    refine ⟨t.dropLast, ?_⟩
    have : t.getLast hne = total := by
      rw [← List.getLast?_eq_getElem?, List.getLast?_cons, List.getLast?_eq_some_getLast hne] at hl
      simpa using hl
    rw [← this, List.cons_append, List.dropLast_concat_getLast hne]

theorem Rising.of_form {total : ℚ} {mid : List ℚ} (h : (0 :: mid ++ [total]).Pairwise (· < ·)) :
    Rising total (0 :: mid ++ [total]) := by
  refine ⟨by simp, by simp, ?_, h⟩
  rw [← List.getLast?_eq_getElem?, List.getLast?_append]
  simp

theorem Rising.total_pos {total : ℚ} {cum : List ℚ} (h : Rising total cum) : 0 < total := by
  obtain ⟨mid, rfl⟩ := h.form
  have := h.sorted
  rw [List.pairwise_append] at this
  exact this.2.2 0 (by simp) total (by simp)

theorem Rising.bounds {total : ℚ} {cum : List ℚ} (h : Rising total cum) : ∀ c ∈ cum, 0 ≤ c ∧ c ≤ total := by
  have hpos := h.total_pos
  obtain ⟨mid, rfl⟩ := h.form
  have hs := h.sorted
  intro c hc
  rw [List.pairwise_append] at hs
  obtain ⟨h1, -, h3⟩ := hs
  rw [List.pairwise_cons] at h1
  rcases List.mem_append.1 hc with hc | hc
  · constructor
    · rcases List.mem_cons.1 hc with rfl | hc
      · exact le_refl _
      · exact le_of_lt (h1.1 c hc)
    · exact le_of_lt (h3 c hc total (by simp))
  · rw [List.mem_singleton.1 hc]
    exact ⟨le_of_lt hpos, le_refl _⟩

/-! ## Sizes -/

theorem averageInner_length (cum : List ℚ) : (averageInner cum).length = cum.length - 2 := by
  induction cum with
  | nil => rfl
  | cons a t ih =>
    match t, ih with
    | [], _ => rfl
    | [b], _ => rfl
    | b :: c :: t, ih =>
      simp only [averageInner, List.length_cons] at *
      omega

theorem averages_ok {cum : List ℚ} (h : 2 ≤ cum.length) :
    ∃ act, averages cum = .ok act ∧ act.length = cum.length := by
  unfold averages
  rw [vget_ok (by omega), Res.ok_bind, vget_ok (by omega), Res.ok_bind, vget_ok (by omega), Res.ok_bind,
    vget_ok (by omega), Res.ok_bind]
  refine ⟨_, rfl, ?_⟩
  simp only [List.cons_append, List.length_cons, List.length_append, averageInner_length, List.length_nil]
  omega

theorem smoothLoop_length (d acc : ℚ) (avg : List ℚ) : (smoothLoop d acc avg).length = avg.length - 2 := by
  induction avg generalizing acc with
  | nil => rfl
  | cons a t ih =>
    match t, ih with
    | [], _ => rfl
    | [b], _ => rfl
    | b :: c :: t, ih =>
      simp only [smoothLoop, List.length_cons] at *
      rw [ih]
      omega

/-! ## Smoothing -/

/-- Sum of the means of neighbours. -/
def trapezoid : List ℚ → ℚ
  | a :: b :: t => 1 / 2 * (a + b) + trapezoid (b :: t)
  | _ => 0

theorem target_eq {avg : List ℚ} (h : avg ≠ []) : target avg = .ok (trapezoid avg) := by
  have key : ∀ avg : List ℚ, ∀ h : avg ≠ [], avg.sum - 1 / 2 * (avg.head h + avg.getLast h) = trapezoid avg := by
    intro avg
    induction avg with
    | nil => simp
    | cons a t ih =>
      intro h
      cases t with
      | nil => simp [trapezoid]; ring
      | cons b t =>
        have := ih (by simp)
        simp only [trapezoid, List.sum_cons, List.head_cons, List.getLast_cons (List.cons_ne_nil b t)] at *
        linarith
  have hl : 0 < avg.length := List.length_pos_iff.2 h
  unfold target
  rw [vget_ok hl, Res.ok_bind, vget_ok (by omega), Res.ok_bind]
  congr 1
  rw [← key avg h]
  simp [List.head_eq_getElem, List.getLast_eq_getElem]

theorem trapezoid_pos {avg : List ℚ} (h : ∀ a ∈ avg, 0 < a) (h2 : 2 ≤ avg.length) : 0 < trapezoid avg := by
  induction avg with
  | nil => simp at h2
  | cons a t ih =>
    cases t with
    | nil => simp at h2
    | cons b t =>
      simp only [trapezoid]
      have ha := h a (by simp)
      have hb := h b (by simp)
      cases t with
      | nil => simp only [trapezoid]; linarith
      | cons c t =>
        have := ih (fun x hx => h x (List.mem_cons_of_mem _ hx)) (by simp)
        linarith

theorem smoothLoop_sorted {d : ℚ} (hd : 0 < d) (avg : List ℚ) (h : ∀ a ∈ avg, 0 < a) (h2 : 2 ≤ avg.length) (acc : ℚ) :
    (acc * d :: smoothLoop d acc avg ++ [(acc + trapezoid avg) * d]).Pairwise (· < ·) := by
  induction avg generalizing acc with
  | nil => simp at h2
  | cons a t ih =>
    match t, ih with
    | [], _ => simp at h2
    | [b], _ =>
      simp only [smoothLoop, trapezoid, List.cons_append, List.nil_append, List.pairwise_cons, List.mem_singleton,
        forall_eq, List.not_mem_nil, false_implies, implies_true, List.Pairwise.nil, and_true]
      have ha := h a (by simp)
      have hb := h b (by simp)
      apply mul_lt_mul_of_pos_right _ hd
      linarith
    | b :: c :: t, ih =>
      have ha := h a (by simp)
      have hb := h b (by simp)
      have := ih (fun x hx => h x (List.mem_cons_of_mem _ hx)) (by simp) (acc + 1 / 2 * (a + b))
      have e1 : acc + trapezoid (a :: b :: c :: t) = acc + 1 / 2 * (a + b) + trapezoid (b :: c :: t) := by
        rw [trapezoid]; ring
      rw [e1]
      simp only [smoothLoop]
      rw [List.cons_append, List.pairwise_cons]
      refine ⟨?_, this⟩
      have hlt : acc * d < (acc + 1 / 2 * (a + b)) * d := by
        apply mul_lt_mul_of_pos_right _ hd
        linarith
      intro x hx
      rw [List.cons_append] at hx
      rcases List.mem_cons.1 hx with rfl | hx
      · exact hlt
      · rw [List.cons_append, List.pairwise_cons] at this
        exact lt_trans hlt (this.1 x hx)

theorem smoothCumulative_ok {total : ℚ} {avg cum : List ℚ} (hc : Rising total cum) (hl : avg.length = cum.length)
    (ha : ∀ a ∈ avg, 0 < a) :
    ∃ cum', smoothCumulative avg cum = .ok cum' ∧ Rising total cum' ∧ cum'.length = cum.length := by
  have h2 := hc.two
  have hne : avg ≠ [] := by
    rintro rfl
    simp at hl
    omega
  have htr := trapezoid_pos ha (by omega)
  have htot := hc.total_pos
  unfold smoothCumulative
  rw [target_eq hne, Res.ok_bind, vget_eq_ok.2 hc.first, Res.ok_bind, vget_eq_ok.2 hc.last, Res.ok_bind,
    if_neg (by linarith)]
  refine ⟨_, rfl, ?_, ?_⟩
  · apply Rising.of_form
    have := smoothLoop_sorted (d := total / trapezoid avg) (by positivity) avg ha (by omega) 0
    have e : (0 + trapezoid avg) * (total / trapezoid avg) = total := by
      have : trapezoid avg ≠ 0 := by linarith
      field_simp
      ring
    rw [e, zero_mul] at this
    exact this
  · simp only [List.cons_append, List.length_cons, List.length_append, smoothLoop_length, List.length_nil]
    omega

theorem smoothAverages_ok {total : ℚ} {cum : List ℚ} (hc : Rising total cum) {first last : ℚ} (hf : 0 < first)
    (hl : 0 < last) :
    ∃ avg, smoothAverages cum first last = .ok avg ∧ avg.length = cum.length ∧ ∀ a ∈ avg, 0 < a := by
  have htot := hc.total_pos
  unfold smoothAverages
  rw [vget_eq_ok.2 hc.last, Res.ok_bind, if_neg (by linarith)]
  refine ⟨_, rfl, by simp, ?_⟩
  intro a ha
  obtain ⟨c, hcm, rfl⟩ := List.mem_map.1 ha
  obtain ⟨h0, h1⟩ := hc.bounds c hcm
  have hq0 : 0 ≤ c / total := by positivity
  have hq1 : c / total ≤ 1 := by rw [div_le_one htot]; exact h1
  rcases lt_or_eq_of_le hq1 with hlt | heq
  · have : 0 < (1 - c / total) * first := mul_pos (by linarith) hf
    have : 0 ≤ c / total * last := by positivity
    linarith
  · rw [heq]; linarith

/-! ## The polyline -/

/-- Length of the polyline up to node `i`. -/
def lengthTo (dist : Pt → Pt → ℚ) : List Pt → Nat → ℚ
  | a :: b :: ps, i + 1 => dist b a + lengthTo dist (b :: ps) i
  | _, _ => 0

/-- `p` is the point of the polyline at length `d` from its start. -/
def AtLength (dist : Pt → Pt → ℚ) (nodes : List Pt) (d : ℚ) (p : Pt) : Prop :=
  ∃ (i : Nat) (a b : Pt) (t : ℚ), nodes[i]? = some a ∧ nodes[i + 1]? = some b ∧ 0 ≤ t ∧ t ≤ 1 ∧ p = pointAt a b t ∧
    d = lengthTo dist nodes i + t * dist b a

/-- All sides of the polyline have a positive length. -/
def SidesPositive (dist : Pt → Pt → ℚ) : List Pt → Prop
  | a :: b :: ps => 0 < dist b a ∧ SidesPositive dist (b :: ps)
  | _ => True

theorem cumulate_length (dist : Pt → Pt → ℚ) (acc : ℚ) (nodes : List Pt) :
    (cumulate dist acc nodes).length = nodes.length := by
  induction nodes generalizing acc with
  | nil => rfl
  | cons a t ih =>
    cases t with
    | nil => rfl
    | cons b t => simp only [cumulate, List.length_cons, ih]

theorem cumulate_get (dist : Pt → Pt → ℚ) (acc : ℚ) (nodes : List Pt) (i : Nat) (hi : i < nodes.length) :
    (cumulate dist acc nodes)[i]? = some (acc + lengthTo dist nodes i) := by
  induction nodes generalizing acc i with
  | nil => simp at hi
  | cons a t ih =>
    cases t with
    | nil =>
      simp only [List.length_cons, List.length_nil] at hi
      obtain rfl : i = 0 := by omega
      simp [cumulate, lengthTo]
    | cons b t =>
      cases i with
      | zero => simp [cumulate, lengthTo]
      | succ i =>
        simp only [cumulate, List.getElem?_cons_succ, lengthTo]
        rw [ih _ i (by simp at hi ⊢; omega)]
        congr 1
        ring

theorem cumulate_sorted (dist : Pt → Pt → ℚ) (acc : ℚ) (nodes : List Pt) (h : SidesPositive dist nodes) :
    (cumulate dist acc nodes).Pairwise (· < ·) ∧ ∀ c ∈ cumulate dist acc nodes, acc ≤ c := by
  induction nodes generalizing acc with
  | nil => simp [cumulate]
  | cons a t ih =>
    cases t with
    | nil => simp [cumulate]
    | cons b t =>
      simp only [cumulate, SidesPositive] at *
      obtain ⟨h1, h2⟩ := ih (acc + dist b a) h.2
      refine ⟨List.pairwise_cons.2 ⟨fun x hx => ?_, h1⟩, ?_⟩
      · have := h2 x hx
        linarith [h.1]
      · intro c hc
        rcases List.mem_cons.1 hc with rfl | hc
        · exact le_refl _
        · have := h2 c hc
          linarith [h.1]

theorem cumulate_rising {dist : Pt → Pt → ℚ} {nodes : List Pt} (h : SidesPositive dist nodes)
    (h2 : 2 ≤ nodes.length) : Rising (lengthTo dist nodes (nodes.length - 1)) (cumulate dist 0 nodes) := by
  refine ⟨by rw [cumulate_length]; exact h2, ?_, ?_, (cumulate_sorted dist 0 nodes h).1⟩
  · rw [cumulate_get _ _ _ _ (by omega)]
    cases nodes with
    | nil => simp at h2
    | cons a t => simp [lengthTo]
  · rw [cumulate_length, cumulate_get _ _ _ _ (by omega)]
    simp

theorem side_length (dist : Pt → Pt → ℚ) (nodes : List Pt) (i : Nat) {a b : Pt} (ha : nodes[i]? = some a)
    (hb : nodes[i + 1]? = some b) : lengthTo dist nodes (i + 1) = lengthTo dist nodes i + dist b a := by
  induction nodes generalizing i with
  | nil => simp at ha
  | cons c t ih =>
    cases t with
    | nil => simp at hb
    | cons d t =>
      cases i with
      | zero =>
        simp only [List.getElem?_cons_zero, Option.some.injEq, Nat.zero_add, List.getElem?_cons_succ] at ha hb
        subst ha hb
        cases t <;> simp [lengthTo]
      | succ i =>
        simp only [List.getElem?_cons_succ] at ha hb
        simp only [lengthTo]
        rw [ih i (by simpa using ha) (by simpa using hb)]
        ring

theorem sample_ok {dist : Pt → Pt → ℚ} {nodes : List Pt} (hs : SidesPositive dist nodes) (h2 : 2 ≤ nodes.length)
    {d : ℚ} (h0 : 0 ≤ d) (h1 : d ≤ lengthTo dist nodes (nodes.length - 1)) :
    ∃ p, sample nodes (cumulate dist 0 nodes) d = .ok p ∧ AtLength dist nodes d p := by
  have hr := cumulate_rising hs h2
  have hlen := cumulate_length dist 0 nodes
  have hget : ∀ i, i < nodes.length → (cumulate dist 0 nodes)[i]? = some (lengthTo dist nodes i) := by
    intro i hi
    rw [cumulate_get _ _ _ _ hi]
    simp
  have hpos : ∀ i, i + 1 < nodes.length → lengthTo dist nodes i < lengthTo dist nodes (i + 1) := by
    intro i hi
    have hp := List.pairwise_iff_getElem.1 hr.sorted i (i + 1) (by omega) (by omega) (by omega)
    have e1 := hget i (by omega)
    have e2 := hget (i + 1) (by omega)
    rw [List.getElem?_eq_getElem (by omega)] at e1 e2
    rw [Option.some.inj e1, Option.some.inj e2] at hp
    exact hp
  have key : ∃ i, ((cumulate dist 0 nodes).findIdx? (fun c => decide (d < c))).getD
      ((cumulate dist 0 nodes).length - 1) = i + 1 ∧ i + 1 < nodes.length ∧ lengthTo dist nodes i ≤ d ∧
      d ≤ lengthTo dist nodes (i + 1) := by
    cases hf : (cumulate dist 0 nodes).findIdx? (fun c => decide (d < c)) with
    | none =>
      refine ⟨nodes.length - 2, by simp only [Option.getD_none]; omega, by omega, ?_, ?_⟩
      · have := List.findIdx?_eq_none_iff.1 hf (lengthTo dist nodes (nodes.length - 2))
          (List.mem_of_getElem? (hget (nodes.length - 2) (by omega)))
        simpa using this
      · have e : nodes.length - 2 + 1 = nodes.length - 1 := by omega
        rw [e]
        exact h1
    | some j =>
      obtain ⟨hj, hjt, hjf⟩ := List.findIdx?_eq_some_iff_getElem.1 hf
      have hj' : j < nodes.length := by omega
      have ej := hget j hj'
      rw [List.getElem?_eq_getElem hj] at ej
      have ej' := Option.some.inj ej
      rw [ej'] at hjt
      have hjt' : d < lengthTo dist nodes j := by simpa using hjt
      have hj0 : j ≠ 0 := by
        rintro rfl
        have : lengthTo dist nodes 0 = 0 := by cases nodes with
          | nil => rfl
          | cons a t => cases t <;> rfl
        linarith
      refine ⟨j - 1, by simp only [Option.getD_some]; omega, by omega, ?_, ?_⟩
      · have := hjf (j - 1) (by omega)
        have e1 := hget (j - 1) (by omega)
        rw [List.getElem?_eq_getElem (by omega)] at e1
        rw [Option.some.inj e1] at this
        simpa using this
      · have e : j - 1 + 1 = j := by omega
        rw [e]
        exact le_of_lt hjt'
  obtain ⟨i, hi, hilt, hlo, hhi⟩ := key
  have hpi := hpos i hilt
  have ha : nodes[i]? = some nodes[i] := List.getElem?_eq_getElem (by omega)
  have hb : nodes[i + 1]? = some nodes[i + 1] := List.getElem?_eq_getElem (by omega)
  have hside := side_length dist nodes i ha hb
  unfold sample
  have hne : (cumulate dist 0 nodes).isEmpty = false := by
    cases hcc : cumulate dist 0 nodes with
    | nil => rw [hcc] at hlen; simp only [List.length_nil] at hlen; omega
    | cons _ _ => rfl
  rw [if_neg (by simp [hne])]
  simp only [hi]
  rw [if_neg (by omega), vget_eq_ok.2 (hget (i + 1) hilt), Res.ok_bind, Nat.add_sub_cancel,
    vget_eq_ok.2 (hget i (by omega)), Res.ok_bind, vget_eq_ok.2 ha, Res.ok_bind, vget_eq_ok.2 hb, Res.ok_bind]
  have hdt : lengthTo dist nodes (i + 1) - lengthTo dist nodes i ≠ 0 := by linarith
  rw [if_pos hdt]
  refine ⟨_, rfl, i, nodes[i], nodes[i + 1], _, ha, hb, ?_, ?_, rfl, ?_⟩
  · apply div_nonneg <;> linarith
  · rw [div_le_one (by linarith)]; linarith
  · have e : dist nodes[i + 1] nodes[i] = lengthTo dist nodes (i + 1) - lengthTo dist nodes i := by linarith
    rw [e, div_mul_cancel₀ _ hdt]
    ring

theorem sampleAll_ok {dist : Pt → Pt → ℚ} {nodes : List Pt} (hs : SidesPositive dist nodes) (h2 : 2 ≤ nodes.length)
    (ds : List ℚ) (hds : ∀ d ∈ ds, 0 ≤ d ∧ d ≤ lengthTo dist nodes (nodes.length - 1)) :
    ∃ ps, sampleAll nodes (cumulate dist 0 nodes) ds = .ok ps ∧ List.Forall₂ (AtLength dist nodes) ds ps := by
  induction ds with
  | nil => exact ⟨[], rfl, List.Forall₂.nil⟩
  | cons d ds ih =>
    obtain ⟨p, hp, hpa⟩ := sample_ok hs h2 (hds d (by simp)).1 (hds d (by simp)).2
    obtain ⟨ps, hps, hpsa⟩ := ih (fun x hx => hds x (List.mem_cons_of_mem _ hx))
    refine ⟨p :: ps, ?_, List.Forall₂.cons hpa hpsa⟩
    simp only [sampleAll, hp, hps, Res.ok_bind]

/-! ## The loops -/

/-- Points of the polyline at increasing lengths from its start to its end. -/
def SampledAt (dist : Pt → Pt → ℚ) (nodes : List Pt) (g : List Pt) : Prop :=
  ∃ ds, Rising (lengthTo dist nodes (nodes.length - 1)) ds ∧ List.Forall₂ (AtLength dist nodes) ds g

/-- Invariant between the rounds of the inner loop. -/
structure Round (dist : Pt → Pt → ℚ) (nodes : List Pt) (s : LinState) : Prop where
  cum : Rising (lengthTo dist nodes (nodes.length - 1)) s.cum
  avg : s.avg.length = s.cum.length
  act : s.act.length = s.cum.length
  pos : ∀ a ∈ s.avg, 0 < a
  result : SampledAt dist nodes s.result
  size : s.result.length = s.cum.length

theorem innerStep_ok {dist : Pt → Pt → ℚ} {nodes : List Pt} (hs : SidesPositive dist nodes) (h2 : 2 ≤ nodes.length)
    {first last : ℚ} (hf : 0 < first) (hl : 0 < last) {s : LinState}
    (hc : Rising (lengthTo dist nodes (nodes.length - 1)) s.cum) :
    ∃ t, innerStep nodes (cumulate dist 0 nodes) first last s = .ok t ∧ Round dist nodes t := by
  obtain ⟨ps, hps, hpsa⟩ := sampleAll_ok hs h2 s.cum hc.bounds
  obtain ⟨act, hact, hactl⟩ := averages_ok hc.two
  obtain ⟨avg, havg, havgl, hpos⟩ := smoothAverages_ok hc hf hl
  obtain ⟨cum', hcum, hr, hcl⟩ := smoothCumulative_ok hc havgl hpos
  unfold innerStep
  rw [hps, Res.ok_bind, hact, Res.ok_bind, havg, Res.ok_bind, hcum, Res.ok_bind]
  exact ⟨_, rfl, hr, by rw [hcl]; exact havgl, by rw [hcl]; exact hactl, hpos, ⟨s.cum, hc, hpsa⟩,
    by rw [hcl]; exact hpsa.length_eq.symm⟩

theorem innerLoop_ok {dist : Pt → Pt → ℚ} {nodes : List Pt} (hs : SidesPositive dist nodes) (h2 : 2 ≤ nodes.length)
    {first last : ℚ} (hf : 0 < first) (hl : 0 < last) (k : Nat) {s : LinState}
    (hc : Rising (lengthTo dist nodes (nodes.length - 1)) s.cum) :
    ∃ t, innerLoop nodes (cumulate dist 0 nodes) first last (k + 1) s = .ok t ∧ Round dist nodes t := by
  induction k generalizing s with
  | zero =>
    obtain ⟨t, ht, hr⟩ := innerStep_ok hs h2 hf hl hc
    simp only [innerLoop, ht, Res.ok_bind]
    exact ⟨t, rfl, hr⟩
  | succ k ih =>
    obtain ⟨t, ht, hr⟩ := innerStep_ok hs h2 hf hl hc
    rw [innerLoop, ht, Res.ok_bind]
    exact ih hr.cum

theorem ratios_ok (as vs : List ℚ) (hl : as.length = vs.length) (hv : ∀ v ∈ vs, 0 < v) (i : Nat)
    (mn mx : Option (ℚ × Nat)) (n : Nat) (hn : i + vs.length = n)
    (hmn : ∀ m ∈ mn, 0 < m.2 ∧ m.2 + 1 < n) (hmx : ∀ m ∈ mx, m.2 + 1 < n) (hm : 2 ≤ vs.length ∨ mx ≠ none) :
    ∃ mn' mx', ratios as vs i mn mx = .ok (mn', some mx') ∧ (∀ m ∈ mn', 0 < m.2 ∧ m.2 + 1 < n) ∧ mx'.2 + 1 < n := by
  induction vs generalizing as i mn mx with
  | nil =>
    obtain ⟨mx', hmx'⟩ := Option.ne_none_iff_exists'.1 (hm.resolve_left (by simp))
    subst hmx'
    obtain rfl : as = [] := List.length_eq_zero_iff.1 (by simpa using hl)
    exact ⟨mn, mx', rfl, hmn, hmx mx' rfl⟩
  | cons v vs ih =>
    match as, vs with
    | [], _ => simp at hl
    | a :: as, [] =>
      obtain ⟨mx', hmx'⟩ := Option.ne_none_iff_exists'.1 (hm.resolve_left (by simp))
      subst hmx'
      obtain rfl : as = [] := List.length_eq_zero_iff.1 (by simpa using hl)
      exact ⟨mn, mx', rfl, hmn, hmx mx' rfl⟩
    | [a], v' :: vs => simp at hl
    | a :: a' :: as, v' :: vs =>
      have hvp := hv v (by simp)
      simp only [ratios]
      rw [if_neg (by linarith)]
      simp only [List.length_cons] at hn
      refine ih (a' :: as) (by simpa using hl) (fun x hx => hv x (List.mem_cons_of_mem _ hx)) (i + 1) _ _
        (by simp only [List.length_cons]; omega) ?_ ?_ ?_
      · intro m hm'
        split at hm'
        · rename_i hc
          obtain rfl := Option.mem_some_iff.1 hm'
          exact ⟨hc.1, by simp only []; omega⟩
        · exact hmn m hm'
      · intro m hm'
        split at hm'
        · obtain rfl := Option.mem_some_iff.1 hm'
          simp only []; omega
        · exact hmx m hm'
      · right
        split
        · simp
        · rename_i hc
          intro hnone
          rw [hnone] at hc
          simp at hc

theorem Rising.erase {total : ℚ} {cum : List ℚ} (h : Rising total cum) {i : Nat} (h0 : 0 < i) (h1 : i + 1 < cum.length) :
    Rising total (cum.eraseIdx i) := by
  have hl : (cum.eraseIdx i).length = cum.length - 1 := by rw [List.length_eraseIdx, if_pos (by omega)]
  refine ⟨by omega, ?_, ?_, List.Pairwise.sublist (List.eraseIdx_sublist _ _) h.sorted⟩
  · rw [List.getElem?_eraseIdx_of_lt h0]; exact h.first
  · rw [hl, List.getElem?_eraseIdx_of_ge (by omega)]
    have : cum.length - 1 - 1 + 1 = cum.length - 1 := by omega
    rw [this]; exact h.last

theorem Rising.insert {total : ℚ} {cum : List ℚ} (h : Rising total cum) {j : Nat} (hj : j + 1 < cum.length) :
    Rising total (cum.insertIdx (j + 1) (1 / 2 * (cum[j] + cum[j + 1]))) := by
  have hl : (cum.insertIdx (j + 1) (1 / 2 * (cum[j] + cum[j + 1]))).length = cum.length + 1 := by
    rw [List.length_insertIdx, if_pos (by omega)]
  have hlt := List.pairwise_iff_getElem.1 h.sorted j (j + 1) (by omega) hj (by omega)
  refine ⟨by omega, ?_, ?_, ?_⟩
  · rw [List.getElem?_insertIdx_of_lt (by omega)]; exact h.first
  · rw [hl, List.getElem?_insertIdx_of_gt (by omega)]
    have : cum.length + 1 - 1 - 1 = cum.length - 1 := by omega
    rw [this]; exact h.last
  · rw [List.pairwise_iff_getElem]
    intro a b ha hb hab
    have hs := List.pairwise_iff_getElem.1 h.sorted
    have hle : ∀ a b (ha : a < cum.length) (hb : b < cum.length), a ≤ b → cum[a] ≤ cum[b] := by
      intro a b ha hb hab
      rcases Nat.lt_or_eq_of_le hab with h | h
      · exact le_of_lt (hs a b ha hb h)
      · subst h; exact le_refl _
    rcases Nat.lt_trichotomy a (j + 1) with h1 | h1 | h1
    · rw [List.getElem_insertIdx_of_lt h1]
      rcases Nat.lt_trichotomy b (j + 1) with h2 | h2 | h2
      · rw [List.getElem_insertIdx_of_lt h2]; exact hs _ _ _ _ hab
      · subst h2
        rw [List.getElem_insertIdx_self]
        have := hle a j (by omega) (by omega) (by omega)
        linarith
      · rw [List.getElem_insertIdx_of_gt h2]; exact hs _ _ _ _ (by omega)
    · subst h1
      rw [List.getElem_insertIdx_self, List.getElem_insertIdx_of_gt hab]
      have := hle (j + 1) (b - 1) (by omega) (by omega) (by omega)
      linarith
    · rw [List.getElem_insertIdx_of_gt h1, List.getElem_insertIdx_of_gt (by omega)]
      exact hs _ _ _ _ (by omega)

/-- What the outer loop can return. -/
def Outcome (dist : Pt → Pt → ℚ) (nodes : List Pt) (r : List Pt) : Prop :=
  ∃ g, SampledAt dist nodes g ∧ (r = g ∨ r = g ++ [missingPt] ∨ r = g.dropLast)

theorem outerStep_ok {dist : Pt → Pt → ℚ} {nodes : List Pt} (hs : SidesPositive dist nodes) (h2 : 2 ≤ nodes.length)
    {first last total : ℚ} (hf : 0 < first) (hl : 0 < last) {s : LinState}
    (hc : Rising (lengthTo dist nodes (nodes.length - 1)) s.cum) :
    ∃ t stop, outerStep nodes (cumulate dist 0 nodes) first last total s = .ok (t, stop) ∧
      Rising (lengthTo dist nodes (nodes.length - 1)) t.cum ∧ Outcome dist nodes t.result ∧
      (stop = true → SampledAt dist nodes t.result) := by
  obtain ⟨s1, hs1, hr⟩ := innerLoop_ok hs h2 hf hl 19 hc
  have htwo := hr.cum.two
  have hne : s1.avg ≠ [] := by
    intro he
    have := hr.avg
    rw [he] at this
    simp only [List.length_nil] at this
    omega
  have hav := hr.avg
  have hac := hr.act
  obtain ⟨mn, mx, hrat, hmn, hmx⟩ := ratios_ok s1.act s1.avg (by omega) hr.pos 0 none none s1.avg.length (by omega)
    (by simp) (by simp) (Or.inl (by omega))
  unfold outerStep
  rw [hs1, Res.ok_bind, target_eq hne, Res.ok_bind, hrat, Res.ok_bind]
  have hins : ∃ t stop, insertOrStop total (trapezoid s1.avg) s1 (some mx) = .ok (t, stop) ∧
      Rising (lengthTo dist nodes (nodes.length - 1)) t.cum ∧ Outcome dist nodes t.result ∧
      (stop = true → SampledAt dist nodes t.result) := by
    obtain ⟨q, j⟩ := mx
    simp only [] at hmx
    simp only [insertOrStop]
    rw [vget_ok (by omega), Res.ok_bind]
    split
    · unfold insertNode
      rw [vget_ok (by omega), Res.ok_bind, vget_ok (by omega), Res.ok_bind, Res.ok_bind]
      exact ⟨_, _, rfl, hr.cum.insert (by omega), ⟨s1.result, hr.result, Or.inr (Or.inl rfl)⟩, by simp⟩
    · exact ⟨_, _, rfl, hr.cum, ⟨s1.result, hr.result, Or.inl rfl⟩, fun _ => hr.result⟩
  simp only [chooseStep]
  cases mn with
  | none => exact hins
  | some m =>
    obtain ⟨q, i⟩ := m
    obtain ⟨hi0, hi1⟩ := hmn (q, i) rfl
    simp only [] at hi0 hi1
    simp only []
    rw [vget_ok (by omega), Res.ok_bind]
    split
    · exact ⟨_, _, rfl, hr.cum.erase hi0 (by omega), ⟨s1.result, hr.result, Or.inr (Or.inr rfl)⟩, by simp⟩
    · exact hins

theorem outerLoop_ok {dist : Pt → Pt → ℚ} {nodes : List Pt} (hs : SidesPositive dist nodes) (h2 : 2 ≤ nodes.length)
    {first last total : ℚ} (hf : 0 < first) (hl : 0 < last) (k : Nat) {s : LinState}
    (hc : Rising (lengthTo dist nodes (nodes.length - 1)) s.cum) (ho : 0 < k ∨ Outcome dist nodes s.result) :
    ∃ t, outerLoop nodes (cumulate dist 0 nodes) first last total k s = .ok t ∧ Outcome dist nodes t.result := by
  induction k generalizing s with
  | zero => exact ⟨s, rfl, ho.resolve_left (by omega)⟩
  | succ k ih =>
    obtain ⟨t, stop, ht, hr, ho', hstop⟩ := outerStep_ok (total := total) hs h2 hf hl hc
    simp only [outerLoop, ht, Res.ok_bind]
    split
    · exact ⟨t, rfl, ho'⟩
    · exact ih hr (Or.inr ho')

end Verif.Polygons
