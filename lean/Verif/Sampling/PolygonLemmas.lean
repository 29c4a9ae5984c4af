import Verif.Sampling.Lemmas
import Verif.Averaging.Props
import Mathlib.Data.List.Perm.Basic
/-!
# Lemmas: the value for one polygon
-/
namespace Verif.Sampling
open Verif.Polygons
open Verif.Averaging (Val)

/-! ## The averages -/

theorem weight_at (v d : ℚ) : Averaging.weight (⟨v, d⟩ : Averaging.Sample ℚ) = weightAt d := by
  simp only [Averaging.weight, weightAt]
  congr 1
  split
  · rename_i h; rw [max_eq_left h.le]
  · rename_i h; rw [max_eq_right (not_lt.1 h)]

theorem weighted_sum (l : List (Averaging.Sample ℚ)) (a : ℚ × ℚ) :
    (l.foldl (fun a s => (a.1 + Averaging.weight s, a.2 + Averaging.weight s * s.value)) a).2
      = a.2 + (l.map (fun s => Averaging.weight s * s.value)).sum := by
  induction l generalizing a with
  | nil => simp
  | cons s l ih => rw [List.foldl_cons, ih]; simp only [List.map_cons, List.sum_cons]; ring

theorem squared_eq {c p : Pt} (hc : c.isValid = true) (hp : p.isValid = true) : squared c p = sqDist c p := by
  simp only [squared, hc, hp, sqDist]
  simp only [Bool.not_true, Bool.or_self, Bool.false_eq_true, if_false]
  ring

theorem average_of (env : Env) (st : Settings) (c : Pt) (ss : List Spot) (hm : 1 ≤ st.minNum) (hc : c.isValid = true)
    (hv : ∀ s ∈ ss, s.pos.isValid = true) (hl : ∀ s ∈ ss, env.lowest < s.value) (hh : ∀ s ∈ ss, |s.value| < env.top)
    (hr : ∀ s ∈ ss, sqDist c s.pos < env.top) :
    Average env.dist st.method st.minNum c ss (calculate env st c ss) := by
  unfold Average calculate
  cases st.method with
  | simple =>
    simp only [Averaging.simple, List.length_map, Averaging.missingValue]
    by_cases h : ss.length < st.minNum
    · rw [if_pos h, if_neg (by omega)]
    · rw [if_neg h, if_pos (by omega), Averaging.sum_eq, zero_add, List.map_map, Averaging.divide, if_neg]
      · rfl
      · have : (0 : ℚ) < ss.length := by exact_mod_cast (by omega : 0 < ss.length)
        exact this.ne'
  | closest =>
    simp only
    have key := Averaging.closest_exact env.top (ss.map (fun s => (⟨s.value, squared c s.pos⟩ : Averaging.Sample ℚ))) (by
      intro s hs
      obtain ⟨t, ht, rfl⟩ := List.mem_map.1 hs
      simp only
      rw [squared_eq hc (hv t ht)]; exact hr t ht)
    rcases eq_or_ne ss [] with rfl | hne
    · exact .inl ⟨rfl, by rw [key.1 rfl]⟩
    · right
      obtain ⟨l, s, r, e, h1, h2, h3⟩ := key.2 (by simpa using hne)
      obtain ⟨l', r', e', hl', hr'⟩ := List.map_eq_append_iff.1 e
      obtain ⟨t, r'', rfl, hs, hr''⟩ := List.map_eq_cons_iff.1 hr'
      have mt : t ∈ ss := by rw [e']; simp
      refine ⟨t, mt, by rw [h1, ← hs], ?_⟩
      intro u hu
      rw [← squared_eq hc (hv t mt), ← squared_eq hc (hv u hu)]
      subst hs
      rw [e', List.mem_append, List.mem_cons] at hu
      rcases hu with hu | rfl | hu
      · exact (h2 _ (by rw [← hl']; exact List.mem_map_of_mem hu)).le
      · exact le_refl _
      · exact h3 _ (by rw [← hr'']; exact List.mem_map_of_mem hu)
  | max =>
    simp only
    have key := Averaging.maximum_exact env.lowest (ss.map (fun s => (⟨s.value, 0⟩ : Averaging.Sample ℚ))) (by
      intro s hs
      obtain ⟨t, ht, rfl⟩ := List.mem_map.1 hs
      exact hl t ht)
    rcases eq_or_ne ss [] with rfl | hne
    · exact .inl ⟨rfl, by rw [key.1 rfl]⟩
    · right
      obtain ⟨⟨s, hs, e⟩, h2⟩ := key.2 (by simpa using hne)
      obtain ⟨t, ht, rfl⟩ := List.mem_map.1 hs
      refine ⟨t, ht, by rw [e], fun u hu => ?_⟩
      have := h2 _ (List.mem_map_of_mem hu)
      rw [e] at this; exact this
  | min =>
    simp only
    have key := Averaging.minimum_exact env.top (ss.map (fun s => (⟨s.value, 0⟩ : Averaging.Sample ℚ))) (by
      intro s hs
      obtain ⟨t, ht, rfl⟩ := List.mem_map.1 hs
      exact lt_of_le_of_lt (le_abs_self _) (hh t ht))
    rcases eq_or_ne ss [] with rfl | hne
    · exact .inl ⟨rfl, by rw [key.1 rfl]⟩
    · right
      obtain ⟨⟨s, hs, e⟩, h2⟩ := key.2 (by simpa using hne)
      obtain ⟨t, ht, rfl⟩ := List.mem_map.1 hs
      refine ⟨t, ht, by rw [e], fun u hu => ?_⟩
      have := h2 _ (List.mem_map_of_mem hu)
      rw [e] at this; exact this
  | inverse =>
    simp only [Averaging.inverseWeighted, Averaging.missingValue, Averaging.weight_fold, weighted_sum, zero_add, List.map_map,
      Function.comp_def, weight_at]
    by_cases h : (ss.map (fun s => weightAt (env.dist c s.pos))).sum < (st.minNum : ℚ)
    · rw [if_pos h, if_neg (not_le.2 h)]
    · rw [if_neg h, if_pos (not_lt.1 h), Averaging.divide, if_neg]
      have : (1 : ℚ) ≤ st.minNum := by exact_mod_cast hm
      intro e
      rw [e] at h
      linarith [not_lt.1 h]
  | minAbs =>
    simp only
    have key := Averaging.minimumAbs_partial env.top (ss.map (fun s => (⟨s.value, 0⟩ : Averaging.Sample ℚ))) (by
      intro s hs
      obtain ⟨t, ht, rfl⟩ := List.mem_map.1 hs
      exact hh t ht)
    rcases eq_or_ne ss [] with rfl | hne
    · exact .inl ⟨rfl, by rw [key.1 rfl]⟩
    · right
      obtain ⟨⟨s, hs, e⟩, h2⟩ := key.2 (by simpa using hne)
      obtain ⟨t, ht, rfl⟩ := List.mem_map.1 hs
      refine ⟨t, ht, by rw [e], fun u hu => ?_⟩
      have := h2 _ (List.mem_map_of_mem hu)
      rw [e] at this; exact this

/-- The average does not depend on the order of the samples. -/
theorem Average.perm {dist : Pt → Pt → ℚ} {method : Method} {k : Nat} {c : Pt} {l l' : List Spot} {v : Val ℚ} (h : l.Perm l')
    (ha : Average dist method k c l v) : Average dist method k c l' v := by
  unfold Average at *
  cases method with
  | simple =>
    simp only at ha ⊢
    rw [← h.length_eq, ← (h.map _).sum_eq]; exact ha
  | inverse =>
    simp only at ha ⊢
    rw [← (h.map (fun s : Spot => weightAt (dist c s.pos))).sum_eq, ← (h.map (fun s : Spot => weightAt (dist c s.pos) * s.value)).sum_eq]
    exact ha
  | closest | max | min | minAbs =>
    simp only at ha ⊢
    rcases ha with ⟨rfl, hv⟩ | ⟨s, hs, hv, hall⟩
    · exact .inl ⟨h.nil_eq.symm ▸ rfl, hv⟩
    · exact .inr ⟨s, h.mem_iff.1 hs, hv, fun t ht => hall t (h.mem_iff.2 ht)⟩

/-- Nothing to average: missing, if at least one sample is required. -/
theorem average_nil (dist : Pt → Pt → ℚ) (method : Method) {k : Nat} (hk : 1 ≤ k) (c : Pt) : Average dist method k c [] (.num (-999)) := by
  unfold Average
  have : (0 : ℚ) < k := by exact_mod_cast hk
  cases method <;> simp [this, (by omega : 0 < k)]

/-! ## What the tree finds -/

theorem gather_ok (ss : List Spot) (l : List Nat) (h : ∀ i ∈ l, i < ss.length) : gather ss l = .ok (l.filterMap (ss[·]?)) := by
  induction l with
  | nil => rfl
  | cons i l ih =>
    have hi := h i (by simp)
    rw [gather, vget_ok hi, Res.ok_bind, ih (fun j hj => h j (by simp [hj])), Res.ok_bind, List.filterMap_cons, List.getElem?_eq_getElem hi]

theorem range_filterMap (ss : List Spot) : (List.range ss.length).filterMap (ss[·]?) = ss := by
  induction ss with
  | nil => rfl
  | cons s ss ih =>
    rw [List.length_cons, List.range_succ_eq_map, List.filterMap_cons]
    simp only [List.getElem?_cons_zero, List.filterMap_map, Function.comp_def, List.getElem?_cons_succ]
    rw [ih]

/-- The samples found are those of the list that are in the tree and near. -/
theorem found_spots (ss : List Spot) (c : Pt) (r2 : ℚ) :
    ((List.range ss.length).filter (hit ss c r2)).filterMap (ss[·]?) = ss.filter (fun s => inTree s && near c r2 s.pos) := by
  conv_rhs => rw [← range_filterMap ss]
  rw [List.filterMap_filter, List.filter_filterMap]
  congr 1
  funext i
  unfold hit
  cases h : ss[i]? with
  | none => simp
  | some s => by_cases hb : (inTree s && near c r2 s.pos) = true <;> simp [hb, Option.filter]

theorem inTree_of_valid {s : Spot} (h : s.pos.isValid = true) : inTree s = true := by
  unfold inTree
  unfold Pt.isValid at h
  simp only [Bool.not_eq_true', Bool.or_eq_false_iff] at h
  rw [Bool.and_eq_true, decide_eq_true_eq, decide_eq_true_eq]
  constructor
  · intro e; rw [e] at h; exact absurd h.1 (by decide +kernel)
  · intro e; rw [e] at h; exact absurd h.2 (by decide +kernel)

theorem searchPoints_ok {env : Env} {c : Pt} {ss : List Spot} (ho : Ordinary env c ss) (c' : Pt) (r2 : ℚ) :
    ∃ found, searchPoints env ss c' r2 = .ok found ∧ (∀ i ∈ found, i < ss.length) ∧
      found.Perm ((List.range ss.length).filter (hit ss c' r2)) ∧
      (found.filterMap (ss[·]?)).Perm (ss.filter (fun s => near c' r2 s.pos)) := by
  unfold searchPoints
  have hne := ho.some
  have hany : ss.any inTree = true := by
    cases ss with
    | nil => exact absurd rfl hne
    | cons s ss =>
      rw [List.any_cons, inTree_of_valid (ho.valid s (by simp)), Bool.true_or]
  rw [if_pos hany]
  refine ⟨_, rfl, ?_, ho.order _, ?_⟩
  · intro i hi
    have := (ho.order _).mem_iff.1 hi
    exact List.mem_range.1 (List.mem_of_mem_filter this)
  · refine ((ho.order _).filterMap _).trans (List.Perm.of_eq ?_)
    rw [found_spots]
    apply List.filter_congr
    intro s hs
    rw [inTree_of_valid (ho.valid s hs), Bool.true_and]

theorem searchRadius_ge (lowest : ℚ) (l : List Pt) (c : Pt) :
    lowest ≤ searchRadius lowest l c ∧ ∀ q ∈ l, squared c q ≤ searchRadius lowest l c := by
  unfold searchRadius
  induction l generalizing lowest with
  | nil => simp
  | cons a l ih =>
    obtain ⟨h1, h2⟩ := ih (max lowest (squared c a))
    refine ⟨(le_max_left _ _).trans h1, ?_⟩
    intro q hq
    rcases List.mem_cons.1 hq with rfl | hq
    · exact (le_max_right _ _).trans h1
    · exact h2 q hq

theorem sqDist_pos {c q : Pt} (h : q ≠ c) : 0 < sqDist c q := by
  unfold sqDist
  rcases q with ⟨qx, qy⟩; rcases c with ⟨cx, cy⟩
  simp only [ne_eq, Pt.mk.injEq, not_and_or] at h
  simp only
  rcases h with h | h
  · have : qx - cx ≠ 0 := sub_ne_zero.2 h
    positivity
  · have : qy - cy ≠ 0 := sub_ne_zero.2 h
    positivity

theorem near_of_lt {c p : Pt} {r2 : ℚ} (h : sqDist c p < r2) : near c r2 p = true := by
  unfold sqDist at h
  unfold near
  simp only [Bool.and_eq_true, decide_eq_true_eq]
  refine ⟨⟨?_, ?_⟩, ?_⟩ <;> nlinarith [sq_nonneg (p.x - c.x), sq_nonneg (p.y - c.y)]

/-- The samples that end up in the average are those within the polygon. -/
theorem chosen_spots {c : Pt} {ss : List Spot} {ring : List Pt} {r2 : ℚ} (hr : RingNodes ring)
    (hv : ∀ s ∈ ss, s.pos.isValid = true) (hf : ∀ s ∈ ss, s.pos.Finite)
    (hoff : ∀ s ∈ ss, OffLines ring s.pos) (hc : ∀ q ∈ ring, sqDist c q ≤ r2) :
    chosen ring (ss.filter (fun s => near c r2 s.pos)) = within ring ss := by
  unfold chosen within
  rw [List.filter_filter]
  apply List.filter_congr
  intro s hs
  have key := inside_iff hr (hv s hs) (hf s hs) (hoff s hs)
  rw [Bool.eq_iff_iff]
  simp only [Bool.and_eq_true, Bool.not_eq_true', decide_eq_true_eq, decide_eq_false_iff_not, not_le]
  constructor
  · rintro ⟨⟨h1, h2⟩, -⟩
    exact ⟨h1, key.1 h2⟩
  · rintro ⟨h1, h2⟩
    have h3 := key.2 h2
    exact ⟨⟨h1, h3⟩, near_of_lt (near_of_inside hr (hoff s hs) hc h3)⟩

/-- The value for a polygon and what the tree holds, when no nearest sample is taken. -/
theorem onPolygon_ok (env : Env) (st : Settings) (ss : List Spot) (polygon ring : List Pt) (c : Pt)
    (hring : searchPolygon st.radius polygon c = ring) (ho : Ordinary env c ss) (hc : c.isValid = true) (hr : RingNodes ring)
    (hmove : ∃ q ∈ ring, q ≠ c) (hoff : ∀ s ∈ ss, OffLines ring s.pos) (hm : 1 ≤ st.minNum) (hu : st.useClosest = false) :
    ∃ v found, onPolygon env st ss polygon c = .ok (v, found) ∧
      Average env.dist st.method st.minNum c (within ring ss) v ∧
      found.Perm ((List.range ss.length).filter (hit ss c (searchRadius env.lowest ring c))) := by
  set r2 := searchRadius env.lowest ring c with hr2
  have hval := hr.2.2
  have hle : ∀ q ∈ ring, sqDist c q ≤ r2 := by
    intro q hq
    rw [← squared_eq hc (hval q hq)]
    exact (searchRadius_ge env.lowest ring c).2 q hq
  have hpos : 0 < r2 := by
    obtain ⟨q, hq, hne⟩ := hmove
    exact lt_of_lt_of_le (sqDist_pos hne) (hle q hq)
  obtain ⟨found, h1, h2, h3, h4⟩ := searchPoints_ok ho c r2
  have hsel : (chosen ring (found.filterMap (ss[·]?))).Perm (within ring ss) := by
    rw [← chosen_spots hr ho.valid ho.finite hoff hle]
    exact h4.filter _
  have hrun : onPolygon env st ss polygon c = answer env st ss found ring c := by
    unfold onPolygon
    simp only [hc, Bool.not_true, Bool.false_eq_true, if_false, hring, ← hr2]
    rw [if_neg (not_le.2 hpos), h1]
    rfl
  rw [hrun]
  unfold answer
  by_cases he : found.isEmpty = true
  · have he' : found = [] := by simpa using he
    subst he'
    refine ⟨.num (-999), [], by simp [hu], ?_, h3⟩
    have : within ring ss = [] := by
      have := hsel.nil_eq
      simpa [chosen] using this.symm
    rw [this]
    exact average_nil _ _ hm c
  · rw [if_neg he]
    refine ⟨calculate env st c (chosen ring (found.filterMap (ss[·]?))), found, ?_, ?_, h3⟩
    · simp only [fromNeighbours, gather_ok ss found h2, Res.ok_bind]
    · have hin : ∀ s ∈ chosen ring (found.filterMap (ss[·]?)), s ∈ ss := fun s hs =>
        List.mem_of_mem_filter (hsel.mem_iff.1 hs)
      exact (average_of env st c _ hm hc (fun s hs => ho.valid s (hin s hs)) (fun s hs => ho.low s (hin s hs))
        (fun s hs => ho.high s (hin s hs)) (fun s hs => ho.reach s (hin s hs))).perm hsel

end Verif.Sampling
