import Verif.Splines.ApiLemmas
/-!
# C48: splines are the natural cubic splines through their control points
-/
namespace Verif.Splines
open Verif.Polygons (Pt findIndices missingDouble outerSep isSep)

/-- **C48.** Through the control points of a spline there is exactly one natural cubic spline. -/
theorem curve_exists_unique {ps : List Pt} (hne : ps ≠ []) :
    ∃ X Y, Curve ps X Y ∧ ∀ X' Y', Curve ps X' Y' → X' = X ∧ Y' = Y :=
  ⟨_, _, ⟨natural_exists (by simpa using hne), natural_exists (by simpa using hne)⟩, fun _ _ h => ⟨by rw [natural_unique h.x], by rw [natural_unique h.y]⟩⟩

/-- **C48, for the tolerance of the code.** The evaluation at `n + t` gives the point of piece `n` of the natural cubic spline at
`t`, for `t` from the tolerance on; below it, the control point. -/
theorem evaluation_partial {ps : List Pt} {X Y : List Cubic} (h : Curve ps X Y) {n : Nat} {t : ℚ} (h0 : 0 ≤ t) (h1 : t < 1) :
    (n + 1 < ps.length → eps ≤ t → evaluate ps (secondPts ps) ((n : ℚ) + t) = .ok (pointAt X Y n t)) ∧
    (∀ p, ps[n]? = some p → t < eps → evaluate ps (secondPts ps) ((n : ℚ) + t) = .ok p) :=
  ⟨fun hn ht => evaluate_between h hn ht h1, fun _ hp ht => evaluate_near hp h0 ht⟩

/-- **C48.** The spline goes through every control point, the pieces meet there. -/
theorem control_points_hit {ps : List Pt} {X Y : List Cubic} (h : Curve ps X Y) {n : Nat} {p q : Pt} (hp : ps[n]? = some p) (hq : ps[n + 1]? = some q) :
    evaluate ps (secondPts ps) n = .ok p ∧ pointAt X Y n 0 = p ∧ pointAt X Y n 1 = q := by
  have h0 := (List.getElem?_eq_some_iff.1 hq).1
  have hm0 := List.getElem?_eq_getElem (l := secondPts ps) (show n < (secondPts ps).length by rw [secondPts_length]; omega)
  have hm1 := List.getElem?_eq_getElem (l := secondPts ps) (show n + 1 < (secondPts ps).length by rw [secondPts_length]; omega)
  refine ⟨?_, ?_, ?_⟩
  · have := evaluate_near (ms := secondPts ps) hp (t := 0) (le_refl _) (by unfold eps; norm_num)
    simpa using this
  · rw [pointAt_eq h hp hq hm0 hm1]
    unfold cubic
    cases p
    simp
  · rw [pointAt_eq h hp hq hm0 hm1]
    unfold cubic
    cases q
    simp

example : ∃ X Y, Curve [⟨0, 0⟩, ⟨1, 2⟩, ⟨3, 1⟩] X Y ∧ evaluate [⟨0, 0⟩, ⟨1, 2⟩, ⟨3, 1⟩] (secondPts [⟨0, 0⟩, ⟨1, 2⟩, ⟨3, 1⟩]) (1 / 2) = .ok (pointAt X Y 0 (1 / 2)) ∧
    evaluate [⟨0, 0⟩, ⟨1, 2⟩, ⟨3, 1⟩] (secondPts [⟨0, 0⟩, ⟨1, 2⟩, ⟨3, 1⟩]) (1 / 2) = .ok ⟨13 / 32, 41 / 32⟩ := by
  obtain ⟨X, Y, h, _⟩ := curve_exists_unique (ps := [⟨0, 0⟩, ⟨1, 2⟩, ⟨3, 1⟩]) (by simp)
  refine ⟨X, Y, h, ?_, by decide +kernel⟩
  have := (evaluation_partial h (n := 0) (t := 1 / 2) (by norm_num) (by norm_num)).1 (by simp) (by unfold eps; norm_num)
  simpa using this

/-- The tolerance shows: between a control point and its neighbourhood the evaluation jumps. -/
theorem evaluation_jumps : evaluate [⟨0, 0⟩, ⟨1000000, 0⟩] (secondPts [⟨0, 0⟩, ⟨1000000, 0⟩]) (1 / 100001) = .ok ⟨0, 0⟩ ∧
    evaluate [⟨0, 0⟩, ⟨1000000, 0⟩] (secondPts [⟨0, 0⟩, ⟨1000000, 0⟩]) (1 / 100000) = .ok ⟨10, 0⟩ := by decide +kernel

/-! ## Geometry -/

/-- **C48.** Equally spaced control points on a line give that line; two points give the segment between them. -/
theorem straight {ps : List Pt} {X Y : List Cubic} (h : Curve ps X Y) (a v : Pt) (hps : ∀ (n : Nat) p, ps[n]? = some p → p = ⟨a.x + n * v.x, a.y + n * v.y⟩)
    {n : Nat} (hn : n + 1 < ps.length) (t : ℚ) : pointAt X Y n t = ⟨a.x + (n + t) * v.x, a.y + (n + t) * v.y⟩ := by
  have key : ∀ (ys : List ℚ) (S : List Cubic) (b w : ℚ), NaturalSpline ys S → (∀ (n : Nat) y, ys[n]? = some y → y = b + n * w) → n + 1 < ys.length →
      ((S[n]?).map fun s => s.value t).getD 0 = b + (n + t) * w := by
    intro ys S b w hS hy hn
    have hlin : NaturalSpline ys ((List.range (ys.length - 1)).map fun n : Nat => (⟨b + n * w, w, 0, 0⟩ : Cubic)) := by
      have get : ∀ {i : Nat} {s : Cubic}, ((List.range (ys.length - 1)).map fun n : Nat => (⟨b + n * w, w, 0, 0⟩ : Cubic))[i]? = some s →
          s = ⟨b + i * w, w, 0, 0⟩ := by
        intro i s hs
        rw [List.getElem?_map] at hs
        cases hr : (List.range (ys.length - 1))[i]? with
        | none => rw [hr] at hs; simp at hs
        | some j =>
          rw [hr] at hs
          obtain ⟨hj, hij⟩ := List.getElem?_eq_some_iff.1 hr
          rw [List.getElem_range] at hij
          subst hij
          simpa using hs.symm
      refine ⟨by simp; omega, ?_, ?_, ?_, ?_, ?_, ?_⟩
      · intro i s y hs hy'
        rw [get hs, hy i y hy']
        simp [Cubic.value]
      · intro i s y hs hy'
        rw [get hs, hy (i + 1) y hy']
        simp only [Cubic.value]
        push_cast
        ring
      · intro i s r hs hr
        rw [get hs, get hr]
        simp [Cubic.slope]
      · intro i s r hs hr
        rw [get hs, get hr]
        simp [Cubic.bend]
      · intro s hs
        rw [get hs]
        simp [Cubic.bend]
      · intro s hs
        rw [get hs]
        simp [Cubic.bend]
    rw [natural_unique hS, ← natural_unique hlin, List.getElem?_map, List.getElem?_range (by omega)]
    simp only [Option.map_some, Option.getD_some, Cubic.value]
    ring
  have hx := key _ X a.x v.x h.x (by
    intro n y hy
    rw [List.getElem?_map] at hy
    obtain ⟨p, hp, rfl⟩ := Option.map_eq_some_iff.1 hy
    rw [hps n p hp]) (by simpa using hn)
  have hy := key _ Y a.y v.y h.y (by
    intro n y hy
    rw [List.getElem?_map] at hy
    obtain ⟨p, hp, rfl⟩ := Option.map_eq_some_iff.1 hy
    rw [hps n p hp]) (by simpa using hn)
  unfold pointAt
  rw [hx, hy]

example : (∀ (n : Nat) p, ([⟨1, 0⟩, ⟨3, 1⟩, ⟨5, 2⟩] : List Pt)[n]? = some p → p = ⟨(⟨1, 0⟩ : Pt).x + n * (⟨2, 1⟩ : Pt).x, (⟨1, 0⟩ : Pt).y + n * (⟨2, 1⟩ : Pt).y⟩) := by
  intro n p hp
  match n, hp with
  | 0, hp => simp at hp; subst hp; norm_num
  | 1, hp => simp at hp; subst hp; norm_num
  | 2, hp => simp at hp; subst hp; norm_num

/-- **C48.** A spline that is moved stays the same curve, moved. -/
theorem translated {ps : List Pt} {X Y X' Y' : List Cubic} (v : Pt) (h : Curve ps X Y) (h' : Curve (ps.map fun p => ⟨p.x + v.x, p.y + v.y⟩) X' Y')
    {n : Nat} (hn : n + 1 < ps.length) (t : ℚ) : pointAt X' Y' n t = ⟨(pointAt X Y n t).x + v.x, (pointAt X Y n t).y + v.y⟩ := by
  have key : ∀ (ys : List ℚ) (S S' : List Cubic) (w : ℚ), NaturalSpline ys S → NaturalSpline (ys.map fun y => y + w) S' → n + 1 < ys.length →
      ((S'[n]?).map fun s => s.value t).getD 0 = ((S[n]?).map fun s => s.value t).getD 0 + w := by
    intro ys S S' w hS hS' hn
    have hm : NaturalSpline (ys.map fun y => y + w) (S.map fun s => ⟨s.c0 + w, s.c1, s.c2, s.c3⟩) := by
      refine ⟨by simpa using hS.pieces, ?_, ?_, ?_, ?_, ?_, ?_⟩
      · intro i s y hs hy
        rw [List.getElem?_map] at hs hy
        obtain ⟨s, hs', rfl⟩ := Option.map_eq_some_iff.1 hs
        obtain ⟨y, hy', rfl⟩ := Option.map_eq_some_iff.1 hy
        have := hS.starts i s y hs' hy'
        simp only [Cubic.value] at this ⊢
        linarith
      · intro i s y hs hy
        rw [List.getElem?_map] at hs hy
        obtain ⟨s, hs', rfl⟩ := Option.map_eq_some_iff.1 hs
        obtain ⟨y, hy', rfl⟩ := Option.map_eq_some_iff.1 hy
        have := hS.ends i s y hs' hy'
        simp only [Cubic.value] at this ⊢
        linarith
      · intro i s r hs hr
        rw [List.getElem?_map] at hs hr
        obtain ⟨s, hs', rfl⟩ := Option.map_eq_some_iff.1 hs
        obtain ⟨r, hr', rfl⟩ := Option.map_eq_some_iff.1 hr
        exact hS.slopes i s r hs' hr'
      · intro i s r hs hr
        rw [List.getElem?_map] at hs hr
        obtain ⟨s, hs', rfl⟩ := Option.map_eq_some_iff.1 hs
        obtain ⟨r, hr', rfl⟩ := Option.map_eq_some_iff.1 hr
        exact hS.bends i s r hs' hr'
      · intro s hs
        rw [List.getElem?_map] at hs
        obtain ⟨s, hs', rfl⟩ := Option.map_eq_some_iff.1 hs
        exact hS.first s hs'
      · intro s hs
        rw [List.getElem?_map, List.length_map] at hs
        obtain ⟨s, hs', rfl⟩ := Option.map_eq_some_iff.1 hs
        exact hS.last s hs'
    have hp := hS.pieces
    rw [natural_unique hS', ← natural_unique hm, List.getElem?_map, List.getElem?_eq_getElem (show n < S.length by omega)]
    simp only [Option.map_some, Option.getD_some, Cubic.value]
    ring
  have hx := key _ X X' v.x h.x (by have := h'.x; simpa [List.map_map, Function.comp_def] using this) (by simpa using hn)
  have hy := key _ Y Y' v.y h.y (by have := h'.y; simpa [List.map_map, Function.comp_def] using this) (by simpa using hn)
  simp only [pointAt]
  rw [hx, hy]

/-- **C48.** The reversed control points give the same curve, run through the other way around. -/
theorem reversed {ps : List Pt} {X Y X' Y' : List Cubic} (h : Curve ps X Y) (h' : Curve ps.reverse X' Y') {n : Nat} (hn : n + 1 < ps.length) (t : ℚ) :
    pointAt X' Y' n t = pointAt X Y (ps.length - 2 - n) (1 - t) := by
  have a0 := List.getElem?_eq_getElem (show ps.length - 2 - n < ps.length by omega)
  have a1 := List.getElem?_eq_getElem (show ps.length - 2 - n + 1 < ps.length by omega)
  have b0 := List.getElem?_eq_getElem (l := secondPts ps) (show ps.length - 2 - n < (secondPts ps).length by rw [secondPts_length]; omega)
  have b1 := List.getElem?_eq_getElem (l := secondPts ps) (show ps.length - 2 - n + 1 < (secondPts ps).length by rw [secondPts_length]; omega)
  have c0 : ps.reverse[n]? = ps[ps.length - 2 - n + 1]? := by
    rw [List.getElem?_reverse (by omega)]; congr 1; omega
  have c1 : ps.reverse[n + 1]? = ps[ps.length - 2 - n]? := by
    rw [List.getElem?_reverse (by omega)]; congr 1; omega
  have d0 : (secondPts ps.reverse)[n]? = (secondPts ps)[ps.length - 2 - n + 1]? := by
    rw [secondPts_reverse, List.getElem?_reverse (by rw [secondPts_length]; omega), secondPts_length]; congr 1; omega
  have d1 : (secondPts ps.reverse)[n + 1]? = (secondPts ps)[ps.length - 2 - n]? := by
    rw [secondPts_reverse, List.getElem?_reverse (by rw [secondPts_length]; omega), secondPts_length]; congr 1; omega
  rw [pointAt_eq h a0 a1 b0 b1, pointAt_eq h' (c0.trans a1) (c1.trans a0) (d0.trans b1) (d1.trans b0)]
  unfold cubic
  congr 1 <;> ring

/-! ## The interface -/

/-- **C48, except for lists with a missing value on a curve and for 100000 or more points between control points.** The points
handed out are those of the natural cubic splines through the control points handed in, spline by spline. -/
theorem splines_handed_out_partial {l : List (List Pt)} (hl : l ≠ []) (h : ∀ r ∈ l, r ≠ [] ∧ Plain r) {count : Nat} (hc : count < 100000)
    (X Y : List Pt → List Cubic) (hXY : ∀ r ∈ l, Curve r (X r) (Y r)) (hv : ∀ r ∈ l, SamplesValid r (X r) (Y r) count) :
    getSplines (joined l) count = .ok (joined (l.map fun r => sampled r (X r) (Y r) count)) :=
  getSplines_ok _ hl (fun r hr => ⟨(h r hr).1, (h r hr).2, oneSpline_ok (h r hr).1 (hXY r hr) hc (hv r hr)⟩)

/-- The two splines handed in come back with one point in the middle of each piece. -/
example : getSplines (joined [[⟨0, 0⟩, ⟨2, 4⟩], [⟨0, 0⟩, ⟨1, 2⟩, ⟨3, 1⟩]]) 1 =
    .ok (joined [[⟨0, 0⟩, ⟨1, 2⟩, ⟨2, 4⟩], [⟨0, 0⟩, ⟨13 / 32, 41 / 32⟩, ⟨1, 2⟩, ⟨61 / 32, 57 / 32⟩, ⟨3, 1⟩]]) := by decide +kernel

example : ∃ X Y : List Cubic, Curve [⟨0, 0⟩, ⟨2, 4⟩] X Y ∧ SamplesValid [⟨0, 0⟩, ⟨2, 4⟩] X Y 1 := by
  obtain ⟨X, Y, h, _⟩ := curve_exists_unique (ps := [⟨0, 0⟩, ⟨2, 4⟩]) (by simp)
  refine ⟨X, Y, h, ?_⟩
  intro n k hn hk
  simp only [List.length_cons, List.length_nil] at hn
  obtain rfl : n = 0 := by omega
  obtain rfl : k = 0 := by omega
  rw [straight h ⟨0, 0⟩ ⟨2, 4⟩ (by
    intro n p hp
    match n, hp with
    | 0, hp => simp at hp; subst hp; norm_num
    | 1, hp => simp at hp; subst hp; norm_num) (by simp)]
  decide +kernel

/-- A point of the curve with a missing coordinate, and all that follow up to the next control point, are left out. -/
theorem points_dropped : getSplines [⟨-998, 0⟩, ⟨-1000, 0⟩] 1 = .ok [⟨-998, 0⟩, ⟨-1000, 0⟩] ∧
    getSplines [⟨-998, 0⟩, ⟨-1002, 0⟩] 3 = .ok [⟨-998, 0⟩, ⟨-1002, 0⟩] := by decide +kernel

/-- With 100000 or more points between two control points, the first of them is not on the curve: it repeats the control
point. -/
theorem control_point_repeated {p q : Pt} (h : Plain [p, q]) (hp : p.isValid = true) {count : Nat} (hc : 100000 ≤ count) {out : List Pt}
    (ho : getSplines [p, q] count = .ok out) : out[0]? = some p ∧ out[1]? = some p := by
  unfold getSplines at ho
  rw [if_neg (by simp)] at ho
  unfold findIndices at ho
  rw [if_neg (by simp), if_neg (by simp), List.take_length, List.drop_zero] at ho
  have hj := Polygons.findLoop_join Polygons.outerSep_isSep 2 [[p, q]] (by
    intro b hb
    rw [List.mem_singleton.1 hb]
    exact ⟨by simp, h⟩) 0
  rw [Polygons.join_one] at hj
  rw [show ([p, q] : List Pt).length = 2 from rfl, hj] at ho
  simp only [Polygons.spans, allSplines] at ho
  simp only [oneSpline, segments, List.drop_zero, List.take_succ_cons, List.take_zero, List.length_cons, List.length_nil, vget, List.getElem?_cons_zero, Res.ok_bind] at ho
  obtain ⟨qs, h1, ho⟩ := Res.bind_eq_ok.1 ho
  obtain ⟨rs, h2, h3⟩ := Res.bind_eq_ok.1 h1
  simp only [Res.ok.injEq] at h3
  subst h3
  have hpos : (0 : ℚ) < (count : ℚ) + 1 := by positivity
  have hq : ((1 : Nat) : ℚ) / ((count : ℚ) + 1) < eps := by
    rw [div_lt_iff₀ hpos]
    unfold eps
    have : (100000 : ℚ) ≤ count := by exact_mod_cast hc
    push_cast
    linarith
  have hpos' : (0 : ℚ) ≤ ((1 : Nat) : ℚ) / ((count : ℚ) + 1) := by positivity
  obtain ⟨c, rfl⟩ : ∃ c, count = c + 1 := ⟨count - 1, by omega⟩
  have := evaluate_near (ps := [p, q]) (ms := secondPts [p, q]) (n := 0) (p := p) rfl hpos' hq
  rw [between, this] at h2
  simp only [Res.ok_bind, hp, Bool.not_true, Bool.false_eq_true, if_false] at h2
  obtain ⟨qs, _, h4⟩ := Res.bind_eq_ok.1 h2
  simp only [Res.ok.injEq] at h4
  subst h4
  simp only [Res.ok.injEq, List.getLast?_cons_cons, List.getLast?_singleton] at ho
  subst ho
  simp

example : Plain [⟨0, 0⟩, ⟨1, 0⟩] ∧ (⟨0, 0⟩ : Pt).isValid = true := by
  constructor
  · intro p hp
    rcases List.mem_cons.1 hp with rfl | hp
    · decide +kernel
    · rw [List.mem_singleton.1 hp]; decide +kernel
  · decide +kernel

/-! ## Histories of the container -/

/-- **C48, without adding single points.** Whatever splines are added, replaced, deleted, swapped and reversed, each spline of the
container evaluates to the natural cubic spline through its control points. -/
theorem histories_partial {es : List Edit} (hp : ∀ e ∈ es, e.PlainPoints) {s : Container} (h : run ⟨[], []⟩ es = .ok s) {i : Nat} {ps : List Pt}
    (hi : s.nodes[i]? = some ps) {X Y : List Cubic} (hc : Curve ps X Y) {n : Nat} (hn : n + 1 < ps.length) {t : ℚ} (h0 : eps ≤ t) (h1 : t < 1) :
    evaluateAt s i ((n : ℚ) + t) = .ok (pointAt X Y n t) := by
  obtain ⟨hk, hpl⟩ := run_kept hp h (s := ⟨[], []⟩) ⟨⟨rfl, by simp⟩, by simp⟩
  have hd := hk.each i ps hi
  rw [splineDerivative_plain (hpl ps (List.mem_of_getElem? hi))] at hd
  unfold evaluateAt
  rw [if_neg (by have := (List.getElem?_eq_some_iff.1 hi).1; omega), vget_some hi, vget_some hd]
  exact evaluate_between hc hn h0 h1

/-- **C48.** The edits do what they say to the control points, and stop at indices out of range. -/
theorem edits_nodes (s : Container) (hk : Kept s) :
    (∀ ps, ps ≠ [] → ∃ s', apply s (.add ps) = .ok s' ∧ s'.nodes = s.nodes ++ [ps]) ∧
    (∀ i ps, i < s.nodes.length → ∃ s', apply s (.replace i ps) = .ok s' ∧ s'.nodes = s.nodes.set i ps) ∧
    (∀ i, i < s.nodes.length → ∃ s', apply s (.delete i) = .ok s' ∧ s'.nodes = s.nodes.eraseIdx i) ∧
    (∀ i ps, s.nodes[i]? = some ps → ∃ s', apply s (.reverse i) = .ok s' ∧ s'.nodes = s.nodes.set i ps.reverse) ∧
    (∀ i j ps qs, s.nodes[i]? = some ps → s.nodes[j]? = some qs → ∃ s', apply s (.swap i j) = .ok s' ∧ s'.nodes = (s.nodes.set i qs).set j ps) ∧
    (∀ i j, ¬ (i < s.nodes.length ∧ j < s.nodes.length) → apply s (.swap i j) = .throw) ∧
    (∀ i, ¬ i < s.nodes.length → apply s (.reverse i) = .throw) := by
  have hlen := hk.len
  refine ⟨?_, ?_, ?_, ?_, ?_, ?_, ?_⟩
  · intro ps hne
    have hl := List.length_pos_iff.2 hne
    refine ⟨⟨s.nodes ++ [ps], s.derivatives ++ [splineDerivative ps]⟩, ?_, rfl⟩
    unfold apply addSpline
    simp only []
    rw [if_neg (by omega), if_neg (by omega)]
    simp
  · intro i ps hi
    refine ⟨⟨s.nodes.set i ps, s.derivatives.set i (splineDerivative ps)⟩, ?_, rfl⟩
    unfold apply replace
    simp only []
    rw [vset_ok _ hi, Res.ok_bind, vset_ok _ (by omega), Res.ok_bind]
  · intro i hi
    refine ⟨⟨s.nodes.eraseIdx i, s.derivatives.eraseIdx i⟩, ?_, rfl⟩
    unfold apply deleteSpline
    simp only []
    rw [if_neg (by omega)]
  · intro i ps hi
    have hi' := (List.getElem?_eq_some_iff.1 hi).1
    obtain ⟨c, hc⟩ : ∃ c, s.derivatives[i]? = some c := ⟨_, hk.each i ps hi⟩
    refine ⟨⟨s.nodes.set i ps.reverse, s.derivatives.set i c.reverse⟩, ?_, rfl⟩
    unfold apply reverse
    simp only []
    rw [if_neg (by omega), vget_some hi, Res.ok_bind, vset_ok _ hi', Res.ok_bind, vget_some hc, Res.ok_bind, vset_ok _ (by omega), Res.ok_bind]
  · intro i j ps qs hi hj
    have hi' := (List.getElem?_eq_some_iff.1 hi).1
    have hj' := (List.getElem?_eq_some_iff.1 hj).1
    by_cases hij : i = j
    · subst hij
      rw [hi] at hj
      obtain rfl := Option.some.inj hj
      refine ⟨s, ?_, ?_⟩
      · unfold apply swapSplines
        simp only []
        rw [if_neg (by omega), if_neg (by omega), if_pos trivial]
      · rw [List.set_set]
        apply List.ext_getElem?
        intro k
        rw [List.getElem?_set]
        split
        · rename_i hk'; subst hk'; simp only [hi', if_true, hi]
        · rfl
    · have hc := hk.each i ps hi
      have hd := hk.each j qs hj
      refine ⟨⟨(s.nodes.set i qs).set j ps, (s.derivatives.set i (splineDerivative qs)).set j (splineDerivative ps)⟩, ?_, rfl⟩
      unfold apply swapSplines
      simp only []
      rw [if_neg (by omega), if_neg (by omega), if_neg hij, vget_some hi, Res.ok_bind, vget_some hj, Res.ok_bind, vset_ok _ hi', Res.ok_bind,
        vset_ok _ (by simpa using hj'), Res.ok_bind, vget_some hc, Res.ok_bind, vget_some hd, Res.ok_bind, vset_ok _ (by omega), Res.ok_bind,
        vset_ok _ (by simp; omega), Res.ok_bind]
  · intro i j hij
    unfold apply swapSplines
    simp only []
    by_cases hi : s.nodes.length ≤ i
    · rw [if_pos hi]
    · rw [if_neg hi, if_pos (by omega)]
  · intro i hi
    unfold apply reverse
    simp only []
    rw [if_pos (by omega)]

example : ∃ s, run ⟨[], []⟩ [.add [⟨0, 0⟩, ⟨1, 2⟩, ⟨3, 1⟩], .add [⟨5, 5⟩, ⟨6, 6⟩], .swap 0 1, .reverse 1, .replace 0 [⟨1, 1⟩, ⟨2, 2⟩], .delete 0] = .ok s ∧
    s.nodes = [[⟨3, 1⟩, ⟨1, 2⟩, ⟨0, 0⟩]] ∧ evaluateAt s 0 (1 / 2) = .ok ⟨61 / 32, 57 / 32⟩ := by
  refine ⟨⟨[[⟨3, 1⟩, ⟨1, 2⟩, ⟨0, 0⟩]], [secondPts [⟨3, 1⟩, ⟨1, 2⟩, ⟨0, 0⟩]]⟩, ?_, rfl, ?_⟩ <;> decide +kernel

example : (Edit.add [⟨0, 0⟩, ⟨1, 2⟩, ⟨3, 1⟩]).PlainPoints := by
  intro p hp
  simp only [List.mem_cons, List.not_mem_nil, or_false] at hp
  rcases hp with rfl | rfl | rfl <;> decide +kernel

/-- Adding a point leaves the derivatives as they were: the new piece cannot be evaluated. -/
theorem added_point_not_evaluated : ∃ s s', run ⟨[], []⟩ [.add [⟨0, 0⟩, ⟨1, 2⟩]] = .ok s ∧ addPoint s 0 ⟨3, 1⟩ = .ok s' ∧
    s'.nodes = [[⟨0, 0⟩, ⟨1, 2⟩, ⟨3, 1⟩]] ∧ evaluateAt s' 0 (3 / 2) = .ub ∧ evaluateAt s' 0 (1 / 2) = .ok ⟨1 / 2, 1⟩ := by
  refine ⟨⟨[[⟨0, 0⟩, ⟨1, 2⟩]], [[⟨0, 0⟩, ⟨0, 0⟩]]⟩, ⟨[[⟨0, 0⟩, ⟨1, 2⟩, ⟨3, 1⟩]], [[⟨0, 0⟩, ⟨0, 0⟩]]⟩, ?_, ?_, rfl, ?_, ?_⟩ <;> decide +kernel

/-- The index just beyond the last spline is not refused when a point is added. -/
theorem added_point_out_of_range (s : Container) (p : Pt) : addPoint s s.nodes.length p = .ub := by
  unfold addPoint
  rw [if_neg (by omega)]
  have : vget s.nodes s.nodes.length = .ub := by unfold vget; simp
  rw [this]
  rfl

/-! ## Snapping a range of a spline -/

/-- Snapping a range that does not begin with the first point always reads beyond the points. -/
theorem snap_range_ub {snap : List Pt → List Pt} {cs : List Pt} {start fin : Int} (h0 : 0 < start) (h1 : start ≤ fin) (h2 : fin < cs.length) :
    snapSplines snap cs start fin = .ub := by
  have hc : cs ≠ [] := by rintro rfl; simp at h2; omega
  have hl : 0 < (convert cs).length := by
    cases cs with
    | nil => exact absurd rfl hc
    | cons p ps => simp [convert]
  unfold snapSplines
  rw [if_neg (by omega), if_neg (by omega), if_neg (by simpa using hc), if_neg (by omega), if_neg (by omega)]
  unfold addSpline
  rw [if_neg (by omega), if_pos (by omega)]
  rfl

/-- **C48, for ranges from the first point on of points none of which repeats the one before.** The points of the range are the
snapped ones, the others stay as they are. -/
theorem snap_from_start_partial {snap : List Pt → List Pt} {cs : List Pt} {fin : Nat} (h : fin < cs.length) (hd : convert cs = cs)
    (hs : (snap cs).length = cs.length) : snapSplines snap cs 0 fin = .ok ((snap cs).take (fin + 1) ++ cs.drop (fin + 1)) := by
  have hc : cs ≠ [] := by rintro rfl; simp at h
  have hl := List.length_pos_iff.2 hc
  unfold snapSplines
  rw [if_neg (by omega), if_neg (by omega), if_neg (by simpa using hc), if_neg (by omega), if_neg (by omega), hd]
  unfold addSpline
  rw [if_neg (by omega), if_neg (by simp)]
  simp only [Res.ok_bind, List.nil_append, vget, List.getElem?_cons_zero, Int.toNat_zero, Nat.zero_add, List.take_length, List.drop_zero, Int.toNat_natCast, Nat.sub_zero]
  have := copyBack_ok (snapped := snap cs) (fin + 1) 0 cs (by omega) (by omega)
  simpa using this

/-- If points repeat, the points of the range are read beyond the end of the snapped ones. -/
theorem snap_repeated_ub {snap : List Pt → List Pt} {cs : List Pt} {fin : Nat} (h : fin < cs.length) (hd : (convert cs).length ≤ fin)
    (hs : (snap (convert cs)).length = (convert cs).length) : snapSplines snap cs 0 fin = .ub := by
  have hc : cs ≠ [] := by rintro rfl; simp at h
  have hl : 0 < (convert cs).length := by
    cases cs with
    | nil => exact absurd rfl hc
    | cons p ps => simp [convert]
  unfold snapSplines
  rw [if_neg (by omega), if_neg (by omega), if_neg (by simpa using hc), if_neg (by omega), if_neg (by omega)]
  unfold addSpline
  rw [if_neg (by omega), if_neg (by simp)]
  simp only [Res.ok_bind, List.nil_append, vget, List.getElem?_cons_zero, Int.toNat_zero, Nat.zero_add, List.take_length, List.drop_zero, Int.toNat_natCast, Nat.sub_zero]
  exact copyBack_ub (fin + 1) 0 cs (by omega) (by omega)

/-- Points after a repeated one are put one place too early: snapping that moves nothing moves the third point. -/
theorem snap_repeated_shifts : snapSplines id [⟨0, 0⟩, ⟨0, 0⟩, ⟨1, 0⟩, ⟨2, 0⟩] 0 1 = .ok [⟨0, 0⟩, ⟨1, 0⟩, ⟨1, 0⟩, ⟨2, 0⟩] := by decide +kernel

example : convert [⟨0, 0⟩, ⟨1, 0⟩, ⟨2, 0⟩] = [⟨0, 0⟩, ⟨1, 0⟩, ⟨2, 0⟩] ∧ (convert [⟨0, 0⟩, ⟨0, 0⟩, ⟨1, 0⟩]).length ≤ 2 := by decide +kernel

end Verif.Splines
