import Verif.Smooth.CallLemmas
import Mathlib.Algebra.Order.AbsoluteValue.Basic
/-!
# Lemmas: smoothing along a line
-/
namespace Verif.Smooth
open Verif.Curvi Verif.CurviLine

variable {K : Type} [Field K] [LinearOrder K] [IsStrictOrderedRing K]

omit [LinearOrder K] [IsStrictOrderedRing K] in
theorem dist2_comm (p a : Pt K) : dist2 p a = dist2 a p := by unfold dist2; ring

theorem directed_eq (s : K) (c p q : Pt K) : directed s c p q c = onWay c (farther c p q) (pace s c p q) := by
  unfold directed
  simp only []
  rw [len2_eq, len2_eq, dist2_comm p c, dist2_comm q c]
  have hp : share s (dist2 c p) (dist2 c q) = pace s c p q := by
    unfold share pace
    by_cases h : max (dist2 c p) (dist2 c q) < tiny
    · rw [if_pos h, if_pos (max_lt_iff.1 h)]
    · rw [if_neg h, if_neg (fun k => h (max_lt_iff.2 k))]
      rw [mul_comm (4 : K), ← div_div]
      ring
  rw [hp]
  unfold farther
  by_cases h : dist2 c p > dist2 c q
  · rw [if_pos h, if_pos h, onWay_eq]
  · rw [if_neg h, if_neg h, onWay_eq]

section
variable {P : Type} [PointLike P] {g : Grid P} {n m : Nat}

theorem along_iff {t : NodeType} (h : Says g n m t) (b : Bool) : along b t = true ↔ Free b g n m := by
  unfold Free
  cases t <;> cases b <;> simp only [along, Says, Bool.not_true, Bool.not_false, Bool.false_eq_true, if_false, if_true] at * <;>
    first
      | (simp only [h, true_or, or_true]; done)
      | (simp only [h, h.1, true_or, or_true]; done)
      | (simp only [false_iff]; rintro (c | c); exact c.not_edgeN h.1; exact c.not_edgeM h.1)
      | (simp only [false_iff]; rintro (c | c); exact c.not_edgeM h.1; exact c.not_edgeM h.1)
      | skip
  all_goals first
    | (simp only [false_iff]; rintro (c | c); exact c.not_edgeN h.1; exact h.1.not_edgeM c)
    | (simp only [false_iff]; rintro (c | c); exact h (Or.inl c); exact h (Or.inr (Or.inl c)))
    | (simp only [false_iff]; rintro (c | c); exact h (Or.inl c); exact h (Or.inr (Or.inr c)))
    | (simp only [false_iff]; rintro (c | c); exact c.not_edgeM h.1; exact c.not_edgeM h.1)

end

omit [IsStrictOrderedRing K] in
theorem directNode_ok (geo : Geo K) (l : Line) (lo up : Nat × Nat) (types : Nat → Nat → NodeType) (c : Nat → Nat → Pt K)
    (g h : Grid (Pt K)) (hs : SameShape g h) {n m : Nat} (hn : n < g.numN) (hm : m < g.numM) :
    directNode geo l lo up types c n m h = .ok { h with cell := upd h.cell (n + h.sn) (m + h.sm) (if along l.alongN (types n m) then directedAt geo l lo up c n m (h.node n m) else h.node n m) } := by
  unfold directNode
  cases ha : along l.alongN (types n m)
  · rw [if_pos (by simp), if_neg Bool.false_ne_true, upd_same]
  · rw [if_neg (by simp), getNode_ok (by rw [hs.numN]; exact hn) (by rw [hs.numM]; exact hm), Res.ok_bind,
      setNode_ok _ (by rw [hs.numN]; exact hn) (by rw [hs.numM]; exact hm), if_pos rfl]

omit [IsStrictOrderedRing K] in
theorem solveDirectional_total (geo : Geo K) (l : Line) (lo up : Nat × Nat) (types : Nat → Nat → NodeType) (g : Grid (Pt K))
    (h1 : up.1 < g.numN) (h2 : up.2 < g.numM) : solveDirectional geo l lo up types g =
      .ok (mapBlock g lo.1 (up.1 + 1) lo.2 (up.2 + 1)
        (fun n m p => if along l.alongN (types n m) then directedAt geo l lo up g.cell n m p else p)) := by
  unfold solveDirectional
  exact forBlock g lo.1 (up.1 + 1) lo.2 (up.2 + 1)
      (fun n m p => if along l.alongN (types n m) then directedAt geo l lo up g.cell n m p else p) (directNode geo l lo up types g.cell)
      (fun n m h h1 h2 h3 h4 hs => directNode_ok geo l lo up types g.cell g h hs (by omega) (by omega))

theorem across_region (l : Line) (lo up : Nat × Nat) :
    l.across (regionOf l lo up).1 = l.across lo ∧ l.across (regionOf l lo up).2 = l.across up := by
  unfold Line.across regionOf
  cases l.alongN <;> simp

theorem solveDirectional_ok (geo : Geo K) (l : Line) (lo up : Nat × Nat) (types : Nat → Nat → NodeType) (g0 g : Grid (Pt K)) (hh : NoHidden g)
    (hl : l.In g) (hz : ZoneIn lo up g) (ht : ∀ n m, n < g.numN → m < g.numM → Says g0 n m (types n m)) :
    ∃ g', solveDirectional geo l (regionOf l lo up).1 (regionOf l lo up).2 types g = .ok g' ∧ DStep geo g0 l lo up g g' := by
  obtain ⟨r1, r2, r3, r4⟩ := region_in hl hz
  refine ⟨_, solveDirectional_total geo l _ _ types g r3 r4, mapBlock_shape .., fun i j h => mapBlock_hidden _ _ _ _ _ _ (by omega) (by omega) i j h,
    fun n m hn hm ho => ?_, fun n m hn hm w hf => ?_⟩
  · rw [mapBlock_node]
    split
    · rename_i w
      rw [if_neg]
      intro c
      exact ho ⟨(zone_iff l lo up n m).2 w, (along_iff (ht n m hn hm) _).1 c⟩
    · rfl
  · rw [mapBlock_node, if_pos ((zone_iff l lo up n m).1 w), if_pos ((along_iff (ht n m hn hm) _).2 hf)]
    unfold directedAt
    rw [noHidden_cell hh]
    obtain ⟨a1, a2⟩ := across_region l lo up
    rw [lineFactor_eq geo l (by rw [a1]; exact w.2.1) (by rw [a2]; exact w.2.2), a1, a2]
    unfold prevOf nextOf
    cases l.alongN
    · simp only [Bool.false_eq_true, if_false, directed_eq]
    · simp only [if_true, directed_eq]

theorem _root_.Verif.CurviLine.Line.In.same {P : Type} {g h : Grid P} {l : Line} (i : l.In g) (s : SameShape g h) : l.In h :=
  ⟨i.lt, i.straight, by rw [s.numN, s.numM]; exact i.first, by rw [s.numN, s.numM]; exact i.last⟩

theorem _root_.Verif.CurviLine.ZoneIn.same {P : Type} {g h : Grid P} {lo up : Nat × Nat} (i : ZoneIn lo up g) (s : SameShape g h) : ZoneIn lo up h :=
  ⟨i.n, i.m, by rw [s.numN, s.numM]; exact i.inside⟩

theorem directRounds_ok (geo : Geo K) (l : Line) (lo up : Nat × Nat) (types : Nat → Nat → NodeType) (g0 : Grid (Pt K)) (k : Nat)
    (g : Grid (Pt K)) (hh : NoHidden g) (hl : l.In g) (hz : ZoneIn lo up g)
    (ht : ∀ n m, n < g.numN → m < g.numM → Says g0 n m (types n m)) :
    ∃ g', directRounds geo l (regionOf l lo up).1 (regionOf l lo up).2 types k g = .ok g' ∧ DSteps geo g0 l lo up k g g' := by
  induction k generalizing g with
  | zero => exact ⟨g, rfl, .zero g⟩
  | succ k ih =>
    obtain ⟨g1, h1, s⟩ := solveDirectional_ok geo l lo up types g0 g hh hl hz ht
    obtain ⟨g2, h2, t⟩ := ih g1 (noHidden_same s.shape hh) (hl.same s.shape) (hz.same s.shape)
      (by rw [s.shape.numN, s.shape.numM]; exact ht)
    exact ⟨g2, by rw [directRounds, h1, Res.ok_bind]; exact h2, .next s t⟩

omit [IsStrictOrderedRing K] in
theorem directRounds_total (geo : Geo K) (l : Line) (lo up : Nat × Nat) (types : Nat → Nat → NodeType) (k : Nat)
    (g : Grid (Pt K)) (h1 : up.1 < g.numN) (h2 : up.2 < g.numM) :
    ∃ g', directRounds geo l lo up types k g = .ok g' ∧ SameShape g g' := by
  induction k generalizing g with
  | zero => exact ⟨g, rfl, rfl, rfl, rfl, rfl, rfl, rfl⟩
  | succ k ih =>
    obtain ⟨g2, h3, h4⟩ := ih (mapBlock g lo.1 (up.1 + 1) lo.2 (up.2 + 1)
        (fun n m p => if along l.alongN (types n m) then directedAt geo l lo up g.cell n m p else p)) h1 h2
    exact ⟨g2, by rw [directRounds, solveDirectional_total geo l lo up types g h1 h2, Res.ok_bind]; exact h3, (mapBlock_shape ..).trans h4⟩

omit [IsStrictOrderedRing K] in
theorem DSteps.shape {geo : Geo K} {g0 : Grid (Pt K)} {l : Line} {lo up : Nat × Nat} {k : Nat} {g g' : Grid (Pt K)}
    (h : DSteps geo g0 l lo up k g g') : SameShape g g' := by
  induction h with
  | zero g => exact ⟨rfl, rfl, rfl, rfl, rfl, rfl⟩
  | next s _ ih => exact s.shape.trans ih

omit [IsStrictOrderedRing K] in
/-- A property of the nodes that each round keeps. -/
theorem DSteps.keep {geo : Geo K} {g0 : Grid (Pt K)} {l : Line} {lo up : Nat × Nat} (I : (Nat → Nat → Pt K) → Prop)
    (hI : ∀ g g', SameShape g0 g → DStep geo g0 l lo up g g' → I g.node → I g'.node) {k : Nat} {g g' : Grid (Pt K)}
    (h : DSteps geo g0 l lo up k g g') (h0 : SameShape g0 g) (hi : I g.node) : I g'.node := by
  induction h with
  | zero g => exact hi
  | next s _ ih => exact ih (h0.trans s.shape) (hI _ _ h0 s hi)

theorem tiny_pos : (0 : K) < tiny := by unfold tiny; positivity

theorem pace_nonneg {f : K} (hf : 0 ≤ f) (p a b : Pt K) : 0 ≤ pace f p a b := by
  unfold pace
  split
  · positivity
  · have := dist2_nonneg p a
    have h2 : 0 ≤ max (dist2 p a) (dist2 p b) := le_max_of_le_left this
    positivity

/-- Unless both neighbours are very near, a node moves by at most a quarter of the way. -/
theorem pace_le {f : K} (h1 : f ≤ 1) (p a b : Pt K) (ht : ¬ (dist2 p a < tiny ∧ dist2 p b < tiny)) : pace f p a b ≤ 1 / 4 := by
  unfold pace
  rw [if_neg ht]
  have ha := dist2_nonneg p a
  have hb := dist2_nonneg p b
  have hm : 0 < max (dist2 p a) (dist2 p b) := by
    by_contra c
    apply ht
    have := tiny_pos (K := K)
    exact max_lt_iff.1 (lt_of_le_of_lt (not_lt.1 c) this)
  have hd : |dist2 p b - dist2 p a| ≤ max (dist2 p a) (dist2 p b) := by
    have l1 := le_max_left (dist2 p a) (dist2 p b)
    have l2 := le_max_right (dist2 p a) (dist2 p b)
    rw [abs_le]
    constructor <;> linarith
  rw [div_le_iff₀ (by linarith)]
  have : f * |dist2 p b - dist2 p a| ≤ 1 * |dist2 p b - dist2 p a| := mul_le_mul_of_nonneg_right h1 (abs_nonneg _)
  linarith

theorem pace_le_half {f : K} (h1 : f ≤ 1) (p a b : Pt K) : pace f p a b ≤ 1 / 2 := by
  by_cases ht : dist2 p a < tiny ∧ dist2 p b < tiny
  · unfold pace; rw [if_pos ht]
  · have := pace_le h1 p a b ht
    linarith

omit [IsStrictOrderedRing K] in
theorem fading_le (geo : Geo K) (hgeo : geo.Good) (x c lo up : Nat) : fading geo x c lo up ≤ 1 := by
  unfold fading
  split
  · split
    · exact le_refl _
    · exact hgeo.bell_le _ _
  · exact hgeo.bell_le _ _

section
variable {P : Type} [PointLike P] {g : Grid P} {n m : Nat}

/-- A node that may move has both neighbours along the line. -/
theorem Free.around {b : Bool} (h : Free b g n m) : valid (g.node n m) = true ∧
    (if b then (0 < n ∧ n + 1 < g.numN) ∧ valid (g.node (n - 1) m) = true ∧ valid (g.node (n + 1) m) = true
    else (0 < m ∧ m + 1 < g.numM) ∧ valid (g.node n (m - 1)) = true ∧ valid (g.node n (m + 1)) = true) := by
  rcases h with h | h
  · obtain ⟨v0, v1, v2, v3, v4⟩ := h.around
    refine ⟨v0, ?_⟩
    cases b
    · exact ⟨h.2.1, v3, v4⟩
    · exact ⟨h.1, v1, v2⟩
  · cases b
    · simp only [Bool.false_eq_true, if_false] at h
      exact ⟨h.2.1, h.1, h.2.2.1, h.2.2.2.1⟩
    · simp only [if_true] at h
      exact ⟨h.2.1, h.1, h.2.2.1, h.2.2.2.1⟩

end

end Verif.Smooth
