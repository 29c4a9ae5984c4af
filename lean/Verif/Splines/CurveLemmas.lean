import Verif.Splines.Lemmas
/-!
# Splines and their second derivatives
-/
namespace Verif.Splines
open Verif.Polygons (Pt findIndices missingDouble outerSep isSep)

/-- The cubic with values `y0`, `y1` and second derivatives `m0`, `m1` at the ends of the unit interval. -/
def piece (y0 y1 m0 m1 : ℚ) : Cubic := ⟨y0, y1 - y0 - m0 / 3 - m1 / 6, m0 / 2, (m1 - m0) / 6⟩

theorem piece_unique {s : Cubic} {y0 y1 m0 m1 : ℚ} (h1 : s.value 0 = y0) (h2 : s.value 1 = y1) (h3 : s.bend 0 = m0) (h4 : s.bend 1 = m1) :
    s = piece y0 y1 m0 m1 := by
  obtain ⟨c0, c1, c2, c3⟩ := s
  unfold Cubic.value at h1 h2
  unfold Cubic.bend at h3 h4
  simp only at h1 h2 h3 h4
  unfold piece
  congr 1 <;> linarith

theorem piece_value (y0 y1 m0 m1 t : ℚ) : (piece y0 y1 m0 m1).value t = cubic y0 y1 m0 m1 (1 - t) t := by
  unfold piece Cubic.value cubic; ring

theorem piece_zero (y0 y1 m0 m1 : ℚ) : (piece y0 y1 m0 m1).value 0 = y0 := by unfold piece Cubic.value; ring
theorem piece_one (y0 y1 m0 m1 : ℚ) : (piece y0 y1 m0 m1).value 1 = y1 := by unfold piece Cubic.value; ring
theorem piece_bend0 (y0 y1 m0 m1 : ℚ) : (piece y0 y1 m0 m1).bend 0 = m0 := by unfold piece Cubic.bend; ring
theorem piece_bend1 (y0 y1 m0 m1 : ℚ) : (piece y0 y1 m0 m1).bend 1 = m1 := by unfold piece Cubic.bend; ring
theorem piece_slope0 (y0 y1 m0 m1 : ℚ) : (piece y0 y1 m0 m1).slope 0 = y1 - y0 - m0 / 3 - m1 / 6 := by unfold piece Cubic.slope; ring
theorem piece_slope1 (y0 y1 m0 m1 : ℚ) : (piece y0 y1 m0 m1).slope 1 = y1 - y0 + m0 / 6 + m1 / 3 := by unfold piece Cubic.slope; ring

theorem slope1_of (s : Cubic) : s.slope 1 = s.value 1 - s.value 0 + s.bend 0 / 6 + s.bend 1 / 3 := by
  unfold Cubic.value Cubic.slope Cubic.bend; ring
theorem slope0_of (s : Cubic) : s.slope 0 = s.value 1 - s.value 0 - s.bend 0 / 3 - s.bend 1 / 6 := by
  unfold Cubic.value Cubic.slope Cubic.bend; ring

/-- The second derivatives of a natural spline at the control points. -/
def bendsOf (S : List Cubic) : List ℚ := S.map (fun s => s.bend 0) ++ [0]

theorem bendsOf_get {S : List Cubic} {i : Nat} {s : Cubic} (h : S[i]? = some s) : (bendsOf S)[i]? = some (s.bend 0) := by
  unfold bendsOf
  rw [List.getElem?_append_left (by simpa using (List.getElem?_eq_some_iff.1 h).1), List.getElem?_map, h]
  rfl

/-- The second derivative at the end of a piece is the one listed at its end. -/
theorem bendsOf_next {ys : List ℚ} {S : List Cubic} (h : NaturalSpline ys S) {i : Nat} {s : Cubic} (hs : S[i]? = some s) :
    (bendsOf S)[i + 1]? = some (s.bend 1) := by
  have hi := (List.getElem?_eq_some_iff.1 hs).1
  by_cases hc : i + 1 < S.length
  · have h2 := List.getElem?_eq_getElem hc
    rw [bendsOf_get h2, h.bends i s _ hs h2]
  · have : i = ys.length - 2 := by have := h.pieces; omega
    subst this
    rw [h.last s hs]
    unfold bendsOf
    rw [List.getElem?_append_right (by simp; omega)]
    simp only [List.length_map]
    have : ys.length - 2 + 1 - S.length = 0 := by omega
    rw [this]; rfl

theorem spline_system {ys : List ℚ} {S : List Cubic} (h : NaturalSpline ys S) : System ys (bendsOf S) := by
  refine ⟨by simp [bendsOf, h.pieces], ?_, by simp [bendsOf], ?_⟩
  · cases hS : S with
    | nil => rfl
    | cons s l =>
      have := h.first s (by rw [hS]; rfl)
      simpa [bendsOf] using this
  · intro i y0 y1 y2 m0 m1 m2 e0 e1 e2 f0 f1 f2
    have hi : i + 2 < S.length + 1 := by rw [h.pieces]; exact (List.getElem?_eq_some_iff.1 e2).1
    have s0 := List.getElem?_eq_getElem (show i < S.length by omega)
    have s1 := List.getElem?_eq_getElem (show i + 1 < S.length by omega)
    rw [bendsOf_get s0, Option.some.injEq] at f0
    rw [bendsOf_get s1, Option.some.injEq] at f1
    rw [bendsOf_next h s1, Option.some.injEq] at f2
    have b1 := h.bends i _ _ s0 s1
    have sl := h.slopes i _ _ s0 s1
    rw [slope1_of, slope0_of, h.starts i _ y0 s0 e0, h.ends i _ y1 s0 e1, h.starts (i + 1) _ y1 s1 e1, h.ends (i + 1) _ y2 s1 e2, b1, f0, f1, f2] at sl
    linarith

/-- The pieces of the natural spline. -/
def piecesOf : List ℚ → List ℚ → List Cubic
  | y0 :: y1 :: ys, m0 :: m1 :: ms => piece y0 y1 m0 m1 :: piecesOf (y1 :: ys) (m1 :: ms)
  | _, _ => []

theorem piecesOf_length : ∀ (ys ms : List ℚ), ms.length = ys.length → (piecesOf ys ms).length = ys.length - 1
  | [], _, _ => by simp [piecesOf]
  | [_], ms, _ => by simp [piecesOf]
  | y0 :: y1 :: ys, ms, h => by
    cases ms with
    | nil => simp at h
    | cons m0 ms =>
      cases ms with
      | nil => simp at h
      | cons m1 ms =>
        rw [piecesOf, List.length_cons, piecesOf_length (y1 :: ys) (m1 :: ms) (by simpa using h)]
        simp

theorem piecesOf_get : ∀ (ys ms : List ℚ) (i : Nat) {y0 y1 m0 m1 : ℚ}, ys[i]? = some y0 → ys[i + 1]? = some y1 → ms[i]? = some m0 →
    ms[i + 1]? = some m1 → (piecesOf ys ms)[i]? = some (piece y0 y1 m0 m1)
  | [], _, _, _, _, _, _, h, _, _, _ => by simp at h
  | [_], _, _, _, _, _, _, _, h, _, _ => by simp at h
  | _ :: _ :: _, [], _, _, _, _, _, _, _, h, _ => by simp at h
  | _ :: _ :: _, [_], _, _, _, _, _, _, _, _, h => by simp at h
  | a :: b :: ys, c :: d :: ms, i, y0, y1, m0, m1, h1, h2, h3, h4 => by
    cases i with
    | zero =>
      simp only [List.getElem?_cons_zero, List.getElem?_cons_succ, Nat.zero_add, Option.some.injEq] at h1 h2 h3 h4
      subst h1 h2 h3 h4
      rfl
    | succ i =>
      rw [piecesOf, List.getElem?_cons_succ]
      exact piecesOf_get (b :: ys) (d :: ms) i (by simpa using h1) (by simpa using h2) (by simpa using h3) (by simpa using h4)

/-- What piece `i` is made of. -/
theorem piecesOf_cases {ys : List ℚ} {i : Nat} {s : Cubic} (h : (piecesOf ys (second ys))[i]? = some s) :
    ∃ y0 y1 m0 m1, ys[i]? = some y0 ∧ ys[i + 1]? = some y1 ∧ (second ys)[i]? = some m0 ∧ (second ys)[i + 1]? = some m1 ∧ s = piece y0 y1 m0 m1 := by
  have hi := (List.getElem?_eq_some_iff.1 h).1
  rw [piecesOf_length _ _ (second_length ys)] at hi
  have hl := second_length ys
  have a1 := List.getElem?_eq_getElem (show i < ys.length by omega)
  have a2 := List.getElem?_eq_getElem (show i + 1 < ys.length by omega)
  have a3 := List.getElem?_eq_getElem (show i < (second ys).length by omega)
  have a4 := List.getElem?_eq_getElem (show i + 1 < (second ys).length by omega)
  refine ⟨_, _, _, _, a1, a2, a3, a4, ?_⟩
  rw [piecesOf_get ys (second ys) i a1 a2 a3 a4] at h
  exact (Option.some.inj h).symm

theorem natural_exists {ys : List ℚ} (hne : ys ≠ []) : NaturalSpline ys (piecesOf ys (second ys)) := by
  have hsys := second_system ys
  have hlen := List.length_pos_iff.2 hne
  have hml := second_length ys
  refine ⟨by rw [piecesOf_length _ _ hml]; omega, ?_, ?_, ?_, ?_, ?_, ?_⟩
  · intro i s y hs hy
    obtain ⟨y0, y1, m0, m1, e1, e2, e3, e4, rfl⟩ := piecesOf_cases hs
    rw [e1, Option.some.injEq] at hy
    rw [piece_zero, hy]
  · intro i s y hs hy
    obtain ⟨y0, y1, m0, m1, e1, e2, e3, e4, rfl⟩ := piecesOf_cases hs
    rw [e2, Option.some.injEq] at hy
    rw [piece_one, hy]
  · intro i s r hs hr
    obtain ⟨y0, y1, m0, m1, e1, e2, e3, e4, rfl⟩ := piecesOf_cases hs
    obtain ⟨z0, y2, n0, m2, f1, f2, f3, f4, rfl⟩ := piecesOf_cases hr
    rw [e2, Option.some.injEq] at f1
    rw [e4, Option.some.injEq] at f3
    subst f1 f3
    have := hsys.mid i y0 y1 y2 m0 m1 m2 e1 e2 f2 e3 e4 f4
    rw [piece_slope1, piece_slope0]
    linarith
  · intro i s r hs hr
    obtain ⟨y0, y1, m0, m1, e1, e2, e3, e4, rfl⟩ := piecesOf_cases hs
    obtain ⟨z0, y2, n0, m2, f1, f2, f3, f4, rfl⟩ := piecesOf_cases hr
    rw [e4, Option.some.injEq] at f3
    rw [piece_bend1, piece_bend0, f3]
  · intro s hs
    obtain ⟨y0, y1, m0, m1, e1, e2, e3, e4, rfl⟩ := piecesOf_cases hs
    have := hsys.first
    rw [List.headD_eq_head?_getD, List.head?_eq_getElem?, e3] at this
    rw [piece_bend0]; exact this
  · intro s hs
    obtain ⟨y0, y1, m0, m1, e1, e2, e3, e4, rfl⟩ := piecesOf_cases hs
    have h2 := (List.getElem?_eq_some_iff.1 e2).1
    have := hsys.last
    rw [List.getLastD_eq_getLast?, List.getLast?_eq_getElem?, hml, show ys.length - 1 = ys.length - 2 + 1 by omega, e4] at this
    rw [piece_bend1]; exact this

theorem natural_unique {ys : List ℚ} {S : List Cubic} (h : NaturalSpline ys S) : S = piecesOf ys (second ys) := by
  have hb := system_unique (spline_system h) (second_system ys)
  have hml := second_length ys
  apply List.ext_getElem?
  intro i
  by_cases hi : i < S.length
  · have hs := List.getElem?_eq_getElem hi
    have hp := h.pieces
    have a1 := List.getElem?_eq_getElem (show i < ys.length by omega)
    have a2 := List.getElem?_eq_getElem (show i + 1 < ys.length by omega)
    have g1 := bendsOf_get hs
    have g2 := bendsOf_next h hs
    rw [hb] at g1 g2
    rw [piecesOf_get ys (second ys) i a1 a2 g1 g2, hs]
    exact congrArg some (piece_unique (h.starts i _ _ hs a1) (h.ends i _ _ hs a2) rfl rfl)
  · rw [List.getElem?_eq_none (by omega), List.getElem?_eq_none]
    rw [piecesOf_length _ _ hml]
    have := h.pieces
    omega

/-! ## Points -/

theorem secondPts_length (ps : List Pt) : (secondPts ps).length = ps.length := by
  simp [secondPts, second_length]

theorem secondPts_get {ps : List Pt} {i : Nat} {m : Pt} (h : (secondPts ps)[i]? = some m) :
    (second (ps.map Pt.x))[i]? = some m.x ∧ (second (ps.map Pt.y))[i]? = some m.y := by
  unfold secondPts at h
  obtain ⟨a, b, h1, h2, rfl⟩ := List.getElem?_zipWith_eq_some.1 h
  exact ⟨h1, h2⟩

theorem pointAt_eq {ps : List Pt} {X Y : List Cubic} (h : Curve ps X Y) {n : Nat} {p0 p1 m0 m1 : Pt} (h0 : ps[n]? = some p0) (h1 : ps[n + 1]? = some p1)
    (g0 : (secondPts ps)[n]? = some m0) (g1 : (secondPts ps)[n + 1]? = some m1) (t : ℚ) :
    pointAt X Y n t = ⟨cubic p0.x p1.x m0.x m1.x (1 - t) t, cubic p0.y p1.y m0.y m1.y (1 - t) t⟩ := by
  unfold pointAt
  have e1 := piecesOf_get (ps.map Pt.x) (second (ps.map Pt.x)) n (y0 := p0.x) (y1 := p1.x) (by rw [List.getElem?_map, h0]; rfl) (by rw [List.getElem?_map, h1]; rfl)
    (secondPts_get g0).1 (secondPts_get g1).1
  have e2 := piecesOf_get (ps.map Pt.y) (second (ps.map Pt.y)) n (y0 := p0.y) (y1 := p1.y) (by rw [List.getElem?_map, h0]; rfl) (by rw [List.getElem?_map, h1]; rfl)
    (secondPts_get g0).2 (secondPts_get g1).2
  rw [natural_unique h.x, natural_unique h.y, e1, e2]
  simp only [Option.map_some, Option.getD_some, piece_value]

theorem vget_some {α : Type} {l : List α} {i : Nat} {a : α} (h : l[i]? = some a) : vget l i = .ok a := by unfold vget; rw [h]

/-- Evaluation between the control points `n` and `n + 1`. -/
theorem evaluate_between {ps : List Pt} {X Y : List Cubic} (h : Curve ps X Y) {n : Nat} (hn : n + 1 < ps.length) {t : ℚ} (h0 : eps ≤ t) (h1 : t < 1) :
    evaluate ps (secondPts ps) ((n : ℚ) + t) = .ok (pointAt X Y n t) := by
  have ht0 : 0 < t := lt_of_lt_of_le (by unfold eps; norm_num) h0
  have hf : ⌊(n : ℚ) + t⌋ = (n : Int) := by
    rw [Int.floor_eq_iff]
    constructor <;> push_cast <;> linarith
  have hl := secondPts_length ps
  have a0 := List.getElem?_eq_getElem (show n < ps.length by omega)
  have a1 := List.getElem?_eq_getElem hn
  have b0 := List.getElem?_eq_getElem (show n < (secondPts ps).length by omega)
  have b1 := List.getElem?_eq_getElem (show n + 1 < (secondPts ps).length by omega)
  rw [pointAt_eq h a0 a1 b0 b1]
  have hpos : ¬ (n : ℚ) + t < 0 := by
    have : (0 : ℚ) ≤ n := by exact_mod_cast Nat.zero_le n
    linarith
  unfold evaluate
  rw [if_neg hpos, hf]
  simp only [Int.toNat_natCast, Int.cast_natCast]
  rw [if_neg (by linarith), vget_some a0, vget_some a1, vget_some b0, vget_some b1]
  simp only [Res.ok_bind]
  have ea : ((n + 1 : Nat) : ℚ) - ((n : ℚ) + t) = 1 - t := by push_cast; ring
  have eb : (n : ℚ) + t - (n : ℚ) = t := by ring
  rw [ea, eb]

/-- Evaluation just behind a control point. -/
theorem evaluate_near {ps ms : List Pt} {n : Nat} {p : Pt} (hp : ps[n]? = some p) {t : ℚ} (h0 : 0 ≤ t) (h1 : t < eps) :
    evaluate ps ms ((n : ℚ) + t) = .ok p := by
  have he : eps < 1 := by unfold eps; norm_num
  have hf : ⌊(n : ℚ) + t⌋ = (n : Int) := by
    rw [Int.floor_eq_iff]
    constructor <;> push_cast <;> linarith
  have hpos : ¬ (n : ℚ) + t < 0 := by
    have : (0 : ℚ) ≤ n := by exact_mod_cast Nat.zero_le n
    linarith
  unfold evaluate
  rw [if_neg hpos, hf]
  simp only [Int.toNat_natCast, Int.cast_natCast]
  rw [if_pos (by linarith), vget_some hp]

end Verif.Splines
