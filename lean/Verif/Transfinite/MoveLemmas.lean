import Verif.Transfinite.FillLemmas
/-!
# Lemmas: moved polygons and parallelograms
-/
namespace Verif.Transfinite
open Verif.Curvi Verif.CurviLine

variable {K : Type} [Field K] [LinearOrder K]

/-- Sides that are the images of other sides under a map that multiplies distances by `σ`. -/
structure Sides.Image (s s' : Sides K) (f : Affine K) (σ : K) : Prop where
  n : s'.numN = s.numN
  m : s'.numM = s.numM
  b : ∀ n ≤ s.numN, adim s'.dist s'.bottom n = adim s.dist s.bottom n
  u : ∀ n ≤ s.numN, adim s'.dist s'.upper n = adim s.dist s.upper n
  l : ∀ m ≤ s.numM, adim s'.dist s'.left m = adim s.dist s.left m
  r : ∀ m ≤ s.numM, adim s'.dist s'.right m = adim s.dist s.right m
  tb : total s'.dist s'.bottom = σ * total s.dist s.bottom
  tu : total s'.dist s'.upper = σ * total s.dist s.upper
  tl : total s'.dist s'.left = σ * total s.dist s.left
  tr : total s'.dist s'.right = σ * total s.dist s.right
  pb : ∀ n ≤ s.numN, pt s'.bottom n = f.apply (pt s.bottom n)
  pu : ∀ n ≤ s.numN, pt s'.upper n = f.apply (pt s.upper n)
  pl : ∀ m ≤ s.numM, pt s'.left m = f.apply (pt s.left m)
  pr : ∀ m ≤ s.numM, pt s'.right m = f.apply (pt s.right m)
  pos : σ ≠ 0

section
variable {s s' : Sides K} {f : Affine K} {σ : K}

theorem Sides.Image.inner (h : s.Image s' f σ) (n m : Nat) : s'.inner n m = s.inner n m := by
  unfold Sides.inner; rw [h.n, h.m]

theorem Sides.Image.iF (h : s.Image s' f σ) {n : Nat} (hn : n ≤ s.numN) (m : Nat) : s'.iF n m = s.iF n m := by
  unfold Sides.iF; rw [h.m, h.b n hn, h.u n hn]

theorem Sides.Image.jF (h : s.Image s' f σ) (n : Nat) {m : Nat} (hm : m ≤ s.numM) : s'.jF n m = s.jF n m := by
  unfold Sides.jF; rw [h.n, h.l m hm, h.r m hm]

theorem Sides.Image.w1 (h : s.Image s' f σ) (n : Nat) {m : Nat} (hm : m ≤ s.numM) : s'.w1 n m = σ * s.w1 n m := by
  unfold Sides.w1; rw [h.jF n hm, h.tb, h.tu]; ring

theorem Sides.Image.w2 (h : s.Image s' f σ) {n : Nat} (hn : n ≤ s.numN) (m : Nat) : s'.w2 n m = σ * s.w2 n m := by
  unfold Sides.w2; rw [h.iF hn m, h.tl, h.tr]; ring

theorem Sides.Image.w3 (h : s.Image s' f σ) {n m : Nat} (hn : n ≤ s.numN) (hm : m ≤ s.numM) : s'.w3 n m = s.w3 n m := by
  unfold Sides.w3; rw [h.w1 n hm, h.w2 hn m, mul_div_mul_left _ _ h.pos]

theorem Sides.Image.w4 (h : s.Image s' f σ) {n m : Nat} (hn : n ≤ s.numN) (hm : m ≤ s.numM) : s'.w4 n m = s.w4 n m := by
  unfold Sides.w4; rw [h.w3 hn hm]

theorem Sides.Image.d3 (h : s.Image s' f σ) {n m : Nat} (hn : n ≤ s.numN) (hm : m ≤ s.numM) :
    s'.d3 n m = σ * s.d3 n m := by
  unfold Sides.d3 Sides.v1
  rw [h.jF n hm, h.jF (n - 1) hm, h.b n hn, h.b (n - 1) (by omega), h.u n hn, h.u (n - 1) (by omega), h.tb, h.tu]
  ring

theorem Sides.Image.d4 (h : s.Image s' f σ) {n m : Nat} (hn : n ≤ s.numN) (hm : m ≤ s.numM) :
    s'.d4 n m = σ * s.d4 n m := by
  unfold Sides.d4 Sides.v2
  rw [h.iF hn m, h.iF hn (m - 1), h.l m hm, h.l (m - 1) (by omega), h.r m hm, h.r (m - 1) (by omega), h.tl, h.tr]
  ring

theorem Sides.Image.u1 (h : s.Image s' f σ) {n m : Nat} (hn : n ≤ s.numN) (hm : m < s.numM) :
    s'.u1 n m = s.u1 n m := by
  unfold Sides.u1
  rw [h.d4 hn (by omega), h.d4 hn (by omega), h.d4 (by omega) (by omega), h.d4 (by omega) (by omega), h.d3 hn (by omega)]
  rw [show 1 / 4 * (σ * s.d4 n m + σ * s.d4 n (m + 1) + σ * s.d4 (n - 1) m + σ * s.d4 (n - 1) (m + 1)) =
    σ * (1 / 4 * (s.d4 n m + s.d4 n (m + 1) + s.d4 (n - 1) m + s.d4 (n - 1) (m + 1))) by ring, mul_div_mul_left _ _ h.pos]

theorem Sides.Image.u2 (h : s.Image s' f σ) {n m : Nat} (hn : n < s.numN) (hm : m ≤ s.numM) :
    s'.u2 n m = s.u2 n m := by
  unfold Sides.u2
  rw [h.d3 (by omega) hm, h.d3 (by omega) (by omega), h.d3 (by omega) (by omega), h.d3 (by omega) (by omega),
    h.d4 (by omega) hm]
  rw [show 1 / 4 * (σ * s.d3 n m + σ * s.d3 n (m - 1) + σ * s.d3 (n + 1) m + σ * s.d3 (n + 1) (m - 1)) =
    σ * (1 / 4 * (s.d3 n m + s.d3 n (m - 1) + s.d3 (n + 1) m + s.d3 (n + 1) (m - 1))) by ring, mul_div_mul_left _ _ h.pos]

/-- What `finite` says. -/
theorem finite_iff (s : Sides K) : s.finite = true ↔ ∀ n m, s.inner n m = true →
    s.w1 n m ≠ 0 ∧ s.w2 n m ≠ 0 ∧ s.w3 n m + s.w4 n m ≠ 0 ∧ s.d3 n m ≠ 0 ∧ s.d3 (n + 1) m ≠ 0 ∧ s.d4 n m ≠ 0 ∧
      s.d4 n (m + 1) ≠ 0 ∧ s.u1 n m + s.u1 (n + 1) m + s.u2 n m + s.u2 n (m + 1) ≠ 0 := by
  unfold Sides.finite
  rw [List.all_eq_true]
  constructor
  · intro h n m hi
    have e := (inner_iff s n m).1 hi
    have h1 := h n (List.mem_range.2 (by omega))
    rw [List.all_eq_true] at h1
    have h2 := h1 m (List.mem_range.2 (by omega))
    simp only [hi, Bool.not_true, Bool.false_or, Bool.and_eq_true, decide_eq_true_eq] at h2
    tauto
  · intro h n _
    rw [List.all_eq_true]
    intro m _
    rcases Bool.eq_false_or_eq_true (s.inner n m) with hi | hi
    · have := h n m hi
      simp only [hi, Bool.not_true, Bool.false_or, Bool.and_eq_true, decide_eq_true_eq]
      tauto
    · simp [hi]

theorem Sides.Image.finite (h : s.Image s' f σ) : s'.finite = s.finite := by
  rw [Bool.eq_iff_iff, finite_iff, finite_iff]
  have key : ∀ n m, s.inner n m = true →
      s'.w1 n m = σ * s.w1 n m ∧ s'.w2 n m = σ * s.w2 n m ∧ s'.w3 n m = s.w3 n m ∧ s'.w4 n m = s.w4 n m ∧
      s'.d3 n m = σ * s.d3 n m ∧ s'.d3 (n + 1) m = σ * s.d3 (n + 1) m ∧ s'.d4 n m = σ * s.d4 n m ∧
      s'.d4 n (m + 1) = σ * s.d4 n (m + 1) ∧ s'.u1 n m = s.u1 n m ∧ s'.u1 (n + 1) m = s.u1 (n + 1) m ∧
      s'.u2 n m = s.u2 n m ∧ s'.u2 n (m + 1) = s.u2 n (m + 1) := by
    intro n m hi
    rw [inner_iff] at hi
    exact ⟨h.w1 n (by omega), h.w2 (by omega) m, h.w3 (by omega) (by omega), h.w4 (by omega) (by omega),
      h.d3 (by omega) (by omega), h.d3 (by omega) (by omega), h.d4 (by omega) (by omega), h.d4 (by omega) (by omega),
      h.u1 (by omega) (by omega), h.u1 (by omega) (by omega), h.u2 (by omega) (by omega), h.u2 (by omega) (by omega)⟩
  have hz : ∀ x : K, σ * x ≠ 0 ↔ x ≠ 0 := fun x => ⟨fun hx h0 => hx (by rw [h0, mul_zero]), fun hx => mul_ne_zero h.pos hx⟩
  constructor
  · intro hh n m hi
    have a := hh n m (by rw [h.inner]; exact hi)
    obtain ⟨e1, e2, e3, e4, e5, e6, e7, e8, e9, e10, e11, e12⟩ := key n m hi
    rw [e1, e2, e3, e4, e5, e6, e7, e8, e9, e10, e11, e12] at a
    simpa only [hz] using a
  · intro hh n m hi
    rw [h.inner] at hi
    have a := hh n m hi
    obtain ⟨e1, e2, e3, e4, e5, e6, e7, e8, e9, e10, e11, e12⟩ := key n m hi
    rw [e1, e2, e3, e4, e5, e6, e7, e8, e9, e10, e11, e12]
    simpa only [hz] using a

theorem Sides.Image.relax (h : s.Image s' f σ) {n m : Nat} (hi : s.inner n m = true) (g : Nat → Nat → K) :
    s'.relax g n m = s.relax g n m := by
  rw [inner_iff] at hi
  unfold Sides.relax
  rw [h.u1 (by omega) (by omega), h.u1 (by omega) (by omega), h.u2 (by omega) (by omega), h.u2 (by omega) (by omega)]

theorem Sides.Image.mix (h : s.Image s' f σ) {n m : Nat} (hn : n ≤ s.numN) (hm : m ≤ s.numM) (l r b u : K) :
    s'.mix n m l r b u = s.mix n m l r b u := by
  unfold Sides.mix Sides.wa
  rw [h.iF hn m, h.jF n hm, h.w3 hn hm, h.w4 hn hm]

theorem Sides.Image.sweeps (h : s.Image s' f σ) (hf : s.finite = true) :
    ∀ k, ∀ n ≤ s.numN, ∀ m ≤ s.numM, s'.sweeps k n m = f.apply (s.sweeps k n m) := by
  rw [finite_iff] at hf
  intro k
  induction k with
  | zero =>
    intro n hn m hm
    rw [Sides.sweeps, Sides.sweeps, Sides.first, Sides.first, h.n, h.m]
    by_cases h1 : n = s.numN
    · rw [if_pos h1, if_pos h1]; exact h.pr m hm
    rw [if_neg h1, if_neg h1]
    by_cases h2 : n = 0
    · rw [if_pos h2, if_pos h2]; exact h.pl m hm
    rw [if_neg h2, if_neg h2]
    by_cases h3 : m = s.numM
    · rw [if_pos h3, if_pos h3]; exact h.pu n hn
    rw [if_neg h3, if_neg h3]
    by_cases h4 : m = 0
    · rw [if_pos h4, if_pos h4]; exact h.pb n hn
    rw [if_neg h4, if_neg h4]
    have hw := (hf n m ((inner_iff s n m).2 (by omega))).2.2.1
    rw [h.mix hn hm, h.mix hn hm, h.pl m hm, h.pr m hm, h.pb n hn, h.pu n hn]
    unfold Affine.apply
    simp only
    rw [mix_add s n m hw, mix_add s n m hw, mix_linear, mix_linear]
  | succ k ih =>
    intro n hn m hm
    rw [Sides.sweeps, Sides.sweeps, Sides.sweep, Sides.sweep, h.inner]
    rcases Bool.eq_false_or_eq_true (s.inner n m) with hi | hi
    · rw [if_pos hi, if_pos hi]
      have hs := (hf n m hi).2.2.2.2.2.2.2
      rw [h.relax hi, h.relax hi,
        relax_congr s hi (f := fun n m => (s'.sweeps k n m).x) (g := fun n m => f.xx * (s.sweeps k n m).x + f.xy * (s.sweeps k n m).y + f.tx)
          (fun n hn m hm => by rw [ih n hn m hm]; rfl),
        relax_congr s hi (f := fun n m => (s'.sweeps k n m).y) (g := fun n m => f.yx * (s.sweeps k n m).x + f.yy * (s.sweeps k n m).y + f.ty)
          (fun n hn m hm => by rw [ih n hn m hm]; rfl)]
      rw [relax_add s n m hs (fun n m => f.xx * (s.sweeps k n m).x + f.xy * (s.sweeps k n m).y),
        relax_add s n m hs (fun n m => f.yx * (s.sweeps k n m).x + f.yy * (s.sweeps k n m).y), ← relax_linear, ← relax_linear]
      rfl
    · rw [if_neg (by simp [hi]), if_neg (by simp [hi])]; exact ih n hn m hm

end

/-! ## Images of outlines -/

/-- The outline moved. -/
structure Outline.Image (o o' : Outline K) (f : Affine K) : Prop where
  p : o'.p = o.p
  q : o'.q = o.q
  bottom : ∀ n ≤ o.p, o'.bottom n = f.apply (o.bottom n)
  upper : ∀ n ≤ o.p, o'.upper n = f.apply (o.upper n)
  left : ∀ m ≤ o.q, o'.left m = f.apply (o.left m)
  right : ∀ m ≤ o.q, o'.right m = f.apply (o.right m)

omit [LinearOrder K] in
theorem lengthTo_image {dist : Pt K → Pt K → K} {f : Affine K} {σ : K}
    (hd : ∀ p q, dist (f.apply p) (f.apply q) = σ * dist p q) {g g' : Nat → Pt K} {p : Nat}
    (h : ∀ n ≤ p, g' n = f.apply (g n)) : ∀ n ≤ p, lengthTo dist g' n = σ * lengthTo dist g n := by
  intro n
  induction n with
  | zero => intro _; simp [lengthTo]
  | succ n ih =>
    intro hn
    rw [lengthTo, lengthTo, ih (by omega), h n (by omega), h (n + 1) hn, hd]; ring

theorem adim_image {dist : Pt K → Pt K → K} {f : Affine K} {σ : K} (hσ : σ ≠ 0)
    (hd : ∀ p q, dist (f.apply p) (f.apply q) = σ * dist p q) {g g' : Nat → Pt K} {p : Nat} (k : Nat)
    (h : ∀ n ≤ p, g' n = f.apply (g n)) (hv : ∀ n ≤ p, valid (g n) = true) (hv' : ∀ n ≤ p, valid (g' n) = true)
    (hz : lengthTo dist g p ≠ 0) :
    ∀ n ≤ p, adim dist (pad k (listOf g' p)) n = adim dist (pad k (listOf g p)) n := by
  intro n hn
  have e := lengthTo_image hd h
  rw [adim_of dist k hv hz hn, adim_of dist k hv' (by rw [e p (le_refl p)]; exact mul_ne_zero hσ hz) hn, e n hn,
    e p (le_refl p), mul_div_mul_left _ _ hσ]

/-- No side has length zero. -/
def Outline.Long (dist : Pt K → Pt K → K) (o : Outline K) : Prop :=
  lengthTo dist o.bottom o.p ≠ 0 ∧ lengthTo dist o.upper o.p ≠ 0 ∧ lengthTo dist o.left o.q ≠ 0 ∧
    lengthTo dist o.right o.q ≠ 0

theorem Outline.Image.sides {dist : Pt K → Pt K → K} {o o' : Outline K} {f : Affine K} {σ : K} (k : Nat)
    (h : o.Image o' f) (hσ : σ ≠ 0) (hd : ∀ p q, dist (f.apply p) (f.apply q) = σ * dist p q) (hv : o.Valid)
    (hv' : o'.Valid) (hl : o.Long dist) : (ofOutline dist k o).Image (ofOutline dist k o') f σ := by
  obtain ⟨z1, z2, z3, z4⟩ := hl
  have vb := hv'.bottom
  have vu := hv'.upper
  have vl := hv'.left
  have vr := hv'.right
  rw [h.p] at vb vu
  rw [h.q] at vl vr
  have hpt : ∀ (g g' : Nat → Pt K) (p : Nat), (∀ n ≤ p, g' n = f.apply (g n)) → ∀ n ≤ p,
      pt (pad k (listOf g' p)) n = f.apply (pt (pad k (listOf g p)) n) := by
    intro g g' p hg n hn
    rw [pt_pad, pt_pad, pt_listOf _ hn, pt_listOf _ hn, hg n hn]
  have htot : ∀ (g g' : Nat → Pt K) (p : Nat), (∀ n ≤ p, g' n = f.apply (g n)) → (∀ n ≤ p, valid (g n) = true) →
      (∀ n ≤ p, valid (g' n) = true) → total dist (pad k (listOf g' p)) = σ * total dist (pad k (listOf g p)) := by
    intro g g' p hg hv hv'
    rw [total_of dist k hv, total_of dist k hv', lengthTo_image hd hg p (le_refl p)]
  unfold ofOutline
  rw [h.p, h.q]
  exact ⟨rfl, rfl, adim_image hσ hd k h.bottom hv.bottom vb z1, adim_image hσ hd k h.upper hv.upper vu z2,
    adim_image hσ hd k h.left hv.left vl z3, adim_image hσ hd k h.right hv.right vr z4, htot _ _ _ h.bottom hv.bottom vb,
    htot _ _ _ h.upper hv.upper vu, htot _ _ _ h.left hv.left vl, htot _ _ _ h.right hv.right vr,
    hpt _ _ _ h.bottom, hpt _ _ _ h.upper, hpt _ _ _ h.left, hpt _ _ _ h.right, hσ⟩

theorem node_map (f : Affine K) {nodes : List (Pt K)} (h : 2 ≤ nodes.length) (i : Int) :
    node (nodes.map f.apply) i = f.apply (node nodes i) := by
  have hc : count (nodes.map f.apply) = count nodes := by unfold count; rw [List.length_map]
  unfold node
  rw [hc]
  have h0 : 0 < count nodes := by unfold count; omega
  have := Int.emod_lt_of_pos i (show (0 : Int) < count nodes by omega)
  have := Int.emod_nonneg i (show (count nodes : Int) ≠ 0 by omega)
  have hk : (i % (count nodes : Int)).toNat < nodes.length := by unfold count at *; omega
  unfold pt
  rw [List.getD_eq_getElem?_getD, List.getD_eq_getElem?_getD, List.getElem?_map, List.getElem?_eq_getElem hk]
  rfl

theorem between_image (f : Affine K) (a b : Pt K) (k i : Nat) :
    between (f.apply a) (f.apply b) k i = f.apply (between a b k i) := by
  unfold between add scale Affine.apply
  simp only [Pt.mk.injEq]
  constructor <;> ring

theorem outline_image (f : Affine K) {nodes : List (Pt K)} (h : 2 ≤ nodes.length) (a b c : Nat) (useFourth : Bool) :
    (outline nodes a b c useFourth).Image (outline (nodes.map f.apply) a b c useFourth) f := by
  have hc : count (nodes.map f.apply) = count nodes := by unfold count; rw [List.length_map]
  refine ⟨by unfold outline; rw [hc], by unfold outline; rw [hc], ?_, ?_, ?_, ?_⟩
  · intro n _; unfold outline; simp only; rw [hc, node_map f h]
  · intro n _; unfold outline; simp only; rw [hc, node_map f h]
  · intro m _
    unfold outline
    simp only
    rw [hc]
    cases useFourth
    · simp only [Bool.false_eq_true, if_false]
      rw [node_map f h, node_map f h, between_image]
    · simp only [if_true]
      rw [node_map f h]
  · intro m _; unfold outline; simp only; rw [hc, node_map f h]

/-! ## Parallelograms -/

section
variable [IsStrictOrderedRing K]

theorem lengthTo_straight {dist : Pt K → Pt K → K}
    (hd : ∀ (p v : Pt K) (t : K), 0 ≤ t → dist p (add p (scale v t)) = t * dist ⟨0, 0⟩ v)
    {c v : Pt K} {β : Nat → K} {p : Nat} {g : Nat → Pt K} (hg : ∀ n ≤ p, g n = add c (scale v (β n)))
    (h0 : β 0 = 0) (hi : ∀ n < p, β n < β (n + 1)) :
    (∀ n ≤ p, lengthTo dist g n = β n * dist ⟨0, 0⟩ v) ∧
      ∀ n < p, dist (g n) (g (n + 1)) = (β (n + 1) - β n) * dist ⟨0, 0⟩ v := by
  have hs : ∀ n < p, dist (g n) (g (n + 1)) = (β (n + 1) - β n) * dist ⟨0, 0⟩ v := by
    intro n hn
    rw [← hd (g n) v (β (n + 1) - β n) (sub_nonneg.2 (hi n hn).le)]
    congr 1
    rw [hg n hn.le, hg (n + 1) hn]
    unfold add scale
    simp only [Pt.mk.injEq]
    constructor <;> ring
  refine ⟨?_, hs⟩
  intro n
  induction n with
  | zero => intro _; rw [lengthTo, h0, zero_mul]
  | succ n ih => intro hn; rw [lengthTo, ih (by omega), hs n hn]; ring

theorem parallelogram_even {dist : Pt K → Pt K → K}
    (hd : ∀ (p v : Pt K) (t : K), 0 ≤ t → dist p (add p (scale v t)) = t * dist ⟨0, 0⟩ v)
    {o : Outline K} {c u v : Pt K} {β γ : Nat → K} (h : o.Parallelogram c u v β γ) (hu : 0 < dist ⟨0, 0⟩ u)
    (hv : 0 < dist ⟨0, 0⟩ v) : o.Even dist := by
  obtain ⟨b0, b1, g0, g1⟩ := h.ends
  obtain ⟨lb, sb⟩ := lengthTo_straight hd h.bottom b0 h.along
  obtain ⟨lu, su⟩ := lengthTo_straight hd h.upper b0 h.along
  obtain ⟨ll, sl⟩ := lengthTo_straight hd h.left g0 h.across
  obtain ⟨lr, sr⟩ := lengthTo_straight hd h.right g0 h.across
  refine ⟨?_, ?_, ?_, ?_, ?_, ?_⟩
  · intro n hn; rw [lb n hn, lu n hn, lb _ (le_refl _), lu _ (le_refl _)]
  · intro m hm; rw [ll m hm, lr m hm, ll _ (le_refl _), lr _ (le_refl _)]
  · intro n hn; rw [sb n hn]; exact mul_pos (sub_pos.2 (h.along n hn)) hu
  · intro n hn; rw [su n hn]; exact mul_pos (sub_pos.2 (h.along n hn)) hu
  · intro n hn; rw [sl n hn]; exact mul_pos (sub_pos.2 (h.across n hn)) hv
  · intro n hn; rw [sr n hn]; exact mul_pos (sub_pos.2 (h.across n hn)) hv

theorem balance {h₁ h₂ A B S x a : K} (h1 : 0 < h₁) (h2 : 0 < h₂) (hA : 0 < A) :
    (x - h₁ * a) * (S * B / (h₁ * A)) + (x + h₂ * a) * (S * B / (h₂ * A)) =
      x * (S * B / (h₁ * A) + S * B / (h₂ * A)) := by
  field_simp
  ring

theorem parallelogram_relax {s : Sides K} {β γ : Nat → K} {A B : K} (h : s.Prop' β γ A A B B) {n m : Nat}
    (hi : s.inner n m = true) (o a b : K) : s.relax (fun n m => o + β n * a + γ m * b) n m = o + β n * a + γ m * b := by
  have hp := h.positive
  have hs := hp.sum hi
  rw [inner_iff] at hi
  obtain ⟨hA, -, hB, -⟩ := h.pos
  have h1 : 0 < β n - β (n - 1) := sub_pos.2 (h.ib n (by omega) (by omega))
  have h2 : 0 < β (n + 1) - β n := sub_pos.2 (h.ib (n + 1) (by omega) (by omega))
  have k1 : 0 < γ m - γ (m - 1) := sub_pos.2 (h.il m (by omega) (by omega))
  have k2 : 0 < γ (m + 1) - γ m := sub_pos.2 (h.il (m + 1) (by omega) (by omega))
  have e3 : ∀ n m, n ≤ s.numN → m ≤ s.numM → s.d3 n m = (β n - β (n - 1)) * A := by
    intro n m hn hm; rw [h.d3 hn hm]; ring
  have e4 : ∀ n m, n ≤ s.numN → m ≤ s.numM → s.d4 n m = (γ m - γ (m - 1)) * B := by
    intro n m hn hm; rw [h.d4 hn hm]; ring
  have f1 : s.u1 n m = ((γ (m + 1) - γ (m - 1)) / 2) * B / ((β n - β (n - 1)) * A) := by
    unfold Sides.u1
    rw [e4 _ _ (by omega) (by omega), e4 _ _ (by omega) (by omega), e4 _ _ (by omega) (by omega),
      e4 _ _ (by omega) (by omega), e3 _ _ (by omega) (by omega), Nat.add_sub_cancel]
    congr 1; ring
  have f2 : s.u1 (n + 1) m = ((γ (m + 1) - γ (m - 1)) / 2) * B / ((β (n + 1) - β n) * A) := by
    unfold Sides.u1
    rw [e4 _ _ (by omega) (by omega), e4 _ _ (by omega) (by omega), e4 _ _ (by omega) (by omega),
      e4 _ _ (by omega) (by omega), e3 _ _ (by omega) (by omega), Nat.add_sub_cancel, Nat.add_sub_cancel]
    congr 1; ring
  have f3 : s.u2 n m = ((β (n + 1) - β (n - 1)) / 2) * A / ((γ m - γ (m - 1)) * B) := by
    unfold Sides.u2
    rw [e3 _ _ (by omega) (by omega), e3 _ _ (by omega) (by omega), e3 _ _ (by omega) (by omega),
      e3 _ _ (by omega) (by omega), e4 _ _ (by omega) (by omega), Nat.add_sub_cancel]
    congr 1; ring
  have f4 : s.u2 n (m + 1) = ((β (n + 1) - β (n - 1)) / 2) * A / ((γ (m + 1) - γ m) * B) := by
    unfold Sides.u2
    rw [e3 _ _ (by omega) (by omega), e3 _ _ (by omega) (by omega), e3 _ _ (by omega) (by omega),
      e3 _ _ (by omega) (by omega), e4 _ _ (by omega) (by omega), Nat.add_sub_cancel, Nat.add_sub_cancel]
    congr 1; ring
  unfold Sides.relax
  rw [one_div, inv_mul_eq_div, div_eq_iff hs.ne', f1, f2, f3, f4]
  have g1 := balance (S := (γ (m + 1) - γ (m - 1)) / 2) (B := B) (x := o + β n * a + γ m * b) (a := a) h1 h2 hA
  have g2 := balance (S := (β (n + 1) - β (n - 1)) / 2) (B := A) (x := o + β n * a + γ m * b) (a := b) k1 k2 hB
  rw [show o + β n * a + γ m * b - (β n - β (n - 1)) * a = o + β (n - 1) * a + γ m * b by ring,
    show o + β n * a + γ m * b + (β (n + 1) - β n) * a = o + β (n + 1) * a + γ m * b by ring] at g1
  rw [show o + β n * a + γ m * b - (γ m - γ (m - 1)) * b = o + β n * a + γ (m - 1) * b by ring,
    show o + β n * a + γ m * b + (γ (m + 1) - γ m) * b = o + β n * a + γ (m + 1) * b by ring] at g2
  linear_combination g1 + g2

theorem parallelogram_mix {s : Sides K} {β γ : Nat → K} {A B : K} (h : s.Prop' β γ A A B B) {n m : Nat}
    (hi : s.inner n m = true) (o a b : K) :
    s.mix n m (o + γ m * b) (o + a + γ m * b) (o + β n * a) (o + b + β n * a) = o + β n * a + γ m * b := by
  have hp := h.positive
  have hw3 := hp.w3 hi
  have hw4 := hp.w4 hi
  have e : s.wa n m * s.w3 n m + s.wa n m * s.w4 n m = 1 := by
    unfold Sides.wa; rw [← mul_add, inv_mul_cancel₀ (by positivity)]
  rw [inner_iff] at hi
  unfold Sides.mix
  rw [h.iF (by omega), h.jF _ (by omega)]
  linear_combination (o + β n * a + γ m * b) * e

theorem parallelogram_sweeps {s : Sides K} {β γ : Nat → K} {A B : K} (h : s.Prop' β γ A A B B) {c u v : Pt K}
    (hb : ∀ n ≤ s.numN, pt s.bottom n = add c (scale u (β n)))
    (hu : ∀ n ≤ s.numN, pt s.upper n = add (add c v) (scale u (β n)))
    (hl : ∀ m ≤ s.numM, pt s.left m = add c (scale v (γ m)))
    (hr : ∀ m ≤ s.numM, pt s.right m = add (add c u) (scale v (γ m)))
    (he : β 0 = 0 ∧ β s.numN = 1 ∧ γ 0 = 0 ∧ γ s.numM = 1) :
    ∀ k, ∀ n ≤ s.numN, ∀ m ≤ s.numM, s.sweeps k n m = add (add c (scale u (β n))) (scale v (γ m)) := by
  obtain ⟨b0, b1, g0, g1⟩ := he
  intro k
  induction k with
  | zero =>
    intro n hn m hm
    rw [Sides.sweeps, Sides.first]
    by_cases h1 : n = s.numN
    · rw [if_pos h1, hr m hm, h1, b1]; simp [add, scale]
    rw [if_neg h1]
    by_cases h2 : n = 0
    · rw [if_pos h2, hl m hm, h2, b0]; simp [add, scale]
    rw [if_neg h2]
    by_cases h3 : m = s.numM
    · rw [if_pos h3, hu n hn, h3, g1]; unfold add scale; simp only [Pt.mk.injEq]; constructor <;> ring
    rw [if_neg h3]
    by_cases h4 : m = 0
    · rw [if_pos h4, hb n hn, h4, g0]; simp [add, scale]
    rw [if_neg h4, hb n hn, hu n hn, hl m hm, hr m hm]
    have hi := (inner_iff s n m).2 (by omega)
    have e1 := parallelogram_mix h hi c.x u.x v.x
    have e2 := parallelogram_mix h hi c.y u.y v.y
    unfold add scale
    simp only [Pt.mk.injEq]
    rw [mul_comm (γ m), mul_comm (β n)] at e1 e2
    exact ⟨e1, e2⟩
  | succ k ih =>
    intro n hn m hm
    rw [Sides.sweeps, Sides.sweep]
    rcases Bool.eq_false_or_eq_true (s.inner n m) with hi | hi
    · rw [if_pos hi, relax_congr s hi (f := fun n m => (s.sweeps k n m).x) (g := fun n m => c.x + β n * u.x + γ m * v.x)
          (fun n hn m hm => by rw [ih n hn m hm]; unfold add scale; ring),
        relax_congr s hi (f := fun n m => (s.sweeps k n m).y) (g := fun n m => c.y + β n * u.y + γ m * v.y)
          (fun n hn m hm => by rw [ih n hn m hm]; unfold add scale; ring),
        parallelogram_relax h hi, parallelogram_relax h hi]
      unfold add scale
      simp only [Pt.mk.injEq]
      constructor <;> ring
    · rw [if_neg (by simp [hi])]; exact ih n hn m hm

end

end Verif.Transfinite
