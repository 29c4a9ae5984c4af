import Verif.Smooth.StepLemmas
/-!
# Lemmas: what follows from the rule of one round
-/
namespace Verif.Smooth
open Verif.Curvi Verif.CurviLine

variable {K : Type} [Field K] [LinearOrder K] [IsStrictOrderedRing K]

section
variable {P : Type} [PointLike P] {g : Grid P} {n m : Nat}

theorem Inner.around (h : Inner g n m) : valid (g.node n m) = true ∧ valid (g.node (n - 1) m) = true ∧ valid (g.node (n + 1) m) = true ∧
    valid (g.node n (m - 1)) = true ∧ valid (g.node n (m + 1)) = true := by
  obtain ⟨h1, h2, f1, f2, f3, f4⟩ := h
  have w1 := valid_of_face f1
  have w2 := valid_of_face f2
  have w3 := valid_of_face f3
  exact ⟨w1.1, w2.1, w1.2.2.1, w3.1, w1.2.1⟩

end

theorem Steps.shape {g0 : Grid (Pt K)} {lo up : Nat × Nat} {k : Nat} {g g' : Grid (Pt K)} (h : Steps g0 lo up k g g') : SameShape g g' := by
  induction h with
  | zero g => exact ⟨rfl, rfl, rfl, rfl, rfl, rfl⟩
  | next s _ ih => exact s.shape.trans ih

theorem Steps.hidden {g0 : Grid (Pt K)} {lo up : Nat × Nat} {k : Nat} {g g' : Grid (Pt K)} (h : Steps g0 lo up k g g') (i j : Nat)
    (hij : ¬ (g.sn ≤ i ∧ i < g.sn + g.numN ∧ g.sm ≤ j ∧ j < g.sm + g.numM)) : g'.cell i j = g.cell i j := by
  induction h with
  | zero g => rfl
  | next s _ ih =>
    rw [ih (by rw [s.shape.numN, s.shape.numM, s.shape.sn, s.shape.sm]; exact hij)]
    exact s.hidden i j hij

theorem Steps.stays {g0 : Grid (Pt K)} {lo up : Nat × Nat} {k : Nat} {g g' : Grid (Pt K)} (h : Steps g0 lo up k g g') {n m : Nat}
    (hn : n < g.numN) (hm : m < g.numM) (ho : ¬ (Within lo up n m ∧ (Inner g0 n m ∨ EdgeN g0 n m ∨ EdgeM g0 n m))) :
    g'.node n m = g.node n m := by
  induction h with
  | zero g => rfl
  | next s _ ih =>
    rw [ih (by rw [s.shape.numN]; exact hn) (by rw [s.shape.numM]; exact hm)]
    exact s.stays n m hn hm ho

/-- A property of the nodes that each round keeps. -/
theorem Steps.keep {g0 : Grid (Pt K)} {lo up : Nat × Nat} (I : (Nat → Nat → Pt K) → Prop)
    (hI : ∀ g g', SameShape g0 g → Step g0 lo up g g' → I g.node → I g'.node) {k : Nat} {g g' : Grid (Pt K)} (h : Steps g0 lo up k g g')
    (h0 : SameShape g0 g) (hi : I g.node) : I g'.node := by
  induction h with
  | zero g => exact hi
  | next s _ ih => exact ih (h0.trans s.shape) (hI _ _ h0 s hi)

/-- The value of a linear function. -/
def level (α β : K) (p : Pt K) : K := α * p.x + β * p.y

omit [LinearOrder K] [IsStrictOrderedRing K] in
theorem level_onWay (α β : K) (p a : Pt K) (r : K) : level α β (onWay p a r) = level α β p + r * (level α β a - level α β p) := by
  unfold level onWay; ring

theorem level_relaxed (α β : K) (c : Nat → Nat → Pt K) (n m : Nat) : level α β (relaxed c n m) =
    level α β (c n m) / 2 + (level α β (c (n - 1) m) + level α β (c (n + 1) m) + level α β (c n (m - 1)) + level α β (c n (m + 1))) / 8 := by
  unfold level relaxed; ring

/-- A node of a straight edge stays on it. -/
theorem Slid.straight {p a b q z : Pt K} (h : Slid p a b q z) {α β γ : K} (hp : level α β p = γ) (ha : level α β a = γ)
    (hb : level α β b = γ) : level α β z = γ := by
  rcases h with ⟨r, _, _, rfl, _⟩ | ⟨s, _, _, rfl, _⟩ | ⟨r, s, _, _, _, _, rfl⟩
  · rw [level_onWay, hp, ha]; ring
  · rw [level_onWay, hp, hb]; ring
  · have h1 := level_onWay α β p a r
    have h2 := level_onWay α β p b s
    rw [hp, ha] at h1
    rw [hp, hb] at h2
    unfold level at *
    linear_combination h1 / 2 + h2 / 2

theorem footAt_unique {p a q : Pt K} {r s : K} (h1 : FootAt p a q r) (h2 : FootAt p a q s) : r = s := by
  rw [(footAt_iff h1.1 r).1 h1, (footAt_iff h2.1 s).1 h2]

/-- The place is determined. -/
theorem Slid.unique {p a b q z z' : Pt K} (h : Slid p a b q z) (h' : Slid p a b q z') : z = z' := by
  rw [← slide_iff] at h h'
  rw [h] at h'
  exact Option.some.inj h'

/-- If the goal is straight above the node, between its two neighbours, the node stays. -/
theorem slid_self {p a b q : Pt K} (ha : a ≠ p) (h1 : (q.x - p.x) * (a.x - p.x) + (q.y - p.y) * (a.y - p.y) = 0)
    (h2 : (q.x - p.x) * (b.x - p.x) + (q.y - p.y) * (b.y - p.y) = 0) : Slid p a b q p := by
  refine Or.inl ⟨0, ⟨ha, by rw [h1]; ring⟩, ⟨le_refl _, zero_le_one⟩, by unfold onWay; simp, fun s hs _ => ?_⟩
  have hz : s * dist2 p b = 0 := by rw [hs.2, h2]
  rw [sq, mul_assoc, hz]
  simp

theorem Step.unique {g0 : Grid (Pt K)} {lo up : Nat × Nat} {g g1 g2 : Grid (Pt K)} (h1 : Step g0 lo up g g1)
    (h2 : Step g0 lo up g g2) : g1 = g2 := by
  have sh : SameShape g2 g1 := by
    have a := h1.shape
    have b := h2.shape
    exact ⟨a.rows.trans b.rows.symm, a.cols.trans b.cols.symm, a.sn.trans b.sn.symm, a.sm.trans b.sm.symm, a.en.trans b.en.symm,
      a.em.trans b.em.symm⟩
  refine Grid.ext_node sh (fun n m hn hm => ?_) fun i j h => ?_
  · rw [h2.shape.numN] at hn
    rw [h2.shape.numM] at hm
    by_cases w : Within lo up n m ∧ (Inner g0 n m ∨ EdgeN g0 n m ∨ EdgeM g0 n m)
    · obtain ⟨w, c | c | c⟩ := w
      · rw [h1.inner n m w c, h2.inner n m w c]
      · exact (h1.edgeN n m hn hm w c).unique (h2.edgeN n m hn hm w c)
      · exact (h1.edgeM n m hn hm w c).unique (h2.edgeM n m hn hm w c)
    · rw [h1.stays n m hn hm w, h2.stays n m hn hm w]
  · rw [h2.shape.numN, h2.shape.numM, h2.shape.sn, h2.shape.sm] at h
    rw [h1.hidden i j h, h2.hidden i j h]

/-- A grid that one round does not change is not changed by any number. -/
theorem steps_of_fixed {g0 g : Grid (Pt K)} {lo up : Nat × Nat} (h : Step g0 lo up g g) (k : Nat) : Steps g0 lo up k g g := by
  induction k with
  | zero => exact .zero g
  | succ k ih => exact .next h ih

/-! ## Regular grids -/

/-- The nodes of a grid of parallelograms: `n` steps by `u` and `m` steps by `v`. -/
def Parallel (g : Grid (Pt K)) (o u v : Pt K) : Prop :=
  ∀ n m, n < g.numN → m < g.numM → g.node n m = ⟨o.x + n * u.x + m * v.x, o.y + n * u.y + m * v.y⟩

omit [LinearOrder K] [IsStrictOrderedRing K] in
theorem pred_cast {n : Nat} (h : 0 < n) : ((n - 1 : Nat) : K) = (n : K) - 1 := by
  obtain ⟨k, rfl⟩ : ∃ k, n = k + 1 := ⟨n - 1, by omega⟩
  simp

theorem step_parallel {g : Grid (Pt K)} (hg : WF g) {o u v : Pt K} (hp : Parallel g o u v) (lo up : Nat × Nat)
    (he : (∀ n m, Within lo up n m → ¬ EdgeN g n m ∧ ¬ EdgeM g n m) ∨
      (u.x * v.x + u.y * v.y = 0 ∧ u ≠ ⟨0, 0⟩ ∧ v ≠ ⟨0, 0⟩)) : Step g lo up g g := by
  have g1 := hg.two_le_numN
  have g2 := hg.two_le_numM
  refine ⟨⟨rfl, rfl, rfl, rfl, rfl, rfl⟩, fun _ _ _ => rfl, fun _ _ _ _ _ => rfl, fun n m w h => ?_, fun n m hn hm w h => ?_,
    fun n m hn hm w h => ?_⟩
  · have h1 := h.1
    have h2 := h.2.1
    unfold relaxed
    rw [hp n m (by omega) (by omega), hp (n - 1) m (by omega) (by omega), hp (n + 1) m (by omega) (by omega),
      hp n (m - 1) (by omega) (by omega), hp n (m + 1) (by omega) (by omega), pred_cast h1.1, pred_cast h2.1]
    push_cast
    congr 1
    · ring
    · ring
  · rcases he with he | ⟨ho, hu, hv⟩
    · exact absurd h (he n m w).1
    have h1 := h.1
    have hc : ∃ e : K, g.node n (if aboveN g n m then m + 1 else m - 1) =
        ⟨o.x + n * u.x + m * v.x + e * v.x, o.y + n * u.y + m * v.y + e * v.y⟩ := by
      cases ha : aboveN g n m
      · have hm0 : 0 < m := by
          by_contra c
          have : m = 0 := by omega
          simp [aboveN, this] at ha
        refine ⟨-1, ?_⟩
        rw [if_neg Bool.false_ne_true, hp n (m - 1) hn (by omega), pred_cast hm0]
        congr 1 <;> ring
      · have hm1 : m + 1 < g.numM := by
          unfold aboveN at ha
          rw [Bool.or_eq_true, Bool.and_eq_true, decide_eq_true_eq, decide_eq_true_eq] at ha
          rcases ha with ha | ha
          · omega
          · exact ha.1
        refine ⟨1, ?_⟩
        rw [if_pos rfl, hp n (m + 1) hn hm1]
        push_cast
        congr 1 <;> ring
    obtain ⟨e, hc⟩ := hc
    rw [hc, hp n m hn hm, hp (n - 1) m (by omega) hm, hp (n + 1) m (by omega) hm, pred_cast h1.1]
    push_cast
    refine slid_self ?_ ?_ ?_
    · intro c
      apply hu
      rw [Pt.mk.injEq] at c
      cases u
      simp only [Pt.mk.injEq] at *
      exact ⟨by linarith [c.1], by linarith [c.2]⟩
    · unfold goal; simp only []; linear_combination (-e / 6) * ho
    · unfold goal; simp only []; linear_combination (e / 6) * ho
  · rcases he with he | ⟨ho, hu, hv⟩
    · exact absurd h (he n m w).2
    have h1 := h.1
    have hc : ∃ e : K, g.node (if aboveM g n m then n + 1 else n - 1) m =
        ⟨o.x + n * u.x + m * v.x + e * u.x, o.y + n * u.y + m * v.y + e * u.y⟩ := by
      cases ha : aboveM g n m
      · have hm0 : 0 < n := by
          by_contra c
          have : n = 0 := by omega
          simp [aboveM, this] at ha
        refine ⟨-1, ?_⟩
        rw [if_neg Bool.false_ne_true, hp (n - 1) m (by omega) hm, pred_cast hm0]
        congr 1 <;> ring
      · have hm1 : n + 1 < g.numN := by
          unfold aboveM at ha
          rw [Bool.or_eq_true, Bool.and_eq_true, decide_eq_true_eq, decide_eq_true_eq] at ha
          rcases ha with ha | ha
          · omega
          · exact ha.1
        refine ⟨1, ?_⟩
        rw [if_pos rfl, hp (n + 1) m hm1 hm]
        push_cast
        congr 1 <;> ring
    obtain ⟨e, hc⟩ := hc
    rw [hc, hp n m hn hm, hp n (m - 1) hn (by omega), hp n (m + 1) hn (by omega), pred_cast h1.1]
    push_cast
    refine slid_self ?_ ?_ ?_
    · intro c
      apply hv
      rw [Pt.mk.injEq] at c
      cases v
      simp only [Pt.mk.injEq] at *
      exact ⟨by linarith [c.1], by linarith [c.2]⟩
    · unfold goal; simp only []; linear_combination (-e / 6) * ho
    · unfold goal; simp only []; linear_combination (e / 6) * ho

/-! ## Similarities -/

/-- A similarity of the plane: turning, stretching, moving, and reflecting if `σ = -1`. -/
structure Similarity (K : Type) where
  a : K
  b : K
  tx : K
  ty : K
  σ : K

/-- Where it takes a point. -/
def Similarity.apply (t : Similarity K) (p : Pt K) : Pt K :=
  ⟨t.a * p.x - t.σ * t.b * p.y + t.tx, t.b * p.x + t.σ * t.a * p.y + t.ty⟩

/-- It does not take the plane into a point. -/
structure Similarity.Proper (t : Similarity K) : Prop where
  σ : t.σ = 1 ∨ t.σ = -1
  stretch : t.a ^ 2 + t.b ^ 2 ≠ 0

/-- A grid with all its nodes taken elsewhere. -/
def Similarity.grid (t : Similarity K) (g : Grid (Pt K)) : Grid (Pt K) :=
  { g with cell := fun i j => t.apply (g.cell i j) }

omit [LinearOrder K] [IsStrictOrderedRing K] in
theorem Similarity.node (t : Similarity K) (g : Grid (Pt K)) (n m : Nat) : (t.grid g).node n m = t.apply (g.node n m) := rfl

omit [IsStrictOrderedRing K] [LinearOrder K] in
theorem Similarity.Proper.sq {t : Similarity K} (h : t.Proper) : t.σ * t.σ = 1 := by
  rcases h.σ with e | e <;> rw [e] <;> ring

omit [LinearOrder K] [IsStrictOrderedRing K] in
theorem apply_onWay (t : Similarity K) (p a : Pt K) (r : K) : t.apply (onWay p a r) = onWay (t.apply p) (t.apply a) r := by
  unfold Similarity.apply onWay; congr 1 <;> ring

theorem apply_relaxed (t : Similarity K) (c : Nat → Nat → Pt K) (n m : Nat) :
    t.apply (relaxed c n m) = relaxed (fun n m => t.apply (c n m)) n m := by
  unfold Similarity.apply relaxed
  congr 1
  · ring
  · ring

theorem apply_goal (t : Similarity K) (p a b c : Pt K) : t.apply (goal p a b c) = goal (t.apply p) (t.apply a) (t.apply b) (t.apply c) := by
  unfold Similarity.apply goal
  congr 1
  · ring
  · ring

omit [LinearOrder K] [IsStrictOrderedRing K] in
theorem dist2_apply {t : Similarity K} (h : t.Proper) (p a : Pt K) :
    dist2 (t.apply p) (t.apply a) = (t.a ^ 2 + t.b ^ 2) * dist2 p a := by
  have e := h.sq
  unfold dist2 Similarity.apply
  linear_combination ((t.a ^ 2 + t.b ^ 2) * (a.y - p.y) ^ 2) * e

theorem apply_inj {t : Similarity K} (h : t.Proper) {p a : Pt K} : t.apply a = t.apply p ↔ a = p := by
  rw [← dist2_eq_zero, ← dist2_eq_zero, dist2_apply h, mul_eq_zero, or_iff_right h.stretch]

theorem footAt_apply {t : Similarity K} (h : t.Proper) (p a q : Pt K) (r : K) :
    FootAt (t.apply p) (t.apply a) (t.apply q) r ↔ FootAt p a q r := by
  have e := h.sq
  have key : ((t.apply q).x - (t.apply p).x) * ((t.apply a).x - (t.apply p).x) +
      ((t.apply q).y - (t.apply p).y) * ((t.apply a).y - (t.apply p).y) =
      (t.a ^ 2 + t.b ^ 2) * ((q.x - p.x) * (a.x - p.x) + (q.y - p.y) * (a.y - p.y)) := by
    unfold Similarity.apply
    linear_combination ((t.a ^ 2 + t.b ^ 2) * (q.y - p.y) * (a.y - p.y)) * e
  unfold FootAt
  rw [Ne, apply_inj h, dist2_apply h, key, mul_left_comm, mul_right_inj' h.stretch]

theorem Slid.similar {t : Similarity K} (h : t.Proper) {p a b q z : Pt K} (hs : Slid p a b q z) :
    Slid (t.apply p) (t.apply a) (t.apply b) (t.apply q) (t.apply z) := by
  have hpos : 0 < t.a ^ 2 + t.b ^ 2 := lt_of_le_of_ne (add_nonneg (sq_nonneg _) (sq_nonneg _)) (Ne.symm h.stretch)
  unfold Slid
  simp only [footAt_apply h, dist2_apply h, mul_left_comm _ (t.a ^ 2 + t.b ^ 2), mul_le_mul_iff_right₀ hpos, mul_lt_mul_iff_right₀ hpos,
    ← apply_onWay]
  rcases hs with ⟨r, h1, h2, rfl, h3⟩ | ⟨s, h1, h2, rfl, h3⟩ | ⟨r, s, h1, h2, h3, h4, rfl⟩
  · exact Or.inl ⟨r, h1, h2, rfl, h3⟩
  · exact Or.inr (Or.inl ⟨s, h1, h2, rfl, h3⟩)
  · refine Or.inr (Or.inr ⟨r, s, h1, h2, h3, h4, ?_⟩)
    unfold Similarity.apply
    congr 1
    · ring
    · ring

theorem Step.similar {t : Similarity K} (h : t.Proper) {g0 g g' : Grid (Pt K)} {lo up : Nat × Nat} (s : Step g0 lo up g g') :
    Step g0 lo up (t.grid g) (t.grid g') := by
  refine ⟨⟨s.shape.rows, s.shape.cols, s.shape.sn, s.shape.sm, s.shape.en, s.shape.em⟩, fun i j hij => ?_, fun n m hn hm ho => ?_,
    fun n m w hi => ?_, fun n m hn hm w he => ?_, fun n m hn hm w he => ?_⟩
  · exact congrArg t.apply (s.hidden i j hij)
  · exact congrArg t.apply (s.stays n m hn hm ho)
  · rw [t.node, s.inner n m w hi, apply_relaxed]; rfl
  · have := (s.edgeN n m hn hm w he).similar h
    rw [apply_goal] at this
    exact this
  · have := (s.edgeM n m hn hm w he).similar h
    rw [apply_goal] at this
    exact this

theorem Steps.similar {t : Similarity K} (h : t.Proper) {g0 g g' : Grid (Pt K)} {lo up : Nat × Nat} {k : Nat}
    (s : Steps g0 lo up k g g') : Steps g0 lo up k (t.grid g) (t.grid g') := by
  induction s with
  | zero g => exact .zero _
  | next s _ ih => exact .next (s.similar h) ih

section
variable {P Q : Type} [PointLike P] [PointLike Q]

/-- Two grids of the same size with the same nodes missing. -/
structure Alike (g : Grid P) (h : Grid Q) : Prop where
  n : h.numN = g.numN
  m : h.numM = g.numM
  valid : ∀ n m, n < g.numN → m < g.numM → valid (h.node n m) = valid (g.node n m)

theorem Alike.symm {g : Grid P} {h : Grid Q} (a : Alike g h) : Alike h g :=
  ⟨a.n.symm, a.m.symm, fun n m hn hm => (a.valid n m (a.n ▸ hn) (a.m ▸ hm)).symm⟩

theorem Alike.face {g : Grid P} {h : Grid Q} (a : Alike g h) {n m : Nat} (hn : n + 1 < g.numN) (hm : m + 1 < g.numM) :
    faceValid h n m = faceValid g n m := by
  unfold faceValid
  rw [a.valid n m (by omega) (by omega), a.valid n (m + 1) (by omega) (by omega), a.valid (n + 1) m (by omega) (by omega),
    a.valid (n + 1) (m + 1) (by omega) (by omega)]

theorem Inner.alike {g : Grid P} {h : Grid Q} (a : Alike g h) {n m : Nat} (i : Inner g n m) : Inner h n m := by
  obtain ⟨h1, h2, f1, f2, f3, f4⟩ := i
  refine ⟨by rw [a.n]; exact h1, by rw [a.m]; exact h2, ?_, ?_, ?_, ?_⟩
  · rw [a.face (by omega) (by omega)]; exact f1
  · rw [a.face (by omega) (by omega)]; exact f2
  · rw [a.face (by omega) (by omega)]; exact f3
  · rw [a.face (by omega) (by omega)]; exact f4

theorem EdgeN.alike {g : Grid P} {h : Grid Q} (a : Alike g h) {n m : Nat} (hm : m < g.numM) (i : EdgeN g n m) : EdgeN h n m := by
  obtain ⟨h1, v1, v2, v3, c⟩ := i
  refine ⟨by rw [a.n]; exact h1, ?_, ?_, ?_, ?_⟩
  · rw [a.valid _ _ (by omega) hm]; exact v1
  · rw [a.valid _ _ (by omega) hm]; exact v2
  · rw [a.valid _ _ (by omega) hm]; exact v3
  · by_cases m0 : m = 0
    · exact Or.inl m0
    · rcases c with c | c | ⟨c0, c1, c2, c3⟩
      · exact absurd c m0
      · exact Or.inr (Or.inl (by rw [a.m]; exact c))
      · refine Or.inr (Or.inr ⟨by rw [a.m]; exact c0, ?_, ?_, ?_⟩)
        · rw [a.face (by omega) (by omega), a.face (by omega) (by omega)]; exact c1
        · rw [a.face (by omega) (by omega), a.face (by omega) (by omega)]; exact c2
        · rw [a.face (by omega) (by omega), a.face (by omega) (by omega)]; exact c3

theorem EdgeM.alike {g : Grid P} {h : Grid Q} (a : Alike g h) {n m : Nat} (hn : n < g.numN) (i : EdgeM g n m) : EdgeM h n m := by
  obtain ⟨h1, v1, v2, v3, c⟩ := i
  refine ⟨by rw [a.m]; exact h1, ?_, ?_, ?_, ?_⟩
  · rw [a.valid _ _ hn (by omega)]; exact v1
  · rw [a.valid _ _ hn (by omega)]; exact v2
  · rw [a.valid _ _ hn (by omega)]; exact v3
  · by_cases n0 : n = 0
    · exact Or.inl n0
    · rcases c with c | c | ⟨c0, c1, c2, c3⟩
      · exact absurd c n0
      · exact Or.inr (Or.inl (by rw [a.n]; exact c))
      · refine Or.inr (Or.inr ⟨by rw [a.n]; exact c0, ?_, ?_, ?_⟩)
        · rw [a.face (by omega) (by omega), a.face (by omega) (by omega)]; exact c1
        · rw [a.face (by omega) (by omega), a.face (by omega) (by omega)]; exact c2
        · rw [a.face (by omega) (by omega), a.face (by omega) (by omega)]; exact c3

theorem aboveN_alike {g : Grid P} {h : Grid Q} (a : Alike g h) {n m : Nat} (hn : n + 1 < g.numN) : aboveN h n m = aboveN g n m := by
  unfold aboveN
  rw [a.m]
  by_cases c : m + 1 < g.numM
  · rw [a.face hn c]
  · simp [c]

theorem aboveM_alike {g : Grid P} {h : Grid Q} (a : Alike g h) {n m : Nat} (hm : m + 1 < g.numM) : aboveM h n m = aboveM g n m := by
  unfold aboveM
  rw [a.n]
  by_cases c : n + 1 < g.numN
  · rw [a.face c hm]
  · simp [c]

end

/-- Only which nodes are valid matters for what is an inner node or on an edge. -/
theorem Step.alike {g0 g1 g g' : Grid (Pt K)} (a : Alike g0 g1) (hs : SameShape g0 g) {lo up : Nat × Nat} (s : Step g0 lo up g g') :
    Step g1 lo up g g' := by
  have hN : g1.numN = g.numN := a.n.trans hs.numN.symm
  have hM : g1.numM = g.numM := a.m.trans hs.numM.symm
  refine ⟨s.shape, s.hidden, fun n m hn hm ho => s.stays n m hn hm fun c => ho ⟨c.1, ?_⟩, fun n m w h => s.inner n m w (h.alike a.symm),
    fun n m hn hm w h => ?_, fun n m hn hm w h => ?_⟩
  · rcases c.2 with c | c | c
    · exact Or.inl (c.alike a)
    · exact Or.inr (Or.inl (c.alike a (by rw [← a.m, hM]; exact hm)))
    · exact Or.inr (Or.inr (c.alike a (by rw [← a.n, hN]; exact hn)))
  · have h1 := h.1.2
    rw [aboveN_alike a (by rw [← a.n]; exact h1)]
    exact s.edgeN n m hn hm w (h.alike a.symm (by rw [hM]; exact hm))
  · have h1 := h.1.2
    rw [aboveM_alike a (by rw [← a.m]; exact h1)]
    exact s.edgeM n m hn hm w (h.alike a.symm (by rw [hN]; exact hn))

theorem Steps.alike {g0 g1 g g' : Grid (Pt K)} (a : Alike g0 g1) (hs : SameShape g0 g) {lo up : Nat × Nat} {k : Nat}
    (s : Steps g0 lo up k g g') : Steps g1 lo up k g g' := by
  induction s with
  | zero g => exact .zero g
  | next s _ ih => exact .next (s.alike a hs) (ih (hs.trans s.shape))

end Verif.Smooth
