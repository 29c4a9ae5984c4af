import Verif.RoundGrid.Lemmas

/-!
# What is proved of circular and graded grids (C90)
-/
namespace Verif.RoundGrid

variable {p : Params} {g : List (List Pt)}

theorem compute_accepted (h : Sensible p) : compute p =
    if p.radius = 0 then rectangular p (p.rows + 1).toNat (p.cols + 1).toNat
    else circular p (p.rows + 1).toNat (p.cols + 1).toNat := by
  unfold compute
  rw [if_neg (not_not.2 h.accepted), if_pos ⟨h.rows, h.cols⟩]

/-- What is made for sensible parameters without a radius. -/
theorem rect_form (h : Sensible p) (h0 : p.radius = 0) :
    ∃ X Y : ℕ → ℝ,
      compute p = .ok (some ((List.range (p.rows + 1).toNat).map fun n =>
        (List.range (p.cols + 1).toNat).map fun m =>
          (⟨p.originX + X m * Real.cos (turn p) - Y n * Real.sin (turn p),
            p.originY + X m * Real.sin (turn p) + Y n * Real.cos (turn p)⟩ : Pt))) ∧
      X 0 = 0 ∧ (∀ m, X m < X (m + 1)) ∧ (∀ n, Y n < Y (n + 1)) ∧
      (∀ m, m + 1 < (p.cols + 1).toNat → X (m + 1) - X m =
        X ((p.cols + 1).toNat - 1 - m) - X ((p.cols + 1).toNat - 2 - m)) ∧
      (∀ m, m + 1 < (p.cols + 1).toNat → p.blockX * min 1 p.maxCols ≤ X (m + 1) - X m ∧
        X (m + 1) - X m ≤ p.blockX * max 1 p.maxCols) ∧
      (∃ a b, b < (p.cols + 1).toNat ∧
        ⌊((p.cols + 1).toNat : ℝ) * p.fracCols⌋₊ ≤ b - a + 1 ∧
        ∀ m, a ≤ m → m < b → X (m + 1) - X m = p.blockX) ∧
      (p.fracCols = 1 ∨ p.maxCols = 1 → ∀ m, m < (p.cols + 1).toNat → X m = p.blockX * m) ∧
      (p.fracRows = 1 ∨ p.maxRows = 1 → ∀ n : ℕ, Y n = p.blockY * n) := by
  have ha := h.accepted
  unfold Accepted at ha
  obtain ⟨hc, hr, -, hbx, hby, -, hfc, hfr, -, -⟩ := ha
  have e1 := h.rows
  have e2 := h.cols
  obtain ⟨X, hX, x0, xu, xs, xb, xm⟩ := columns (size := (p.cols + 1).toNat) (by omega) (by omega)
    hbx hfc h.fracCols h.maxCols
  obtain ⟨Y, hY, yu, yr⟩ := rowsUp (size := (p.rows + 1).toNat) (by omega) (by omega)
    hby hfr h.fracRows h.maxRows
  refine ⟨X, Y, ?_, x0, xu, yu, xs, xb, xm, ?_, yr⟩
  · rw [compute_accepted h, if_pos h0]
    unfold rectangular
    rw [hX, hY]
    simp only [Res.bind, List.map_map]
    rfl
  · intro hreg m hm
    unfold xValues at hX
    rw [if_pos hreg] at hX
    simp only [Res.ok.injEq, Option.some.injEq] at hX
    have := congrArg (fun l => l[m]?) hX
    simp only [List.getElem?_map, List.getElem?_range hm, Option.map_some, Option.some.injEq] at this
    exact this.symm

/-- What is made for sensible parameters with a radius. -/
theorem round_form (h : Sensible p) (h0 : 0 < p.radius) :
    ∃ R : ℕ → ℝ,
      compute p = .ok (some ((List.range (p.rows + 1).toNat).map fun n =>
        (List.range (p.cols + 1).toNat).map fun m : ℕ =>
          (⟨p.originX + R n * Real.cos (turn p + 0.5 * Real.pi -
              (m : ℝ) * deltaTheta (p.cols + 1).toNat p.blockX p.radius),
            p.originY + R n * Real.sin (turn p + 0.5 * Real.pi -
              (m : ℝ) * deltaTheta (p.cols + 1).toNat p.blockX p.radius)⟩ : Pt))) ∧
      p.radius ≤ R 0 ∧ (∀ n, R n < R (n + 1)) ∧
      (p.fracRows = 1 ∨ p.maxRows = 1 → ∀ n : ℕ, R n = p.radius + p.blockY * n) ∧
      (¬ (p.fracRows = 1 ∨ p.maxRows = 1) → R 0 = p.radius + p.blockY) := by
  have ha := h.accepted
  unfold Accepted at ha
  obtain ⟨hc, hr, -, hbx, hby, -, hfc, hfr, -, -⟩ := ha
  have e1 := h.rows
  obtain ⟨R, hR, r0, ru, rr, rg⟩ := radiiUp (size := (p.rows + 1).toNat) (r0 := p.radius)
    (by omega) (by omega) hby hfr h.fracRows h.maxRows
  refine ⟨R, ?_, r0, ru, rr, rg⟩
  rw [compute_accepted h, if_neg h0.ne']
  unfold circular
  rw [hR]
  simp only [Res.bind, thetaValues, List.map_map]
  rfl

/-- The step in angle is the block size over the radius, and at most a full turn over the number
of columns. -/
theorem deltaTheta_eq {cols : ℕ} (hc : 0 < cols) (block radius : ℝ) :
    deltaTheta (cols + 1) block radius = min (block / radius) (2 * Real.pi / (cols : ℝ)) := by
  unfold deltaTheta
  have hp : (0 : ℝ) < cols := by exact_mod_cast hc
  simp only [Nat.add_sub_cancel]
  split_ifs with h
  · rw [min_eq_right]
    rw [div_le_iff₀ hp]
    exact h.le
  · rw [min_eq_left]
    rw [le_div_iff₀ hp]
    exact not_lt.1 h

/-! ## Parameters -/

/-- The parameters out of range are refused, and no others. -/
theorem refused (p : Params) : compute p = .throw ↔ ¬ Accepted p := by
  constructor
  · intro h ha
    unfold compute at h
    rw [if_neg (not_not.2 ha)] at h
    unfold rectangular circular xValues yValues radiusValues uniformInt uniformUInt at h
    simp only at h
    split_ifs at h <;> simp only [Res.bind] at h <;> (try cases h)
  · intro h
    unfold compute
    rw [if_pos h]

/-- For sensible parameters a grid is made, and all of its coordinates are numbers.  Missing: the
other parameters that are accepted (see `zero_size_not_numbers` and `fraction_undefined`). -/
theorem numbers_partial (h : Sensible p) : ∃ g, compute p = .ok (some g) := by
  have ha := h.accepted
  unfold Accepted at ha
  rcases ha.2.2.2.2.2.1.eq_or_lt with h0 | h0
  · obtain ⟨X, Y, hf, -⟩ := rect_form h h0.symm
    exact ⟨_, hf⟩
  · obtain ⟨R, hf, -⟩ := round_form h h0
    exact ⟨_, hf⟩

/-- A grid has one more row and one more column of nodes than the numbers asked for, whatever the
parameters. -/
theorem shape (hg : compute p = .ok (some g)) :
    (g.length : ℤ) = p.rows + 1 ∧ ∀ r ∈ g, (r.length : ℤ) = p.cols + 1 := by
  unfold compute at hg
  split_ifs at hg with h1 h2 h3
  · have ha := h1
    have hc : 0 < p.cols := ha.1
    have hr : 0 < p.rows := ha.2.1
    unfold rectangular at hg
    cases hx : xValues (p.cols + 1).toNat p.blockX p.fracCols p.maxCols with
    | throw => rw [hx] at hg; cases hg
    | ub => rw [hx] at hg; cases hg
    | ok xs =>
      rw [hx] at hg
      cases hy : yValues (p.rows + 1).toNat p.blockY p.fracRows p.maxRows with
      | throw => rw [hy] at hg; cases hg
      | ub => rw [hy] at hg; cases hg
      | ok ys =>
        rw [hy] at hg
        cases xs with
        | none => cases hg
        | some xs =>
          cases ys with
          | none => cases hg
          | some ys =>
            simp only [Res.bind, Res.ok.injEq, Option.some.injEq] at hg
            subst hg
            have l1 := xValues_length hx
            have l2 := yValues_length hy
            constructor
            · rw [List.length_map]; omega
            · intro r hr'
              obtain ⟨n, -, rfl⟩ := List.mem_map.1 hr'
              rw [List.length_map]; omega
  · have ha := h1
    have hc : 0 < p.cols := ha.1
    have hr : 0 < p.rows := ha.2.1
    unfold circular at hg
    cases hx : radiusValues (p.rows + 1).toNat p.radius p.blockY p.fracRows p.maxRows with
    | throw => rw [hx] at hg; cases hg
    | ub => rw [hx] at hg; cases hg
    | ok rs =>
      rw [hx] at hg
      cases rs with
      | none => cases hg
      | some rs =>
        simp only [Res.bind, Res.ok.injEq, Option.some.injEq] at hg
        subst hg
        have l1 := radiusValues_length hx
        constructor
        · rw [List.length_map]; omega
        · intro r hr'
          obtain ⟨n, -, rfl⟩ := List.mem_map.1 hr'
          rw [List.length_map, thetaValues, List.length_map, List.length_range]; omega

/-! ## Circular grids -/

/-- The nodes of a circular grid lie on circles round the origin with growing radii, on rays that
are turned clockwise by the same angle, the block size over the radius but no more than a full turn
in all. -/
theorem circles (h : Sensible p) (h0 : 0 < p.radius) (hg : compute p = .ok (some g)) :
    ∃ R : ℕ → ℝ,
      Round p g R (fun m => turn p + Real.pi / 2 -
        m * min (p.blockX / p.radius) (2 * Real.pi / p.cols)) ∧
      p.radius ≤ R 0 ∧ (∀ n, R n < R (n + 1)) ∧
      (p.fracRows = 1 ∨ p.maxRows = 1 → ∀ n : ℕ, R n = p.radius + p.blockY * n) := by
  obtain ⟨R, hf, r0, ru, rr, -⟩ := round_form h h0
  refine ⟨R, ?_, r0, ru, rr⟩
  rw [hf] at hg
  cases hg
  have hc : 0 < p.cols := h.accepted.1
  intro n m q hq
  rw [node_range] at hq
  obtain ⟨-, -, rfl⟩ := hq
  have e : (p.cols + 1).toNat = p.cols.toNat + 1 := by omega
  have e2 : ((p.cols.toNat : ℕ) : ℝ) = (p.cols : ℝ) := by
    have : ((p.cols.toNat : ℕ) : ℤ) = p.cols := by omega
    exact_mod_cast congrArg (Int.cast (R := ℝ)) this
  have e3 : turn p + 0.5 * Real.pi = turn p + Real.pi / 2 := by ring
  simp only
  rw [e, deltaTheta_eq (by omega), e2, e3]
  exact ⟨rfl, rfl⟩

/-- Nodes in one row of a circular grid are all equally far from the origin, whatever the accepted
parameters. -/
theorem same_distance (h0 : p.radius ≠ 0) (hg : compute p = .ok (some g)) {n m m' : ℕ} {q q' : Pt}
    (hq : node g n m = some q) (hq' : node g n m' = some q') :
    fromOrigin2 p q = fromOrigin2 p q' := by
  unfold compute at hg
  split_ifs at hg with h1 h2
  unfold circular at hg
  cases hr : radiusValues (p.rows + 1).toNat p.radius p.blockY p.fracRows p.maxRows with
  | throw => rw [hr] at hg; cases hg
  | ub => rw [hr] at hg; cases hg
  | ok rs =>
    rw [hr] at hg
    cases rs with
    | none => cases hg
    | some rs =>
      simp only [Res.bind, Res.ok.injEq, Option.some.injEq] at hg
      subst hg
      have key : ∀ m q, node (rs.map fun r =>
          (thetaValues (p.cols + 1).toNat p.blockX p.radius p.angle).map fun t =>
          (⟨p.originX + r * Real.cos t, p.originY + r * Real.sin t⟩ : Pt)) n m = some q →
          ∃ r, rs[n]? = some r ∧ fromOrigin2 p q = r ^ 2 := by
        intro m q hq
        rw [node_map (fun t r => ⟨p.originX + r * Real.cos t, p.originY + r * Real.sin t⟩)] at hq
        cases hrn : rs[n]? with
        | none => rw [hrn] at hq; cases hq
        | some r =>
          rw [hrn] at hq
          simp only [Option.bind_some, Option.map_eq_some_iff] at hq
          obtain ⟨t, -, rfl⟩ := hq
          refine ⟨r, rfl, ?_⟩
          unfold fromOrigin2
          have := Real.cos_sq_add_sin_sq t
          simp only
          linear_combination r ^ 2 * this
      obtain ⟨r, hr1, e1⟩ := key m q hq
      obtain ⟨r', hr2, e2⟩ := key m' q' hq'
      rw [hr1] at hr2
      cases hr2
      rw [e1, e2]

/-- The nodes of a circular grid are different points, but for the first and last column, which
can only coincide when the columns asked for make up a full turn or more. -/
theorem nodes_apart (h : Sensible p) (h0 : 0 < p.radius) (hg : compute p = .ok (some g))
    {n m n' m' : ℕ} {q : Pt} (hq : node g n m = some q) (hq' : node g n' m' = some q) :
    n = n' ∧ (m = m' ∨ (2 * Real.pi * p.radius ≤ p.cols * p.blockX ∧
      ((m = 0 ∧ (m' : ℤ) = p.cols) ∨ ((m : ℤ) = p.cols ∧ m' = 0)))) := by
  obtain ⟨R, hR, r0, ru, -⟩ := circles h h0 hg
  have hsh := shape hg
  have hc : 0 < p.cols := h.accepted.1
  have hbx : 0 < p.blockX := h.accepted.2.2.2.1
  have hcr : (0 : ℝ) < p.cols := by exact_mod_cast hc
  have inside : ∀ n m q, node g n m = some q → (m : ℤ) ≤ p.cols := by
    intro n m q hq
    unfold node at hq
    cases hrow : g[n]? with
    | none => rw [hrow] at hq; cases hq
    | some row =>
      rw [hrow] at hq
      simp only [Option.bind_some] at hq
      have h1 := hsh.2 row (List.mem_of_getElem? hrow)
      have h2 : m < row.length := by
        by_contra hcon
        rw [List.getElem?_eq_none (by omega)] at hq
        cases hq
      omega
  have hm := inside n m q hq
  have hm' := inside n' m' q hq'
  obtain ⟨x1, y1⟩ := hR n m q hq
  obtain ⟨x2, y2⟩ := hR n' m' q hq'
  have hpos : ∀ n, 0 < R n := by
    intro n
    induction n with
    | zero => linarith
    | succ n ih => have := ru n; linarith
  have hmono : StrictMono R := strictMono_nat_of_lt_succ ru
  set D := min (p.blockX / p.radius) (2 * Real.pi / p.cols) with hD
  have hpi := Real.pi_pos
  have hD0 : 0 < D := lt_min (by positivity) (by positivity)
  have hD1 : D * p.cols ≤ 2 * Real.pi := by
    have : D ≤ 2 * Real.pi / p.cols := min_le_right _ _
    rwa [le_div_iff₀ hcr] at this
  set a := turn p + Real.pi / 2 - m * D with ha
  set b := turn p + Real.pi / 2 - m' * D with hb
  have hx : R n * Real.cos a = R n' * Real.cos b := by linarith
  have hy : R n * Real.sin a = R n' * Real.sin b := by linarith
  have hsq : R n ^ 2 = R n' ^ 2 := by
    have c1 := Real.cos_sq_add_sin_sq a
    have c2 := Real.cos_sq_add_sin_sq b
    have : (R n * Real.cos a) ^ 2 + (R n * Real.sin a) ^ 2 =
      (R n' * Real.cos b) ^ 2 + (R n' * Real.sin b) ^ 2 := by rw [hx, hy]
    linear_combination this - R n ^ 2 * c1 + R n' ^ 2 * c2
  have hRe : R n = R n' := by
    have := hpos n
    have := hpos n'
    exact (sq_eq_sq₀ (hpos n).le (hpos n').le).1 hsq
  have hn : n = n' := hmono.injective hRe
  refine ⟨hn, ?_⟩
  rw [← hRe] at hx hy
  have hcos := mul_left_cancel₀ (hpos n).ne' hx
  have hsin := mul_left_cancel₀ (hpos n).ne' hy
  have hmr : (m : ℝ) ≤ p.cols := by exact_mod_cast hm
  have hmr' : (m' : ℝ) ≤ p.cols := by exact_mod_cast hm'
  have m0 : (0 : ℝ) ≤ m := by positivity
  have m0' : (0 : ℝ) ≤ m' := by positivity
  by_cases hfull : ((m = 0 ∧ (m' : ℤ) = p.cols) ∨ ((m : ℤ) = p.cols ∧ m' = 0)) ∧
      D * p.cols = 2 * Real.pi
  · right
    refine ⟨?_, hfull.1⟩
    have : D ≤ p.blockX / p.radius := min_le_left _ _
    rw [le_div_iff₀ h0] at this
    have h3 := hfull.2
    have : 2 * Real.pi * p.radius = D * p.radius * p.cols := by rw [← h3]; ring
    rw [this]
    nlinarith
  · left
    have hdiff : a - b = (m' - m) * D := by rw [ha, hb]; ring
    have hlt : -(2 * Real.pi) < a - b ∧ a - b < 2 * Real.pi := by
      rw [hdiff]
      by_cases hcol : D * p.cols = 2 * Real.pi
      · have hn1 : ¬ (m = 0 ∧ (m' : ℤ) = p.cols) := fun hh => hfull ⟨Or.inl hh, hcol⟩
        have hn2 : ¬ ((m : ℤ) = p.cols ∧ m' = 0) := fun hh => hfull ⟨Or.inr hh, hcol⟩
        have l1 : (m' : ℤ) - m < p.cols := by omega
        have l2 : (m : ℤ) - m' < p.cols := by omega
        have l1r : (m' : ℝ) - m < p.cols := by exact_mod_cast l1
        have l2r : (m : ℝ) - m' < p.cols := by exact_mod_cast l2
        constructor <;> nlinarith
      · have hs : D * p.cols < 2 * Real.pi := lt_of_le_of_ne hD1 hcol
        constructor <;> nlinarith
    have := same_angle hlt.1 hlt.2 hcos hsin
    have h4 : ((m' : ℝ) - m) * D = 0 := by rw [← hdiff, this]; ring
    rcases mul_eq_zero.1 h4 with h5 | h5
    · have : (m' : ℝ) = m := by linarith
      exact_mod_cast this.symm
    · exact absurd h5 hD0.ne'

/-- When the columns asked for make up a full turn or more, the ring is closed: the last column
coincides with the first. -/
theorem ring_closed (h : Sensible p) (h0 : 0 < p.radius) (hg : compute p = .ok (some g))
    (hfull : 2 * Real.pi * p.radius ≤ p.cols * p.blockX) (n : ℕ) :
    node g n p.cols.toNat = node g n 0 := by
  obtain ⟨R, hf, -⟩ := round_form h h0
  rw [hf] at hg
  cases hg
  have hc : 0 < p.cols := h.accepted.1
  have hcr : (0 : ℝ) < p.cols := by exact_mod_cast hc
  have e : (p.cols + 1).toNat = p.cols.toNat + 1 := by omega
  have e2 : ((p.cols.toNat : ℕ) : ℝ) = (p.cols : ℝ) := by
    have : ((p.cols.toNat : ℕ) : ℤ) = p.cols := by omega
    exact_mod_cast congrArg (Int.cast (R := ℝ)) this
  have hD : (p.cols : ℝ) * deltaTheta (p.cols + 1).toNat p.blockX p.radius = 2 * Real.pi := by
    rw [e, deltaTheta_eq (by omega), e2, min_eq_right]
    · field_simp
    · rw [div_le_div_iff₀ hcr h0]; linarith
  unfold node
  rw [List.getElem?_map]
  cases (List.range (p.rows + 1).toNat)[n]? with
  | none => rfl
  | some k =>
    simp only [Option.map_some, Option.bind_some]
    rw [List.getElem?_map, List.getElem?_map, List.getElem?_range (by omega),
      List.getElem?_range (by omega)]
    simp only [Option.map_some, Option.some.injEq, Pt.mk.injEq, Nat.cast_zero, zero_mul, sub_zero]
    rw [e2, hD, Real.cos_sub_two_pi, Real.sin_sub_two_pi]
    exact ⟨rfl, rfl⟩

/-- The settings for grading columns are not used in a circular grid. -/
theorem columns_settings_ignored (h0 : p.radius ≠ 0) (ha : Accepted p) (f mx : ℝ) (hf : 0 ≤ f)
    (hm : 0 ≤ mx) : compute { p with fracCols := f, maxCols := mx } = compute p := by
  have ha' : Accepted { p with fracCols := f, maxCols := mx } := by
    unfold Accepted at ha ⊢
    obtain ⟨a, b, c, d, e, r, -, i, -, k⟩ := ha
    exact ⟨a, b, c, d, e, r, hf, i, hm, k⟩
  unfold compute
  rw [if_neg (not_not.2 ha), if_neg (not_not.2 ha')]
  simp only
  rw [if_neg h0, if_neg h0]
  rfl

/-! ## Rectangular grids -/

/-- Without a radius the nodes are at crossings of two families of straight lines, turned by the
angle about the origin.  The columns begin at the origin.  Their widths are the same from both ends,
and between the block size and the maximum size times the block size.  As many columns in the middle
as the fraction asks for, or one less, have the block size.  Rows and columns go up, so that nodes
are different points. -/
theorem rectangle (h : Sensible p) (h0 : p.radius = 0) (hg : compute p = .ok (some g)) :
    ∃ X Y : ℕ → ℝ, Placed p g X Y ∧ X 0 = 0 ∧ StrictMono X ∧ StrictMono Y ∧
      (∀ m : ℕ, (m : ℤ) < p.cols →
        X (m + 1) - X m = X (p.cols.toNat - m) - X (p.cols.toNat - 1 - m)) ∧
      (∀ m : ℕ, (m : ℤ) < p.cols → p.blockX * min 1 p.maxCols ≤ X (m + 1) - X m ∧
        X (m + 1) - X m ≤ p.blockX * max 1 p.maxCols) ∧
      (∃ a b : ℕ, (b : ℤ) ≤ p.cols ∧ ⌊(p.cols + 1) * p.fracCols⌋₊ ≤ b - a + 1 ∧
        ∀ m, a ≤ m → m < b → X (m + 1) - X m = p.blockX) ∧
      (p.fracCols = 1 ∨ p.maxCols = 1 → ∀ m : ℕ, (m : ℤ) ≤ p.cols → X m = p.blockX * m) ∧
      (p.fracRows = 1 ∨ p.maxRows = 1 → ∀ n : ℕ, Y n = p.blockY * n) := by
  obtain ⟨X, Y, hf, x0, xu, yu, xs, xb, ⟨a, b, hb1, hb2, hb3⟩, xr, yr⟩ := rect_form h h0
  have hc : 0 < p.cols := h.accepted.1
  have e2 : (((p.cols + 1).toNat : ℕ) : ℝ) = (p.cols : ℝ) + 1 := by
    have : (((p.cols + 1).toNat : ℕ) : ℤ) = p.cols + 1 := by omega
    exact_mod_cast congrArg (Int.cast (R := ℝ)) this
  rw [hf] at hg
  cases hg
  refine ⟨X, Y, ?_, x0, strictMono_nat_of_lt_succ xu, strictMono_nat_of_lt_succ yu, ?_, ?_,
    ⟨a, b, by omega, by rw [← e2]; exact hb2, hb3⟩, ?_, yr⟩
  · intro n m q hq
    rw [node_range] at hq
    obtain ⟨-, -, rfl⟩ := hq
    exact ⟨rfl, rfl⟩
  · intro m hm
    rw [xs m (by omega)]
    congr 2 <;> omega
  · intro m hm
    exact xb m (by omega)
  · intro hr m hm
    exact xr hr m (by omega)

/-- No two nodes of a rectangular grid are the same point. -/
theorem rectangle_apart (h : Sensible p) (h0 : p.radius = 0) (hg : compute p = .ok (some g))
    {n m n' m' : ℕ} {q : Pt} (hq : node g n m = some q) (hq' : node g n' m' = some q) :
    n = n' ∧ m = m' := by
  obtain ⟨X, Y, hP, -, hX, hY, -⟩ := rectangle h h0 hg
  obtain ⟨x1, y1⟩ := hP n m q hq
  obtain ⟨x2, y2⟩ := hP n' m' q hq'
  have hcs := Real.cos_sq_add_sin_sq (turn p)
  set c := Real.cos (turn p)
  set s := Real.sin (turn p)
  have e1 : (X m - X m') * c - (Y n - Y n') * s = 0 := by linarith
  have e2 : (X m - X m') * s + (Y n - Y n') * c = 0 := by linarith
  have hx : X m - X m' = 0 := by
    linear_combination c * e1 + s * e2 - (X m - X m') * hcs
  have hy : Y n - Y n' = 0 := by
    linear_combination c * e2 - s * e1 - (Y n - Y n') * hcs
  exact ⟨hY.injective (by linarith), hX.injective (by linarith)⟩

/-! ## Where it fails -/

/-- Five rows of nodes, half of them uniform, and at most four times the block size of two. -/
noncomputable def gradedRows : Params :=
  { cols := 1, rows := 4, angle := 0, originX := 0, originY := 0, blockX := 1, blockY := 2,
    radius := 0, fracCols := 1, fracRows := 1 / 2, maxCols := 1, maxRows := 4 }

theorem gradedRows_sensible : Sensible gradedRows := by
  constructor <;> norm_num [gradedRows, Accepted]

theorem uniform_five : uniformInt 5 (1 / 2) = .ok 2 := by
  have : ⌊((5 : ℕ) : ℝ) * (1 / 2)⌋₊ = 2 := by
    rw [Nat.floor_eq_iff (by norm_num)]
    norm_num
  unfold uniformInt
  rw [this]
  norm_num

theorem sqrt_four : (4 : ℝ) ^ (1 / ((2 : ℤ) : ℝ)) = 2 := by
  rw [show (4 : ℝ) = 2 ^ (2 : ℝ) by norm_num, ← Real.rpow_mul (by norm_num)]
  norm_num

theorem rows_five : yValues 5 2 (1 / 2) 4 = .ok (some [1, 3, 7, 15, 31]) := by
  have hc : cutoffInt 5 2 = 2 := by decide
  have hg : grading 4 2 = some 2 := by
    rw [grading_pos (by norm_num) _ (by norm_num), sqrt_four]
  have p0 : (2 : ℝ) ^ (-1 : ℝ) = 1 / 2 := by
    rw [Real.rpow_neg_one]; norm_num
  have p1 : (2 : ℝ) ^ (1 : ℝ) = 2 := Real.rpow_one 2
  have p2 : (2 : ℝ) ^ (2 : ℝ) = 4 := by norm_num
  have p3 : (2 : ℝ) ^ (3 : ℝ) = 8 := by
    rw [show (3 : ℝ) = ((3 : ℕ) : ℝ) by norm_num, Real.rpow_natCast]; norm_num
  unfold yValues
  rw [if_neg (by norm_num), uniform_five]
  simp only [Res.bind]
  rw [hc, hg, cpow_pos (by norm_num)]
  simp only [accum, stepY, cpow_pos (show (0 : ℝ) < 2 by norm_num)]
  norm_num [p0, p1, p2, p3]

/-- The grid of these rows. -/
theorem gradedRows_grid : ∃ g, compute gradedRows = .ok (some g) ∧
    node g 0 0 = some ⟨0, 1⟩ ∧ node g 3 0 = some ⟨0, 15⟩ ∧ node g 4 0 = some ⟨0, 31⟩ := by
  rw [compute_accepted gradedRows_sensible]
  have e1 : (gradedRows.rows + 1).toNat = 5 := by decide
  have e2 : (gradedRows.cols + 1).toNat = 2 := by decide
  rw [if_pos (show gradedRows.radius = 0 from rfl), e1, e2]
  unfold rectangular
  have hy : yValues 5 gradedRows.blockY gradedRows.fracRows gradedRows.maxRows =
    .ok (some [1, 3, 7, 15, 31]) := rows_five
  have hx : xValues 2 gradedRows.blockX gradedRows.fracCols gradedRows.maxCols =
      .ok (some ((List.range 2).map fun m : ℕ => gradedRows.blockX * (m : ℝ))) := by
    unfold xValues
    rw [if_pos (Or.inl (show gradedRows.fracCols = 1 from rfl))]
  rw [hx, hy]
  refine ⟨_, rfl, ?_⟩
  simp [node, gradedRows, List.range_succ]

/-- With graded rows the first node is not at the origin that is asked for. -/
theorem rows_not_from_origin : ∃ p g q, Sensible p ∧ p.radius = 0 ∧ compute p = .ok (some g) ∧
    node g 0 0 = some q ∧ (q.x, q.y) ≠ (p.originX, p.originY) := by
  obtain ⟨g, hg, h0, -⟩ := gradedRows_grid
  refine ⟨gradedRows, g, _, gradedRows_sensible, rfl, hg, h0, ?_⟩
  simp [gradedRows]

/-- With graded rows a row can be higher than the maximum size: here eight times the block size
with a maximum of four. -/
theorem row_too_high : ∃ p g q q', Sensible p ∧ p.radius = 0 ∧ p.angle = 0 ∧ 1 < p.maxRows ∧
    compute p = .ok (some g) ∧ node g 3 0 = some q ∧ node g 4 0 = some q' ∧
    p.blockY * p.maxRows < q'.y - q.y := by
  obtain ⟨g, hg, -, h3, h4⟩ := gradedRows_grid
  refine ⟨gradedRows, g, _, _, gradedRows_sensible, rfl, rfl, ?_, hg, h3, h4, ?_⟩ <;>
    norm_num [gradedRows]

/-- With graded rows the first circle of a circular grid is a block size outside the radius that is
asked for. -/
theorem first_circle_outside (h : Sensible p) (h0 : 0 < p.radius)
    (hgr : ¬ (p.fracRows = 1 ∨ p.maxRows = 1)) (hg : compute p = .ok (some g)) {m : ℕ} {q : Pt}
    (hq : node g 0 m = some q) :
    fromOrigin2 p q = (p.radius + p.blockY) ^ 2 ∧ p.radius ^ 2 < fromOrigin2 p q := by
  obtain ⟨R, hf, -, -, -, rg⟩ := round_form h h0
  rw [hf] at hg
  cases hg
  rw [node_range] at hq
  obtain ⟨-, -, rfl⟩ := hq
  have hb : 0 < p.blockY := h.accepted.2.2.2.2.1
  have e : ∀ t, fromOrigin2 p ⟨p.originX + R 0 * Real.cos t, p.originY + R 0 * Real.sin t⟩ =
      (p.radius + p.blockY) ^ 2 := by
    intro t
    rw [rg hgr]
    unfold fromOrigin2
    have := Real.cos_sq_add_sin_sq t
    simp only
    linear_combination (p.radius + p.blockY) ^ 2 * this
  rw [e]
  refine ⟨rfl, ?_⟩
  nlinarith

/-- A maximum size of zero is accepted, and the coordinates made are then not all numbers. -/
theorem zero_size_not_numbers : ∃ p, Accepted p ∧ p.fracRows ≤ 1 ∧ compute p = .ok none := by
  refine ⟨{ gradedRows with maxRows := 0 }, ?_, by norm_num [gradedRows], ?_⟩
  · norm_num [gradedRows, Accepted]
  · have ha : Accepted { gradedRows with maxRows := 0 } := by norm_num [gradedRows, Accepted]
    unfold compute
    rw [if_neg (not_not.2 ha), if_pos (by norm_num [gradedRows]), if_pos (by norm_num [gradedRows])]
    unfold rectangular
    have hx : xValues 2 gradedRows.blockX gradedRows.fracCols gradedRows.maxCols =
        .ok (some ((List.range 2).map fun m : ℕ => gradedRows.blockX * (m : ℝ))) := by
      unfold xValues
      rw [if_pos (Or.inl (show gradedRows.fracCols = 1 from rfl))]
    have hy : yValues 5 gradedRows.blockY (1 / 2) 0 = .ok none := by
      have hc : cutoffInt 5 2 = 2 := by decide
      have hg : grading 0 2 = some 0 := by
        unfold grading
        rw [if_neg (by norm_num)]
        simp [cpow]
      unfold yValues
      rw [if_neg (by norm_num), uniform_five]
      simp only [Res.bind]
      rw [hc, hg]
      norm_num [cpow]
    have e1 : (gradedRows.rows + 1).toNat = 5 := by decide
    have e2 : (gradedRows.cols + 1).toNat = 2 := by decide
    simp only
    rw [e1, e2, hx]
    have : gradedRows.fracRows = 1 / 2 := rfl
    rw [this, hy]
    rfl

/-- A fraction has no upper limit: for a large one the conversion to a whole number is undefined. -/
theorem fraction_undefined : ∃ p, Accepted p ∧ compute p = .ub := by
  have ha : Accepted { gradedRows with fracCols := 2 ^ 31, maxCols := 2 } := by
    norm_num [gradedRows, Accepted]
  refine ⟨_, ha, ?_⟩
  unfold compute
  rw [if_neg (not_not.2 ha), if_pos (by norm_num [gradedRows]), if_pos (by norm_num [gradedRows])]
  have e2 : (gradedRows.cols + 1).toNat = 2 := by decide
  simp only [rectangular]
  rw [e2]
  have hx : xValues 2 gradedRows.blockX (2 ^ 31) 2 = .ub := by
    unfold xValues uniformInt
    rw [if_neg (by norm_num)]
    have : ⌊((2 : ℕ) : ℝ) * 2 ^ 31⌋₊ = 2 ^ 32 := by
      rw [show ((2 : ℕ) : ℝ) * 2 ^ 31 = ((2 ^ 32 : ℕ) : ℝ) by norm_num, Nat.floor_natCast]
    simp only
    rw [this, if_neg (by norm_num)]
    rfl
  rw [hx]
  rfl

/-! ## The hypotheses can be met -/

/-- A ring of eight columns that is asked to go round more than once. -/
noncomputable def ringParams : Params :=
  { cols := 8, rows := 3, angle := 30, originX := 1, originY := 2, blockX := 10, blockY := 2,
    radius := 5, fracCols := 1 / 4, fracRows := 1 / 4, maxCols := 5, maxRows := 5 }

theorem ringParams_sensible : Sensible ringParams := by
  constructor <;> norm_num [ringParams, Accepted]

example : ∃ g, compute ringParams = .ok (some g) ∧ (g.length : ℤ) = 4 := by
  obtain ⟨g, hg⟩ := numbers_partial ringParams_sensible
  exact ⟨g, hg, by simpa [ringParams] using (shape hg).1⟩

example : ∃ g, compute ringParams = .ok (some g) ∧ node g 1 8 = node g 1 0 := by
  obtain ⟨g, hg⟩ := numbers_partial ringParams_sensible
  refine ⟨g, hg, ring_closed ringParams_sensible (by norm_num [ringParams]) hg ?_ 1⟩
  have := Real.pi_le_four
  norm_num [ringParams]
  linarith

example : ∃ g R, compute ringParams = .ok (some g) ∧ Round ringParams g R (fun m =>
    turn ringParams + Real.pi / 2 - m * min (10 / 5) (2 * Real.pi / (8 : ℤ))) := by
  obtain ⟨g, hg⟩ := numbers_partial ringParams_sensible
  obtain ⟨R, hR, -⟩ := circles ringParams_sensible (by norm_num [ringParams]) hg
  exact ⟨g, R, hg, hR⟩

example : ∃ g X Y, compute gradedRows = .ok (some g) ∧ Placed gradedRows g X Y := by
  obtain ⟨g, hg⟩ := numbers_partial gradedRows_sensible
  obtain ⟨X, Y, h, -⟩ := rectangle gradedRows_sensible rfl hg
  exact ⟨g, X, Y, hg, h⟩

example : ¬ (ringParams.fracRows = 1 ∨ ringParams.maxRows = 1) := by norm_num [ringParams]

end Verif.RoundGrid
