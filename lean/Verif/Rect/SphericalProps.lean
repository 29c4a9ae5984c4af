import Verif.Rect.SphericalLemmas
/-!
# C43: spherical rectangular grids on an extension

The rows of a spherical grid get closer towards the poles.  The grid must stay on the globe, its rows must go up, and it
must reach the end of the extension or the pole.
-/
namespace Verif.Rect
open Verif.Curvi

/-- A grid of meridians and parallels from `(ox, oy)` on: columns `dx` apart, rows with strictly increasing latitudes. -/
structure Graticule (g : Grid (Pt ℝ)) (ox oy dx : ℝ) (lat : Nat → ℝ) : Prop where
  valid : g.isValid = true
  node : ∀ n m, n < g.numN → m < g.numM → g.node n m = ⟨ox + m * dx, lat n⟩
  first : lat 0 = oy
  up : ∀ n, n + 1 < g.numN → lat n < lat (n + 1)
  onGlobe : ∀ n, n < g.numN → lat n ≤ 90

/-- The matrix of `computeSpherical` for the angle 0. -/
theorem computeSpherical_zero (tol : ℝ) (cols rows : Nat) (hc : cols < 2147483647) (hr : rows < 2147483647) (ox oy dx dy : ℝ) :
    ∃ g : Grid (Pt ℝ), computeSpherical realTrig tol cols rows ox oy 0 dx dy = .ok g ∧ g.cols = cols + 1 ∧ 1 ≤ g.rows ∧ g.rows ≤ rows + 1 ∧
      g.sn = 0 ∧ g.sm = 0 ∧ g.en = 0 ∧ g.em = 0 ∧
      (∀ i j, i < g.rows → g.cell i j = ⟨ox + j * dx, latitude realTrig dy oy i⟩) ∧
      (g.rows < rows + 1 → isEqual tol |latitude realTrig dy oy (g.rows - 1)| 90 = true) ∧
      (∀ i, 1 ≤ i → i + 1 < g.rows → isEqual tol |latitude realTrig dy oy i| 90 = false) := by
  obtain ⟨hz1, hz2⟩ := realTrig_zero
  obtain ⟨h1, h2, h3, h4, h5, h6⟩ := sphericalRows_ok realTrig tol dy oy (cols + 1) (by omega) rows 1
    (cartesianPoint realTrig ox oy 0 dx dy) (le_refl _) (by
      intro i j hi
      have : i = 0 := by omega
      subst this
      simp [cartesianPoint, hz2, latitude])
  refine ⟨{ cartesianGrid realTrig cols rows ox oy 0 dx dy with
      rows := (sphericalRows realTrig tol dy (cols + 1) rows 1 (cartesianPoint realTrig ox oy 0 dx dy)).2,
      cell := (sphericalRows realTrig tol dy (cols + 1) rows 1 (cartesianPoint realTrig ox oy 0 dx dy)).1 },
    ?_, rfl, h1, ?_, rfl, rfl, rfl, rfl, ?_, fun h => h5 (by simp only at h; omega), h6⟩
  · unfold computeSpherical
    rw [computeCartesian_ok _ _ _ hc hr, Res.ok_bind]
    have e1 : (cartesianGrid realTrig cols rows ox oy 0 dx dy).cols = cols + 1 := rfl
    have e2 : (cartesianGrid realTrig cols rows ox oy 0 dx dy).rows - 1 = rows := rfl
    have e3 : (cartesianGrid realTrig cols rows ox oy 0 dx dy).cell = cartesianPoint realTrig ox oy 0 dx dy := rfl
    simp only [e1, e2, e3]
  · show (sphericalRows realTrig tol dy (cols + 1) rows 1 (cartesianPoint realTrig ox oy 0 dx dy)).2 ≤ rows + 1
    omega
  · intro i j hi
    have hx := h4 i j
    have hy := h3 i j hi
    have e : (cartesianPoint realTrig ox oy 0 dx dy i j).x = ox + j * dx := by
      simp [cartesianPoint, hz1, hz2]
    simp only
    rw [e] at hx
    rw [← hx, ← hy]

/-- **C43**: from 88 degrees south on, with blocks between a ten-thousandth of a degree and 57 degrees, the grid stays on
the globe, goes up, and reaches the end of the extension or the pole (up to the tolerance `tol` of the comparison). -/
theorem spherical_extension_partial (tol ox oy dx dy ux uy : ℝ) (hx : 0 < dx) (hy : 1 / 10000 ≤ dy) (hy57 : dy ≤ 57) (hux : ox < ux)
    (hoy : -88 ≤ oy) (hoy90 : oy < 90) (huy : dy ≤ uy - oy) (hbx : (ux - ox) / dx ≤ 2147483646) :
    ∃ g lat, createOnExtension .spherical realTrig tol ox oy 0 dx dy ux uy = .ok g ∧ Graticule g ox oy dx lat ∧
      (ux ≤ ox + ((g.numM - 1 : Nat) : ℝ) * dx ∧ ox + ((g.numM - 1 : Nat) : ℝ) * dx < ux + dx) ∧
      (uy ≤ lat (g.numN - 1) ∨ isEqual tol |lat (g.numN - 1)| 90 = true) := by
  have hy0 : 0 < dy := by linarith
  have hw : 0 < (ux - ox) / dx := div_pos (by linarith) hx
  obtain ⟨b1, b2⟩ := ceil_bounds hw hbx
  have hm := ceil_mul (w := ux - ox) hx
  rw [← toNat_cast (K := ℝ) (z := ⌈(ux - ox) / dx⌉) (by omega)] at hm
  generalize hcols : ⌈(ux - ox) / dx⌉.toNat = cols at hm
  have hcz : ⌈(ux - ox) / dx⌉ = (cols : Int) := by omega
  have hδ : (1 : ℝ) / 1500000 ≤ min (dy / 150) (1 / 60) := le_min (by linarith) (by norm_num)
  obtain ⟨rows, hr, hrj⟩ := countRows_ends (tol := tol) (maxY := uy) hy0 hy57 300000000 2147483648 oy hoy hoy90
    (by push_cast; nlinarith) (by norm_num)
  obtain ⟨n, hn, hn1, hn2, hn3⟩ := countRows_spec realTrig tol dy uy _ _ _ hr
  have hnr : rows = n := by exact_mod_cast hn
  subst hnr
  have hr1 : 1 ≤ rows := by
    rcases Nat.eq_zero_or_pos rows with h | h
    · subst h
      rcases hn1 with h | h
      · simp only [latitude] at h; linarith
      · omega
    · exact h
  obtain ⟨g, g1, g2, g3, g4, gsn, gsm, gen, gem, g5, g6, g7⟩ := computeSpherical_zero tol cols rows (by omega) (by omega) ox oy dx dy
  have hrows : g.rows = rows + 1 := by
    by_contra hc
    have hlt : g.rows < rows + 1 := by omega
    have hp := g6 hlt
    rcases Nat.lt_or_ge g.rows 2 with h | h
    · -- a grid of one row: the loop ran at least once
      have : g.rows = 1 := by omega
      have h0 : g.rows - 1 = 0 := by omega
      -- the first row computed is kept
      exfalso
      unfold computeSpherical at g1
      rw [computeCartesian_ok _ _ _ (by omega) (by omega), Res.ok_bind] at g1
      have := Res.ok.inj g1
      have h9 : g.rows = (sphericalRows realTrig tol dy (cols + 1) rows 1 (cartesianPoint realTrig ox oy 0 dx dy)).2 := by
        rw [← this]; rfl
      obtain ⟨r', rfl⟩ : ∃ r', rows = r' + 1 := ⟨rows - 1, by omega⟩
      simp only [sphericalRows] at h9
      split at h9
      · simp only at h9; omega
      · have hz2 := realTrig_zero.2
        have := (sphericalRows_ok realTrig tol dy oy (cols + 1) (by omega) r' (1 + 1)
          (sphericalRow realTrig dy 1 (cartesianPoint realTrig ox oy 0 dx dy)) (by omega) (by
            intro i j hi
            unfold sphericalRow
            by_cases h1 : i = 1
            · rw [if_pos h1, h1]
              simp [cartesianPoint, hz2, latitude]
            · have : i = 0 := by omega
              subst this
              rw [if_neg h1]
              simp [cartesianPoint, hz2, latitude])).1
        omega
    · rw [hn3 (g.rows - 1) (by omega) (by omega)] at hp
      cases hp
  -- latitudes
  have hlat : ∀ i, i ≤ rows → -88 ≤ latitude realTrig dy oy i ∧ latitude realTrig dy oy i ≤ 90 ∧
      (i < rows → latitude realTrig dy oy i < latitude realTrig dy oy (i + 1)) := by
    intro i
    induction i with
    | zero =>
      intro _
      exact ⟨hoy, hoy90.le, fun _ => (nextLatitude_bounds hy0 hy57 hoy hoy90).1⟩
    | succ i ih =>
      intro hi
      obtain ⟨a1, a2, a3⟩ := ih (by omega)
      have a4 := a3 (by omega)
      have a5 : latitude realTrig dy oy i < 90 := by
        cases i with
        | zero => exact hoy90
        | succ i =>
          refine lt_of_le_of_ne a2 (fun h => ?_)
          have := hn3 (i + 1) (by omega) (by omega)
          rw [h] at this
          simp [isEqual] at this
      obtain ⟨b1, b2, _⟩ := nextLatitude_bounds hy0 hy57 a1 a5
      refine ⟨by linarith, b2, fun hi2 => ?_⟩
      have a6 : latitude realTrig dy oy (i + 1) < 90 := by
        refine lt_of_le_of_ne b2 (fun h => ?_)
        have := hn3 (i + 1) (by omega) hi2
        have h' : latitude realTrig dy oy (i + 1) = 90 := h
        rw [h'] at this
        simp [isEqual] at this
      exact (nextLatitude_bounds hy0 hy57 (by linarith) a6).1
  have hN : g.numN = rows + 1 := by unfold Grid.numN; rw [gsn, gen, hrows]; rfl
  have hM : g.numM = cols + 1 := by unfold Grid.numM; rw [gsm, gem, g2]; rfl
  have hcell : ∀ n m, g.node n m = g.cell n m := by intro n m; unfold Grid.node; rw [gsn, gsm]; rfl
  refine ⟨g, latitude realTrig dy oy, ?_, ⟨?_, ?_, rfl, ?_, ?_⟩, ?_, ?_⟩
  · unfold createOnExtension checkProjection
    rw [if_neg (by simp), Res.ok_bind]
    have e : isEqual tol (0 : ℝ) 0 = true := by simp [isEqual]
    rw [e]
    simp only [Bool.not_true, Bool.false_eq_true, if_false]
    unfold computeExtension
    rw [if_neg (not_not.2 hx), if_neg (not_not.2 hy0), toInt_ok (by omega) (by omega), Res.ok_bind, if_neg (by omega)]
    have habs : |uy - oy| = uy - oy := abs_of_nonneg (by linarith)
    have hcnr : computeNumRows .spherical realTrig tol oy uy dy = .ok rows := by
      unfold computeNumRows
      rw [habs, if_neg (not_lt.2 huy)]
      exact hr
    rw [hcnr, Res.ok_bind, hcz]
    unfold matrixFor
    simp only
    rw [g1, Res.ok_bind, makeGrid_ok]
    · omega
    · omega
  · rw [isValid_iff]; omega
  · intro n m hn hm
    rw [hcell, g5 n m (by omega)]
  · intro n hn
    exact (hlat n (by omega)).2.2 (by omega)
  · intro n hn
    exact (hlat n (by omega)).2.1
  · rw [hM, Nat.add_sub_cancel]
    exact ⟨by linarith [hm.1], by linarith [hm.2]⟩
  · rw [hN, Nat.add_sub_cancel]
    exact hn1.imp id (fun h => h.2)

/-- The hypotheses hold for blocks of 5 degrees between the 60th parallels. -/
example : ∃ g lat, createOnExtension .spherical realTrig 0 (-180) (-60) 0 5 5 180 60 = .ok g ∧ Graticule g (-180) (-60) 5 lat ∧
      ((180 : ℝ) ≤ -180 + ((g.numM - 1 : Nat) : ℝ) * 5 ∧ -180 + ((g.numM - 1 : Nat) : ℝ) * 5 < 180 + 5) ∧
      (60 ≤ lat (g.numN - 1) ∨ isEqual 0 |lat (g.numN - 1)| 90 = true) :=
  spherical_extension_partial 0 (-180) (-60) 5 5 180 60 (by norm_num) (by norm_num) (by norm_num) (by norm_num) (by norm_num)
    (by norm_num) (by norm_num) (by norm_num)

/-- At the south pole the next latitude is the south pole again. -/
theorem nextLatitude_south_pole (dy : ℝ) : nextLatitude realTrig dy (-90) = -90 := by
  have hc : realTrig.cos (-90) = 0 := by
    show Real.cos _ = 0
    have : (-90 : ℝ) * (Real.pi / 180) = -(Real.pi / 2) := by ring
    rw [this, Real.cos_neg, Real.cos_pi_div_two]
  unfold nextLatitude
  simp only [hc]
  rw [if_pos (by constructor <;> norm_num), if_pos (by norm_num)]
  norm_num

/-- A grid that starts at the south pole has two rows, both at the south pole, whatever the extension. -/
theorem south_pole_extension_collapses (tol ox dx dy ux uy : ℝ) (hx : 0 < dx) (hy : 0 < dy) (hux : ox < ux) (huy : dy ≤ uy + 90)
    (hbx : (ux - ox) / dx ≤ 2147483646) :
    ∃ g, createOnExtension .spherical realTrig tol ox (-90) 0 dx dy ux uy = .ok g ∧ g.isValid = true ∧ g.numN = 2 ∧
      ∀ n m, n < g.numN → (g.node n m).y = -90 := by
  have hw : 0 < (ux - ox) / dx := div_pos (by linarith) hx
  obtain ⟨b1, b2⟩ := ceil_bounds hw hbx
  have hcz : ⌈(ux - ox) / dx⌉ = (⌈(ux - ox) / dx⌉.toNat : Int) := by omega
  generalize ⌈(ux - ox) / dx⌉.toNat = cols at hcz
  have hpole : isEqual tol |(-90 : ℝ)| 90 = true := by
    simp [isEqual, abs_of_neg]
  have hrow : ∀ j, (sphericalRow realTrig dy 1 (cartesianPoint realTrig ox (-90) 0 dx dy) 1 j).y = -90 := by
    intro j
    have hz2 := realTrig_zero.2
    simp only [sphericalRow, if_true, Nat.sub_self]
    have : (cartesianPoint realTrig ox (-90) 0 dx dy 0 j).y = -90 := by simp [cartesianPoint, hz2]
    rw [this]; exact nextLatitude_south_pole dy
  have hany : (List.range (cols + 1)).any (fun m => isEqual tol
      |(sphericalRow realTrig dy 1 (cartesianPoint realTrig ox (-90) 0 dx dy) 1 m).y| 90) = true := by
    simp only [List.any_eq_true, List.mem_range]
    exact ⟨0, by omega, by rw [hrow]; exact hpole⟩
  refine ⟨{ cartesianGrid realTrig cols 1 ox (-90) 0 dx dy with
    rows := 2, cell := sphericalRow realTrig dy 1 (cartesianPoint realTrig ox (-90) 0 dx dy) }, ?_, ?_, rfl, ?_⟩
  · unfold createOnExtension checkProjection
    rw [if_neg (by simp), Res.ok_bind]
    have e : isEqual tol (0 : ℝ) 0 = true := by simp [isEqual]
    rw [e]
    simp only [Bool.not_true, Bool.false_eq_true, if_false]
    unfold computeExtension
    rw [if_neg (not_not.2 hx), if_neg (not_not.2 hy), toInt_ok (by omega) (by omega), Res.ok_bind, if_neg (by omega)]
    have habs : |uy - -90| = uy + 90 := by rw [abs_of_nonneg (by linarith)]; ring
    have hcnr : computeNumRows .spherical realTrig tol (-90) uy dy = .ok 1 := by
      unfold computeNumRows
      rw [habs, if_neg (not_lt.2 huy)]
      have e : (2147483648 : Nat) = 2147483647 + 1 := rfl
      simp only
      rw [e, countRows, if_pos (by linarith), nextLatitude_south_pole, if_pos hpole]
    rw [hcnr, Res.ok_bind, hcz]
    unfold matrixFor
    simp only
    unfold computeSpherical
    have := computeCartesian_ok realTrig cols 1 (by omega) (by decide) ox (-90) 0 dx dy
    rw [Nat.cast_one] at this
    rw [this, Res.ok_bind, Res.ok_bind]
    have e1 : (cartesianGrid realTrig cols 1 ox (-90) 0 dx dy).cols = cols + 1 := rfl
    have e2 : (cartesianGrid realTrig cols 1 ox (-90) 0 dx dy).rows - 1 = 0 + 1 := rfl
    have e3 : (cartesianGrid realTrig cols 1 ox (-90) 0 dx dy).cell = cartesianPoint realTrig ox (-90) 0 dx dy := rfl
    simp only [e1, e2, e3, sphericalRows]
    rw [if_pos hany, makeGrid_ok]
    · exact le_refl 2
    · show 2 ≤ cols + 1; omega
  · rw [isValid_iff]
    constructor
    · show 2 ≤ (cols + 1) - 0 - 0; omega
    · show 2 ≤ 2 - 0 - 0; omega
  · intro n m hn
    show (sphericalRow realTrig dy 1 (cartesianPoint realTrig ox (-90) 0 dx dy) n m).y = -90
    have hn' : n < 2 := hn
    by_cases h : n = 1
    · rw [h]; exact hrow m
    · have : n = 0 := by omega
      subst this
      have hz2 := realTrig_zero.2
      simp [sphericalRow, cartesianPoint, hz2]

/-- From the equator, a block of 100 degrees ends at latitude 100. -/
theorem nextLatitude_large : nextLatitude realTrig 100 0 = 100 := by
  unfold nextLatitude
  simp only [realTrig_zero.1]
  have h : ¬ (|(0 : ℝ) + 100 * 1 * (1 + (1 - 1) * (3 / 10))| > 88 ∧ 100 * 1 * (1 + (1 - 1) * (3 / 10)) * realTrig.rad * 6378137 < 2000) := by
    rintro ⟨_, h⟩
    have hr : realTrig.rad = Real.pi / 180 := rfl
    rw [hr] at h
    have := Real.pi_gt_three
    norm_num at h
    linarith
  rw [if_neg h]
  norm_num

/-- Blocks of 100 degrees are accepted: the second row of this grid lies beyond the north pole. -/
theorem large_block_leaves_globe (tol : ℝ) :
    ∃ g, createOnExtension .spherical realTrig tol 0 0 0 100 100 100 100 = .ok g ∧ g.isValid = true ∧ g.numN = 2 ∧
      ∀ m, (g.node 1 m).y = 100 := by
  have hrow : ∀ j, (sphericalRow realTrig 100 1 (cartesianPoint realTrig 0 0 0 100 100) 1 j).y = 100 := by
    intro j
    have hz2 := realTrig_zero.2
    simp only [sphericalRow, if_true, Nat.sub_self]
    have : (cartesianPoint realTrig 0 0 0 100 100 0 j).y = 0 := by simp [cartesianPoint, hz2]
    rw [this]; exact nextLatitude_large
  refine ⟨{ cartesianGrid realTrig 1 1 0 0 0 100 100 with
    rows := 2, cell := sphericalRow realTrig 100 1 (cartesianPoint realTrig 0 0 0 100 100) }, ?_, ?_, rfl, hrow⟩
  · unfold createOnExtension checkProjection
    rw [if_neg (by simp), Res.ok_bind]
    have e : isEqual tol (0 : ℝ) 0 = true := by simp [isEqual]
    rw [e]
    simp only [Bool.not_true, Bool.false_eq_true, if_false]
    unfold computeExtension
    have hc : ⌈((100 : ℝ) - 0) / 100⌉ = 1 := by norm_num
    rw [if_neg (by norm_num), if_neg (by norm_num), hc, toInt_ok (by omega) (by omega), Res.ok_bind, if_neg (by omega)]
    have hcnr : computeNumRows .spherical realTrig tol 0 100 100 = .ok 1 := by
      unfold computeNumRows
      rw [if_neg (by norm_num)]
      have e : (2147483648 : Nat) = 2147483646 + 1 + 1 := rfl
      simp only
      rw [e, countRows, if_pos (by norm_num), nextLatitude_large]
      split
      · rfl
      · rw [countRows, if_neg (by norm_num)]; rfl
    rw [hcnr, Res.ok_bind]
    unfold matrixFor
    simp only
    unfold computeSpherical
    have := computeCartesian_ok realTrig 1 1 (by decide) (by decide) (0 : ℝ) 0 0 100 100
    rw [Nat.cast_one] at this
    rw [this, Res.ok_bind, Res.ok_bind]
    have e1 : (cartesianGrid realTrig 1 1 (0 : ℝ) 0 0 100 100).cols = 2 := rfl
    have e2 : (cartesianGrid realTrig 1 1 (0 : ℝ) 0 0 100 100).rows - 1 = 0 + 1 := rfl
    have e3 : (cartesianGrid realTrig 1 1 (0 : ℝ) 0 0 100 100).cell = cartesianPoint realTrig 0 0 0 100 100 := rfl
    simp only [e1, e2, e3, sphericalRows]
    split
    · rw [makeGrid_ok]
      · exact le_refl 2
      · exact le_refl 2
    · rw [makeGrid_ok]
      · exact le_refl 2
      · exact le_refl 2
  · rw [isValid_iff]
    constructor
    · show 2 ≤ 2 - 0 - 0; omega
    · show 2 ≤ 2 - 0 - 0; omega

end Verif.Rect
