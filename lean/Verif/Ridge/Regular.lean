import Verif.Ridge.Lemmas
import Verif.Ridge.Spec
/-!
# Ridges of gridded samples: regular grids
-/
namespace Verif.Ridge
variable {K : Type} [Field K] [LinearOrder K]

/-- The samples of a function on a regular grid, from the highest row down. -/
def regQ (f : K → K → K) (n1 : Nat) (x0 y0 h : K) (i j : Nat) : Node K := node f (x0 + j * h) (y0 + ((n1 - 1 - i : Nat) : K) * h)

omit [LinearOrder K] in
theorem row_down {n1 i : Nat} (y0 h : K) (hi : i + 1 < n1) :
    y0 + ((n1 - 1 - (i + 1) : Nat) : K) * h = y0 + ((n1 - 1 - i : Nat) : K) * h - h := by
  have : n1 - 1 - i = (n1 - 1 - (i + 1)) + 1 := by omega
  rw [this, Nat.cast_add, Nat.cast_one]; ring

omit [LinearOrder K] in
theorem col_right (x0 h : K) (j : Nat) : x0 + ((j + 1 : Nat) : K) * h = x0 + (j : K) * h + h := by
  rw [Nat.cast_add, Nat.cast_one]; ring

theorem fluxI_reg {f : K → K → K} {n1 : Nat} {x0 y0 h : K} {i j : Nat} (hi : i + 1 < n1) (hj : 1 ≤ j) :
    fluxIOf (regQ f n1 x0 y0 h) i j = down f (x0 + j * h) (y0 + ((n1 - 1 - i : Nat) : K) * h) h := by
  obtain ⟨j, rfl⟩ : ∃ k, j = k + 1 := ⟨j - 1, by omega⟩
  have e : x0 + (j : K) * h = x0 + ((j + 1 : Nat) : K) * h - h := by rw [col_right]; ring
  simp only [fluxIOf, down, regQ, row_down y0 h hi, col_right x0 h (j + 1), Nat.add_sub_cancel]
  rw [e]

theorem fluxJ_reg {f : K → K → K} {n1 n2 : Nat} {x0 y0 h : K} {i j : Nat} (hi1 : 1 ≤ i) (hi2 : i + 1 < n1) (hn : i + 1 ≤ n2) :
    fluxJOf n2 (regQ f n1 x0 y0 h) i j = across f (x0 + j * h) (y0 + ((n1 - 1 - i : Nat) : K) * h) h h := by
  have hm : min (i + 1) n2 = i + 1 := by omega
  have e : y0 + ((n1 - 1 - (i - 1) : Nat) : K) * h = y0 + ((n1 - 1 - i : Nat) : K) * h + h := by
    have := row_down (n1 := n1) (i := i - 1) y0 h (by omega)
    rw [Nat.sub_add_cancel hi1] at this; rw [this]; ring
  simp only [fluxJOf, across, regQ, hm, row_down y0 h hi2, col_right x0 h j, e]

theorem fluxJ_clipped {f : K → K → K} {n1 n2 : Nat} {x0 y0 h : K} {i j : Nat} (hi1 : 1 ≤ i) (hi2 : i < n1) (hn : i = n2) :
    fluxJOf n2 (regQ f n1 x0 y0 h) i j = across f (x0 + j * h) (y0 + ((n1 - 1 - i : Nat) : K) * h) h 0 := by
  have hm : min (i + 1) n2 = i := by omega
  have e : y0 + ((n1 - 1 - (i - 1) : Nat) : K) * h = y0 + ((n1 - 1 - i : Nat) : K) * h + h := by
    have := row_down (n1 := n1) (i := i - 1) y0 h (by omega)
    rw [Nat.sub_add_cancel hi1] at this; rw [this]; ring
  simp only [fluxJOf, across, regQ, hm, col_right x0 h j, e, sub_zero]

theorem not_missing {q0 q1 q0L q0R q1L q1R : Node K}
    (h : ∀ q ∈ [q0, q1, q0L, q0R, q1L, q1R], q.1.x ≠ -999 ∧ q.1.y ≠ -999 ∧ q.2 ≠ -999) : (fluxOf q0 q1 q0L q0R q1L q1R).slope ≠ .missing := by
  simp only [List.mem_cons, List.not_mem_nil, or_false, forall_eq_or_imp, forall_eq] at h
  obtain ⟨⟨a0, b0, c0⟩, ⟨a1, b1, c1⟩, ⟨_, _, c2⟩, ⟨_, _, c3⟩, ⟨_, _, c4⟩, ⟨_, _, c5⟩⟩ := h
  have h1 : ¬ (q0.1.x = -999 ∨ q0.1.y = -999 ∨ q1.1.x = -999 ∨ q1.1.y = -999) := by
    rintro (h | h | h | h); exacts [a0 h, b0 h, a1 h, b1 h]
  have h2 : ¬ (q0.2 = -999 ∨ q1.2 = -999 ∨ q0L.2 = -999 ∨ q0R.2 = -999 ∨ q1L.2 = -999 ∨ q1R.2 = -999) := by
    rintro (h | h | h | h | h | h); exacts [c0 h, c1 h, c2 h, c3 h, c4 h, c5 h]
  rw [fluxOf, if_neg h1]
  simp only
  rw [if_neg h2, slopeOf]
  split
  · exact fun e => by cases e
  · exact fun e => by cases e

variable [IsStrictOrderedRing K]

theorem down_plane {a b c x y h : K} (hh : h ≠ 0) :
    (down (fun x y => a * x + b * y + c) x y h).slope = .missing ∨ (down (fun x y => a * x + b * y + c) x y h).slope = .vec a b := by
  have e : (fun x y : K => a * x + b * y + c) = fun x y => 0 * x * x + 0 * x * y + 0 * y * y + a * x + b * y + c := by
    funext x y; ring
  rw [e]
  rcases down_slope (A := 0) (B := 0) (C := 0) (D := a) (E := b) (F := c) (x := x) (y := y) hh with h1 | h1
  · exact Or.inl h1
  · right; rw [h1]; congr 1 <;> ring

omit [Field K] [LinearOrder K] [IsStrictOrderedRing K] in
theorem skipped_missing {env : Env K} {s : Slope K} (h : s = .missing) : skipped env s = true := by rw [h]; rfl

/-- Samples on a plane have no strength, on a regular grid that is not too tall. -/
theorem plane_reg {env : Env K} (he : env.eig (0, 0, 0, 0) = (0, 0)) {a b c : K} {n1 n2 : Nat} {x0 y0 h : K} (hh : h ≠ 0) (hn : n1 ≤ n2 + 2) {i j : Nat}
    (hi1 : 1 ≤ i) (hi2 : i < n1 - 1) (hj1 : 1 ≤ j) :
    (strengthOf env n2 (regQ (fun x y => a * x + b * y + c) n1 x0 y0 h) i j).getD (some 0) = some 0 := by
  have hhh : 0 < h * h := mul_self_pos.2 hh
  obtain ⟨k, hk, hk1, hJ⟩ : ∃ k : K, 0 < h * (h + k) ∧ h + k ≠ 0 ∧ ∀ j, fluxJOf n2 (regQ (fun x y => a * x + b * y + c) n1 x0 y0 h) i j =
      across (fun x y => a * x + b * y + c) (x0 + j * h) (y0 + ((n1 - 1 - i : Nat) : K) * h) h k := by
    by_cases hc : i + 1 ≤ n2
    · refine ⟨h, by linarith [mul_add h h h], fun e => hh (by linarith), fun j => fluxJ_reg hi1 (by omega) hc⟩
    · refine ⟨0, by rw [add_zero]; exact hhh, by rw [add_zero]; exact hh, fun j => fluxJ_clipped hi1 (by omega) (by omega)⟩
  rw [strengthOf, fluxI_reg (by omega) hj1, fluxI_reg (i := i - 1) (by omega) hj1, hJ j, hJ (j - 1)]
  split
  · rfl
  rename_i c1
  split
  · rfl
  rename_i c2
  split
  · rfl
  rename_i c3
  split
  · rfl
  rename_i c4
  have d1 := down_shape (fun e => c1 (skipped_missing e))
  have d2 := down_shape (fun e => c2 (skipped_missing e))
  have d3 := across_shape hk.le (fun e => c3 (skipped_missing e))
  have d4 := across_shape hk.le (fun e => c4 (skipped_missing e))
  rw [Option.getD_some]
  refine combine_flat he ((down_plane hh).resolve_left fun e => c1 (skipped_missing e)) ((down_plane hh).resolve_left fun e => c2 (skipped_missing e))
    ((across_plane hh hk1).resolve_left fun e => c3 (skipped_missing e)) ((across_plane hh hk1).resolve_left fun e => c4 (skipped_missing e)) ?_ ?_ ?_
  · rw [d1.1, d2.1, d3.1, d4.1]; ring
  · rw [d1.2.1, d2.2.1, d3.2.1, d4.2.1]; ring
  · rw [d1.2.2.1, d2.2.2.2, d3.2.2.1, d4.2.2.2]
    have : h * h / 4 + h * h / 4 + h * (h + k) / 8 + h * (h + k) / 8 = h * h / 2 + h * (h + k) / 4 := by ring
    rw [this]
    have : 0 < h * h / 2 + h * (h + k) / 4 := by linarith
    exact ne_of_gt this

omit [IsStrictOrderedRing K] in
theorem notMissing_coords {q0 q1 q0L q0R q1L q1R : Node K} (h : (fluxOf q0 q1 q0L q0R q1L q1R).slope ≠ .missing) :
    ¬ (q0.1.x = -999 ∨ q0.1.y = -999 ∨ q1.1.x = -999 ∨ q1.1.y = -999) := by
  intro hc; apply h; rw [fluxOf, if_pos hc]

theorem plane_vec {q0 q1 q0L q0R q1L q1R : Node K} {a b c : K}
    (h : ∀ q ∈ [q0, q1, q0L, q0R, q1L, q1R], q.1.value = a * q.1.x + b * q.1.y + c ∧ q.2 = q.1.value)
    (hm : (fluxOf q0 q1 q0L q0R q1L q1R).slope ≠ .missing)
    (hv : volume q0.1 q1.1 (1 / 4 * (q0.1.x + q1.1.x + q0L.1.x + q1L.1.x)) (1 / 4 * (q0.1.y + q1.1.y + q0L.1.y + q1L.1.y))
      (1 / 4 * (q0.1.x + q1.1.x + q0R.1.x + q1R.1.x)) (1 / 4 * (q0.1.y + q1.1.y + q0R.1.y + q1R.1.y)) ≠ 0) :
    (fluxOf q0 q1 q0L q0R q1L q1R).slope = .vec a b := by
  rcases plane_slope h with e | e | e
  · exact absurd e hm
  · rw [fluxOf, if_neg (notMissing_coords hm)] at e
    simp only at e
    split at e
    · cases e
    · rw [slopeOf, if_neg hv] at e; cases e
  · exact e

theorem plane_vec' {p0 p1 p0L p0R p1L p1R : Sample K} {a b c : K}
    (hm : (fluxOf (p0, p0.value) (p1, p1.value) (p0L, p0L.value) (p0R, p0R.value) (p1L, p1L.value) (p1R, p1R.value)).slope ≠ .missing)
    (h0 : p0.value = a * p0.x + b * p0.y + c) (h1 : p1.value = a * p1.x + b * p1.y + c) (h2 : p0L.value = a * p0L.x + b * p0L.y + c)
    (h3 : p0R.value = a * p0R.x + b * p0R.y + c) (h4 : p1L.value = a * p1L.x + b * p1L.y + c) (h5 : p1R.value = a * p1R.x + b * p1R.y + c)
    (hv : volume p0 p1 (1 / 4 * (p0.x + p1.x + p0L.x + p1L.x)) (1 / 4 * (p0.y + p1.y + p0L.y + p1L.y))
      (1 / 4 * (p0.x + p1.x + p0R.x + p1R.x)) (1 / 4 * (p0.y + p1.y + p0R.y + p1R.y)) ≠ 0) :
    (fluxOf (p0, p0.value) (p1, p1.value) (p0L, p0L.value) (p0R, p0R.value) (p1L, p1L.value) (p1R, p1R.value)).slope = .vec a b := by
  refine plane_vec (c := c) ?_ hm hv
  intro q hq
  simp only [List.mem_cons, List.not_mem_nil, or_false] at hq
  rcases hq with rfl | rfl | rfl | rfl | rfl | rfl
  exacts [⟨h0, rfl⟩, ⟨h1, rfl⟩, ⟨h2, rfl⟩, ⟨h3, rfl⟩, ⟨h4, rfl⟩, ⟨h5, rfl⟩]

omit [IsStrictOrderedRing K] in
theorem tri_eq {p : Sample K} {lx ly rx ry : K} {l r : K × K} (h1 : lx = l.1) (h2 : ly = l.2) (h3 : rx = r.1) (h4 : ry = r.2) :
    triangle p lx ly rx ry = 1 / 2 * |outer p.at r p.at l| := by
  rw [h1, h2, h3, h4]; rfl

/-- Samples on a plane have no strength, on any grid that is not degenerate and not too tall. -/
theorem plane_strength {env : Env K} (he : env.eig (0, 0, 0, 0) = (0, 0)) {n1 n2 : Nat} {P : Nat → Nat → Sample K} {a b c : K} {i j : Nat}
    (hi : i + 1 < n1 - 1) (hj : j + 1 < n2 - 1) (hn : n1 ≤ n2 + 1)
    (hp : ∀ i j, i < n1 → j < n2 → (P i j).value = a * (P i j).x + b * (P i j).y + c) (hs : Spread n1 n2 P) :
    (strengthOf env n2 (fun i j => (P i j, (P i j).value)) (i + 1) (j + 1)).getD (some 0) = some 0 := by
  have hmin : min (i + 1 + 1) n2 = i + 1 + 1 := by omega
  rw [strengthOf]
  split
  · rfl
  rename_i c1
  split
  · rfl
  rename_i c2
  split
  · rfl
  rename_i c3
  split
  · rfl
  rename_i c4
  rw [Option.getD_some]
  have m1 := fun e => c1 (skipped_missing e)
  have m2 := fun e => c2 (skipped_missing e)
  have m3 := fun e => c3 (skipped_missing e)
  have m4 := fun e => c4 (skipped_missing e)
  have r1 := hs.rows (i + 1) (j + 1) (by omega) (by omega) (by omega)
  have r2 := hs.rows i (j + 1) (by omega) (by omega) (by omega)
  have r3 := hs.cols (i + 1) (j + 1) (by omega) (by omega) (by omega)
  have r4 := hs.cols (i + 1) j (by omega) (by omega) (by omega)
  have ar := hs.around (i + 1) (j + 1) (by omega) (by omega) (by omega) (by omega)
  simp only [outer, centre, Sample.at, Nat.add_sub_cancel] at r1 r2 r3 r4
  simp only [Nat.add_sub_cancel] at ar
  simp only [fluxIOf, fluxJOf, hmin, Nat.add_sub_cancel] at m1 m2 m3 m4 ⊢
  have s1 := plane_vec' (a := a) (b := b) (c := c) m1 (hp _ _ (by omega) (by omega)) (hp _ _ (by omega) (by omega)) (hp _ _ (by omega) (by omega))
    (hp _ _ (by omega) (by omega)) (hp _ _ (by omega) (by omega)) (hp _ _ (by omega) (by omega)) (by
    intro e; apply r1; simp only [volume] at e; linear_combination e)
  have s2 := plane_vec' (a := a) (b := b) (c := c) m2 (hp _ _ (by omega) (by omega)) (hp _ _ (by omega) (by omega)) (hp _ _ (by omega) (by omega))
    (hp _ _ (by omega) (by omega)) (hp _ _ (by omega) (by omega)) (hp _ _ (by omega) (by omega)) (by
    intro e; apply r2; simp only [volume] at e; linear_combination e)
  have s3 := plane_vec' (a := a) (b := b) (c := c) m3 (hp _ _ (by omega) (by omega)) (hp _ _ (by omega) (by omega)) (hp _ _ (by omega) (by omega))
    (hp _ _ (by omega) (by omega)) (hp _ _ (by omega) (by omega)) (hp _ _ (by omega) (by omega)) (by
    intro e; apply r3; simp only [volume] at e; linear_combination e)
  have s4 := plane_vec' (a := a) (b := b) (c := c) m4 (hp _ _ (by omega) (by omega)) (hp _ _ (by omega) (by omega)) (hp _ _ (by omega) (by omega))
    (hp _ _ (by omega) (by omega)) (hp _ _ (by omega) (by omega)) (hp _ _ (by omega) (by omega)) (by
    intro e; apply r4; simp only [volume] at e; linear_combination e)
  refine combine_flat he s1 s2 s3 s4 ?_ ?_ ?_
  · rw [fluxOf, fluxOf, fluxOf, fluxOf, if_neg (notMissing_coords m1), if_neg (notMissing_coords m2), if_neg (notMissing_coords m3),
      if_neg (notMissing_coords m4)]
    ring
  · rw [fluxOf, fluxOf, fluxOf, fluxOf, if_neg (notMissing_coords m1), if_neg (notMissing_coords m2), if_neg (notMissing_coords m3),
      if_neg (notMissing_coords m4)]
    ring
  · rw [fluxOf, fluxOf, fluxOf, fluxOf, if_neg (notMissing_coords m1), if_neg (notMissing_coords m2), if_neg (notMissing_coords m3),
      if_neg (notMissing_coords m4)]
    simp only
    rw [tri_eq (l := centre P i (j + 1)) (r := centre P i j) (by show _ = 1 / 4 * _; ring) (by show _ = 1 / 4 * _; ring) (by show _ = 1 / 4 * _; ring)
        (by show _ = 1 / 4 * _; ring),
      tri_eq (l := centre P (i + 1) (j + 1)) (r := centre P (i + 1) j) (by show _ = 1 / 4 * _; ring) (by show _ = 1 / 4 * _; ring)
        (by show _ = 1 / 4 * _; ring) (by show _ = 1 / 4 * _; ring),
      tri_eq (l := centre P i j) (r := centre P (i + 1) j) (by show _ = 1 / 4 * _; ring) (by show _ = 1 / 4 * _; ring)
        (by show _ = 1 / 4 * _; ring) (by show _ = 1 / 4 * _; ring),
      tri_eq (l := centre P i (j + 1)) (r := centre P (i + 1) (j + 1)) (by show _ = 1 / 4 * _; ring) (by show _ = 1 / 4 * _; ring)
        (by show _ = 1 / 4 * _; ring) (by show _ = 1 / 4 * _; ring)]
    intro e
    apply ar
    linear_combination 2 * e

omit [Field K] [LinearOrder K] [IsStrictOrderedRing K] in
theorem skipped_vec {env : Env K} {s : Slope K} {a b : K} (h : s = .vec a b) (hn : env.near a = false) : ¬ skipped env s = true := by
  rw [h]; simp [skipped, hn]

/-- Samples of a quadratic function have the exact strength, on a regular grid that is not too tall. -/
theorem quad_reg {env : Env K} {A B C D E F : K} {n1 n2 : Nat} {x0 y0 h : K} (hh : h ≠ 0) (hn : n1 ≤ n2 + 1) {i j : Nat}
    (hi1 : 1 ≤ i) (hi2 : i < n1 - 1) (hj1 : 1 ≤ j) (hj2 : j < n2 - 1) {X Y : K} (hX : X = x0 + j * h) (hY : Y = y0 + ((n1 - 1 - i : Nat) : K) * h)
    (hm : ∀ i' j', i' < n1 → j' < n2 → (regQ (fun x y => A * x * x + B * x * y + C * y * y + D * x + E * y + F) n1 x0 y0 h i' j').1.x ≠ -999 ∧
      (regQ (fun x y => A * x * x + B * x * y + C * y * y + D * x + E * y + F) n1 x0 y0 h i' j').1.y ≠ -999 ∧
      (regQ (fun x y => A * x * x + B * x * y + C * y * y + D * x + E * y + F) n1 x0 y0 h i' j').2 ≠ -999)
    (hq1 : env.near (2 * A * X + B * (Y - h / 2) + D) = false) (hq2 : env.near (2 * A * X + B * (Y + h / 2) + D) = false)
    (hq3 : env.near (2 * A * (X + h / 2) + B * Y + D) = false) (hq4 : env.near (2 * A * (X - h / 2) + B * Y + D) = false) :
    strengthOf env n2 (regQ (fun x y => A * x * x + B * x * y + C * y * y + D * x + E * y + F) n1 x0 y0 h) i j =
      some (some (larger (env.eig (4 * A, 2 * B, 2 * B, 4 * C)) * (h * h))) := by
  have hhh : 0 < h * h := mul_self_pos.2 hh
  generalize hQ : regQ (fun x y => A * x * x + B * x * y + C * y * y + D * x + E * y + F) n1 x0 y0 h = Q at *
  have mI : ∀ i', i' + 1 < n1 → (fluxIOf Q i' j).slope ≠ .missing := by
    intro i' hi'
    apply not_missing
    simp only [List.mem_cons, List.not_mem_nil, or_false, forall_eq_or_imp, forall_eq]
    exact ⟨hm _ _ (by omega) (by omega), hm _ _ (by omega) (by omega), hm _ _ (by omega) (by omega), hm _ _ (by omega) (by omega),
      hm _ _ (by omega) (by omega), hm _ _ (by omega) (by omega)⟩
  have mJ : ∀ j', j' + 1 < n2 → (fluxJOf n2 Q i j').slope ≠ .missing := by
    intro j' hj'
    apply not_missing
    simp only [List.mem_cons, List.not_mem_nil, or_false, forall_eq_or_imp, forall_eq]
    exact ⟨hm _ _ (by omega) (by omega), hm _ _ (by omega) (by omega), hm _ _ (by omega) (by omega), hm _ _ (by omega) (by omega),
      hm _ _ (by omega) (by omega), hm _ _ (by omega) (by omega)⟩
  have m1 := mI i (by omega)
  have m2 := mI (i - 1) (by omega)
  have m3 := mJ j (by omega)
  have m4 := mJ (j - 1) (by omega)
  have y2 : y0 + ((n1 - 1 - (i - 1) : Nat) : K) * h = Y + h := by
    have := row_down (n1 := n1) (i := i - 1) y0 h (by omega)
    rw [Nat.sub_add_cancel hi1, ← hY] at this; rw [this]; ring
  have x4 : x0 + ((j - 1 : Nat) : K) * h = X - h := by
    have := col_right x0 h (j - 1)
    rw [Nat.sub_add_cancel hj1, ← hX] at this; rw [this]; ring
  subst hQ
  have f1 := fluxI_reg (f := fun x y => A * x * x + B * x * y + C * y * y + D * x + E * y + F) (n1 := n1) (x0 := x0) (y0 := y0) (h := h) (i := i) (by omega) hj1
  have f2 := fluxI_reg (f := fun x y => A * x * x + B * x * y + C * y * y + D * x + E * y + F) (n1 := n1) (x0 := x0) (y0 := y0) (h := h) (i := i - 1) (by omega) hj1
  have f3 := fluxJ_reg (f := fun x y => A * x * x + B * x * y + C * y * y + D * x + E * y + F) (n1 := n1) (n2 := n2) (x0 := x0) (y0 := y0) (h := h) (i := i) (j := j) hi1 (by omega) (by omega)
  have f4 := fluxJ_reg (f := fun x y => A * x * x + B * x * y + C * y * y + D * x + E * y + F) (n1 := n1) (n2 := n2) (x0 := x0) (y0 := y0) (h := h) (i := i) (j := j - 1) hi1 (by omega) (by omega)
  rw [← hX, ← hY] at f1 f3
  rw [← hX, y2] at f2
  rw [x4, ← hY] at f4
  rw [f1] at m1
  rw [f2] at m2
  rw [f3] at m3
  rw [f4] at m4
  rw [strengthOf, f1, f2, f3, f4]
  have s1 := (down_slope hh).resolve_left m1
  have s2 := (down_slope hh).resolve_left m2
  have s3 := (across_slope hh).resolve_left m3
  have s4 := (across_slope hh).resolve_left m4
  have r2 : Y + h - h / 2 = Y + h / 2 := by ring
  have r4 : X - h + h / 2 = X - h / 2 := by ring
  rw [r2] at s2
  rw [r4] at s4
  have h2 : 0 ≤ h * (h + h) := by linarith [mul_add h h h]
  have d1 := down_shape m1
  have d2 := down_shape m2
  have d3 := across_shape h2 m3
  have d4 := across_shape h2 m4
  rw [if_neg (skipped_vec s1 hq1), if_neg (skipped_vec s2 hq2), if_neg (skipped_vec s3 hq3), if_neg (skipped_vec s4 hq4)]
  simp only [combine]
  rw [d1.1, d2.1, d3.1, d4.1, d1.2.1, d2.2.1, d3.2.1, d4.2.1, d1.2.2.1, d2.2.2.2, d3.2.2.1, d4.2.2.2, s1, s2, s3, s4]
  have ha : h * h / 4 + h * h / 4 + h * (h + h) / 8 + h * (h + h) / 8 = h * h := by ring
  rw [ha, if_neg (ne_of_gt hhh)]
  simp only
  congr 2
  have key : ∀ t w : K, t = w * (h * h) → t * (1 / (h * h)) = w := fun t w e => by
    rw [e, mul_one_div, mul_div_cancel_right₀ _ (ne_of_gt hhh)]
  rw [key _ (4 * A) (by ring), key _ (2 * B) (by ring), key _ (2 * B) (by ring), key _ (4 * C) (by ring)]

omit [LinearOrder K] [IsStrictOrderedRing K] in
/-- The samples of a regular grid. -/
theorem convert_regular {g : Grid K} {nx ny : Nat} (hx : g.numX = nx) (hy : g.numY = ny) (hx0 : 0 < nx) (hy0 : 0 < ny)
    (hreg : g.xs = none ∨ g.ys = none) (hv : nx * ny ≤ g.values.length) :
    ∃ s, convert g = .ok s ∧ s.length = ny * nx ∧ ∀ i j v, i < ny → j < nx → g.values[nx * (ny - 1 - i) + j]? = some v →
      s[i + ny * j]? = some ⟨g.x0 + j * g.size, g.y0 + ((ny - 1 - i : Nat) : K) * g.size, v⟩ := by
  have hlt : ∀ i j, i < ny → j < nx → nx * i + j < g.values.length := fun i j hi hj => by
    have := cell_lt hj hi; omega
  have hs : ∀ i j v, g.values[nx * i + j]? = some v → sampleAt g i j = .ok ⟨g.x0 + j * g.size, g.y0 + (i : K) * g.size, v⟩ := by
    intro i j v h
    rw [sampleAt, hx, Int.toNat_natCast, vget_eq_ok.2 h, Res.ok_bind]
    rcases hreg with h | h
    · rw [h]
    · rw [h]; cases g.xs <;> rfl
  have hd : ¬ (g.numX ≤ 0 ∨ g.numY ≤ 0) := by omega
  have hlen : (g.numX * g.numY).toNat = ny * nx := by
    rw [hx, hy, ← Int.natCast_mul, Int.toNat_natCast, Nat.mul_comm]
  obtain ⟨s, h1, h2⟩ := fill2 (fun j k => ny * j + k)
    (fun j k => (g.values[nx * (ny - 1 - k) + j]?).map fun v => (⟨g.x0 + j * g.size, g.y0 + ((ny - 1 - k : Nat) : K) * g.size, v⟩ : Sample K))
    (fun j k (r : List (Sample K)) => do
      let p ← sampleAt g (ny - 1 - k) j
      vset r (ny * j + k) p) 0 nx 0 ny (List.replicate (ny * nx) ⟨-999, -999, -999⟩) (Nat.zero_le _) (Nat.zero_le _)
    (fun j k _ hj _ hk => by rw [List.length_replicate, Nat.add_comm]; exact cell_lt hk hj)
    (fun j k j' k' _ hj _ hk _ hj' _ hk' e => by
      have := cell_inj (n1 := ny) hk hk' (by simp only [Nat.add_comm k, Nat.add_comm k']; exact e)
      exact ⟨this.2, this.1⟩)
    (by
      intro j k l' _ hj _ hk hl _
      obtain ⟨v, hv⟩ : ∃ v, g.values[nx * (ny - 1 - k) + j]? = some v := ⟨_, List.getElem?_eq_getElem (hlt _ _ (by omega) hj)⟩
      rw [hs _ _ _ hv, Res.ok_bind, vset_ok _ (by rw [hl, List.length_replicate, Nat.add_comm]; exact cell_lt hk hj), hv]
      rfl)
  refine ⟨s, ?_, by rw [h2.len, List.length_replicate], ?_⟩
  · rw [convert, if_neg hd, hlen, hy, hx, Int.toNat_natCast, Int.toNat_natCast, h1]
  · intro i j v hi hj hv
    have := h2.hit j i ⟨Nat.zero_le _, hj, Nat.zero_le _, hi⟩
    simp only [Nat.add_comm (ny * j)] at this
    rw [this, hv]; rfl

theorem toUInt_nat {n : Nat} (h : n ≤ missing) : toUInt (n : Int) = n := by
  rw [toUInt, Int.emod_eq_of_lt (by omega) (by omega), Int.toNat_natCast]

end Verif.Ridge
