import Verif.Ridge.Regular
import Verif.Ridge.Spec
import Mathlib.Algebra.Order.Field.Rat
/-!
# Ridges of gridded samples: properties
-/
namespace Verif.Ridge
variable {K : Type} [Field K] [LinearOrder K] [IsStrictOrderedRing K]

/-- Eigenvalues of diagonal matrices, and an exact comparison. -/
def diag : Env ℚ := ⟨fun m => (m.1, m.2.2.2), fun x => x = -999⟩

omit [IsStrictOrderedRing K] in
/-- Every call with as many samples as rows times columns succeeds; the result has the same places in the same order, and the value zero on
the border. -/
theorem samples_in_place (env : Env K) {s : List (Sample K)} {rounds nx ny : Nat} (hx : 0 < nx) (hy : 0 < ny) (hs : s.length = nx * ny)
    (hn : nx * ny ≤ missing) : ∃ out, samplesHessian env s rounds nx ny = .ok out ∧ out.length = s.length ∧
      ∀ i j (p : Sample K), i < ny → j < nx → s[ny * j + i]? = some p → ∃ v, out[ny * j + i]? = some ⟨p.x, p.y, v⟩ ∧
        (¬ Interior nx ny i j → v = some 0) := by
  rw [Nat.mul_comm] at hs
  obtain ⟨z, e1, e2⟩ := smooth_ok hy hx rounds (z := s.map (·.value)) (by rw [List.length_map, hs])
  obtain ⟨out, h1, h2, h3⟩ := samplesHessian_eq (env := env) hs hn e1 (strengthOf env nx (nodesOf ny s z))
    (fun i j h1 h2 h3 h4 => strengthAt_eq (holds_nodesOf hs e2) h1 h2 h3 h4)
  refine ⟨out, h1, by rw [h2, hs], ?_⟩
  intro i j p hi hj hp
  rw [Nat.add_comm] at hp
  refine ⟨_, by rw [Nat.add_comm]; exact h3 i j p hi hj hp, ?_⟩
  intro hb
  rw [if_neg (fun c => hb ⟨c.1, by omega, c.2.2.1, by omega⟩)]

example : ∃ out, samplesHessian diag [⟨0, 0, 5⟩, ⟨1, 3, 6⟩] 2 1 2 = .ok out ∧ out.length = 2 ∧
    ∀ i j (p : Sample ℚ), i < 2 → j < 1 → ([⟨0, 0, 5⟩, ⟨1, 3, 6⟩] : List (Sample ℚ))[2 * j + i]? = some p →
      ∃ v, out[2 * j + i]? = some ⟨p.x, p.y, v⟩ ∧ (¬ Interior 1 2 i j → v = some 0) :=
  samples_in_place diag (by decide) (by decide) rfl (by decide)

omit [IsStrictOrderedRing K] in
/-- Otherwise the call is refused. -/
theorem other_count_refused (env : Env K) {s : List (Sample K)} {rounds nx ny : Nat} (hn : nx * ny ≤ missing) (hs : s.length ≠ nx * ny) :
    samplesHessian env s rounds nx ny = .throw := by
  rw [samplesHessian, if_pos]
  rw [Nat.mod_eq_of_lt (by omega)]; exact fun e => hs e.symm

example : samplesHessian diag [⟨0, 0, 5⟩, ⟨1, 3, 6⟩] 2 1 3 = .throw := other_count_refused diag (by decide) (by decide)

omit [LinearOrder K] [IsStrictOrderedRing K] in
theorem sampled_held {g : Grid K} {nx ny : Nat} {f : K → K → K} (h : Sampled g nx ny f) :
    ∃ s, convert g = .ok s ∧ s.length = ny * nx ∧ Holds ny nx s (s.map (·.value)) (regQ f ny g.x0 g.y0 g.size) := by
  obtain ⟨s, h1, h2, h3⟩ := convert_regular h.numX h.numY h.posX h.posY h.regular h.room
  refine ⟨s, h1, h2, ?_⟩
  intro i j hi hj
  have := h3 i j _ hi hj (h.vals (ny - 1 - i) j (by omega) hj)
  exact ⟨this, by rw [List.getElem?_map, this]; rfl⟩

omit [LinearOrder K] [IsStrictOrderedRing K] in
theorem sampled_sizes {g : Grid K} {nx ny : Nat} {f : K → K → K} (h : Sampled g nx ny f) : toUInt g.numX = nx ∧ toUInt g.numY = ny := by
  have h1 : nx ≤ nx * ny := Nat.le_mul_of_pos_right _ h.posY
  have h2 : ny ≤ nx * ny := Nat.le_mul_of_pos_left _ h.posX
  have := h.small
  rw [h.numX, h.numY]
  exact ⟨toUInt_nat (by omega), toUInt_nat (by omega)⟩

omit [LinearOrder K] [IsStrictOrderedRing K] in
/-- From positions counted from above to positions counted from below. -/
theorem reports_of {g : Grid K} {nx ny : Nat} {f : K → K → K} {s : List (Sample K)} {z : List K} (hh : Holds ny nx s z (regQ f ny g.x0 g.y0 g.size))
    {out : List (Strength K)} (hl : out.length = ny * nx) {w : Nat → Nat → Option K}
    (ho : ∀ i j (p : Sample K), i < ny → j < nx → s[i + ny * j]? = some p → out[i + ny * j]? = some ⟨p.x, p.y, w i j⟩) :
    Reports out g nx ny (fun r c => w (ny - 1 - r) c) := by
  refine ⟨by rw [hl, Nat.mul_comm], ?_⟩
  intro r c hr hc
  have := ho (ny - 1 - r) c _ (by omega) hc (hh (ny - 1 - r) c (by omega) hc).1
  rw [Nat.add_comm, this]
  have e : ny - 1 - (ny - 1 - r) = r := by omega
  simp only [regQ, node, e]

/-- Values on a plane show no ridge anywhere, whatever the number of smoothing rounds, when the grid has at most two rows more than
columns. -/
theorem plane_has_no_ridge_partial (env : Env K) (he : env.eig (0, 0, 0, 0) = (0, 0)) {g : Grid K} {nx ny : Nat} {a b c : K}
    (hg : Sampled g nx ny (fun x y => a * x + b * y + c)) (hsize : g.size ≠ 0) (htall : ny ≤ nx + 2) (rounds : Int) :
    ∃ out, ridges env g rounds = .ok out ∧ Reports out g nx ny (fun _ _ => some 0) := by
  obtain ⟨s, h1, h2, h3⟩ := sampled_held hg
  obtain ⟨hx, hy⟩ := sampled_sizes hg
  have hz : (s.map (·.value)).length = ny * nx := by rw [List.length_map, h2]
  have hsm : smooth ny nx (toUInt rounds) (s.map (·.value)) = .ok (s.map (·.value)) := by
    refine smooth_even hg.posY hg.posX hz (a := -(b * g.size)) (b := a * g.size) (c := a * g.x0 + b * (g.y0 + ((ny - 1 : Nat) : K) * g.size) + c) ?_ _
    intro i j hi hj
    rw [(h3 i j hi hj).2]
    congr 1
    have : ((ny - 1 - i : Nat) : K) = ((ny - 1 : Nat) : K) - i := by rw [Nat.cast_sub (by omega)]
    simp only [regQ, node, this]; ring
  obtain ⟨out, e1, e2, e3⟩ := samplesHessian_eq (env := env) h2 hg.small hsm _
    (fun i j h4 h5 h6 h7 => strengthAt_eq h3 h4 h5 h6 h7)
  refine ⟨out, by rw [ridges, h1, Res.ok_bind, hx, hy, e1], ?_⟩
  refine reports_of h3 e2 (w := fun _ _ => some 0) ?_
  intro i j p hi hj hp
  rw [e3 i j p hi hj hp]
  congr 2
  split
  · rename_i hin
    exact plane_reg he hsize htall hin.1 hin.2.1 hin.2.2.1
  · rfl

/-- A plane on a grid with three columns and five rows. -/
def tilted : Grid ℚ := ⟨3, 5, 1, 2, 1 / 2, none, none, [8, 9, 10, 19 / 2, 21 / 2, 23 / 2, 11, 12, 13, 25 / 2, 27 / 2, 29 / 2, 14, 15, 16]⟩

example : ∃ out, ridges diag tilted 2 = .ok out ∧ Reports out tilted 3 5 (fun _ _ => some 0) := by
  refine plane_has_no_ridge_partial diag (by decide) (a := 2) (b := 3) (c := 0)
    ⟨rfl, rfl, by decide, by decide, by decide, Or.inl rfl, by decide, ?_⟩ (by decide +kernel) (by decide) 2
  have : ∀ r : Nat, r < 5 → ∀ c : Nat, c < 3 → tilted.values[3 * r + c]? = some (2 * (tilted.x0 + (c : ℚ) * tilted.size) + 3 * (tilted.y0 + (r : ℚ) * tilted.size) + 0) := by
    decide +kernel
  exact fun r c hr hc => this r hr c hc

/-- Samples on a plane show no ridge without smoothing, wherever the samples lie, when the grid has at most one row more than columns and no
cell is degenerate. -/
theorem plane_on_any_grid_partial (env : Env K) (he : env.eig (0, 0, 0, 0) = (0, 0)) {s : List (Sample K)} {nx ny : Nat} {a b c : K} (htall : ny ≤ nx + 1)
    (hn : nx * ny ≤ missing) (hs : s.length = nx * ny) {P : Nat → Nat → Sample K} (hP : ∀ i j, i < ny → j < nx → s[ny * j + i]? = some (P i j))
    (hplane : ∀ i j, i < ny → j < nx → (P i j).value = a * (P i j).x + b * (P i j).y + c) (hspread : Spread ny nx P) :
    ∃ out, samplesHessian env s 0 nx ny = .ok out ∧ out.length = s.length ∧
      ∀ i j, i < ny → j < nx → out[ny * j + i]? = some ⟨(P i j).x, (P i j).y, some 0⟩ := by
  rw [Nat.mul_comm] at hs
  have hh : Holds ny nx s (s.map (·.value)) (fun i j => (P i j, (P i j).value)) := by
    intro i j hi hj
    have := hP i j hi hj
    rw [Nat.add_comm] at this
    exact ⟨this, by rw [List.getElem?_map, this]; rfl⟩
  obtain ⟨out, e1, e2, e3⟩ := samplesHessian_eq (env := env) (rounds := 0) hs hn rfl _ (fun i j h4 h5 h6 h7 => strengthAt_eq hh h4 h5 h6 h7)
  refine ⟨out, e1, by rw [e2, hs], ?_⟩
  intro i j hi hj
  rw [Nat.add_comm, e3 i j (P i j) hi hj (hh i j hi hj).1]
  congr 2
  split
  · rename_i hin
    obtain ⟨i, rfl⟩ : ∃ k, i = k + 1 := ⟨i - 1, by omega⟩
    obtain ⟨j, rfl⟩ : ∃ k, j = k + 1 := ⟨j - 1, by omega⟩
    exact plane_strength he hin.2.1 hin.2.2.2 htall hplane hspread
  · rfl

/-- Samples of a plane on a grid whose rows and columns are bent. -/
def bent : List (Sample ℚ) :=
  [⟨0, 3, 3⟩, ⟨0, 1, 1⟩, ⟨-1, 0, -1⟩, ⟨2, 3, 5⟩, ⟨2, 2, 4⟩, ⟨1, 0, 1⟩, ⟨4, 4, 8⟩, ⟨5, 2, 7⟩, ⟨4, 0, 4⟩]

example : ∃ out, samplesHessian diag bent 0 3 3 = .ok out ∧ out.length = bent.length ∧
    ∀ i j, i < 3 → j < 3 → out[3 * j + i]? = some ⟨(bent[3 * j + i]?.getD ⟨0, 0, 0⟩).x, (bent[3 * j + i]?.getD ⟨0, 0, 0⟩).y, some 0⟩ := by
  have h1 : ∀ i : Nat, i < 3 → ∀ j : Nat, j < 3 → bent[3 * j + i]? = some (bent[3 * j + i]?.getD ⟨0, 0, 0⟩) := by decide +kernel
  have h2 : ∀ i : Nat, i < 3 → ∀ j : Nat, j < 3 → (bent[3 * j + i]?.getD ⟨0, 0, 0⟩).value =
    1 * (bent[3 * j + i]?.getD ⟨0, 0, 0⟩).x + 1 * (bent[3 * j + i]?.getD ⟨0, 0, 0⟩).y + 0 := by decide +kernel
  refine plane_on_any_grid_partial diag (by decide) (P := fun i j => bent[3 * j + i]?.getD ⟨0, 0, 0⟩) (by decide) (by decide) (by decide)
    (fun i j hi hj => h1 i hi j hj) (fun i j hi hj => h2 i hi j hj) ⟨?_, ?_, ?_⟩
  · intro i j h3 h4 h5
    obtain rfl : j = 1 := by omega
    have : ∀ i : Nat, i < 2 → outer (bent[3 * 1 + i]?.getD ⟨0, 0, 0⟩).at (bent[3 * 1 + (i + 1)]?.getD ⟨0, 0, 0⟩).at
      (centre (fun i j => bent[3 * j + i]?.getD ⟨0, 0, 0⟩) i (1 - 1)) (centre (fun i j => bent[3 * j + i]?.getD ⟨0, 0, 0⟩) i 1) ≠ 0 := by decide +kernel
    exact this i (by omega)
  · intro i j h3 h4 h5
    obtain rfl : i = 1 := by omega
    have : ∀ j : Nat, j < 2 → outer (bent[3 * j + 1]?.getD ⟨0, 0, 0⟩).at (bent[3 * (j + 1) + 1]?.getD ⟨0, 0, 0⟩).at
      (centre (fun i j => bent[3 * j + i]?.getD ⟨0, 0, 0⟩) 1 j) (centre (fun i j => bent[3 * j + i]?.getD ⟨0, 0, 0⟩) (1 - 1) j) ≠ 0 := by decide +kernel
    exact this j (by omega)
  · intro i j h3 h4 h5 h6
    obtain rfl : i = 1 := by omega
    obtain rfl : j = 1 := by omega
    decide +kernel

omit [IsStrictOrderedRing K] in
theorem larger_eigen {env : Env K} {a b d : K} (h : Eigen env a b d) :
    larger (env.eig (a, b, b, d)) * larger (env.eig (a, b, b, d)) - (a + d) * larger (env.eig (a, b, b, d)) + (a * d - b * b) = 0 ∧
      |a + d - larger (env.eig (a, b, b, d))| ≤ |larger (env.eig (a, b, b, d))| := by
  obtain ⟨h1, h2⟩ := h
  generalize env.eig (a, b, b, d) = e at *
  rw [← h1, ← h2]
  unfold larger
  split
  · rename_i hc
    refine ⟨by ring, ?_⟩
    have : e.1 + e.2 - e.1 = e.2 := by ring
    rw [this]; exact le_of_lt hc
  · rename_i hc
    refine ⟨by ring, ?_⟩
    have : e.1 + e.2 - e.2 = e.1 := by ring
    rw [this]; exact le_of_not_gt hc

/-- For values of a quadratic function, without smoothing, each inner sample has twice the strongest second derivative times the area of a
cell, and each other one zero; when the grid has at most one row more than columns, no value or coordinate is the missing value and no
slope is taken for it. -/
theorem quadratic_exact_partial (env : Env K) {g : Grid K} {nx ny : Nat} {A B C D E F : K}
    (hg : Sampled g nx ny (fun x y => A * x * x + B * x * y + C * y * y + D * x + E * y + F)) (hsize : g.size ≠ 0) (htall : ny ≤ nx + 1)
    (he : Eigen env (4 * A) (2 * B) (4 * C))
    (hmiss : ∀ r c, r < ny → c < nx → g.x0 + c * g.size ≠ -999 ∧ g.y0 + r * g.size ≠ -999 ∧ g.values[nx * r + c]? ≠ some (-999))
    (hslope : ∀ r c, Interior nx ny r c → ∀ dx dy : K, (dx, dy) ∈ [(0, g.size / 2), (0, -(g.size / 2)), (g.size / 2, 0), (-(g.size / 2), 0)] →
      env.near (2 * A * (g.x0 + c * g.size + dx) + B * (g.y0 + r * g.size + dy) + D) = false) :
    ∃ out μ, ridges env g 0 = .ok out ∧ Strongest A B C μ ∧
      Reports out g nx ny (fun r c => if 1 ≤ r ∧ r + 1 < ny ∧ 1 ≤ c ∧ c + 1 < nx then some (2 * μ * (g.size * g.size)) else some 0) := by
  obtain ⟨s, h1, h2, h3⟩ := sampled_held hg
  obtain ⟨hx, hy⟩ := sampled_sizes hg
  obtain ⟨l1, l2⟩ := larger_eigen he
  generalize hL : larger (env.eig (4 * A, 2 * B, 2 * B, 4 * C)) = L at *
  have hstrong : Strongest A B C (L / 2) := by
    refine ⟨?_, ?_⟩
    · have : L / 2 * (L / 2) - (2 * A + 2 * C) * (L / 2) + (2 * A * (2 * C) - B * B) =
          1 / 4 * (L * L - (4 * A + 4 * C) * L + (4 * A * (4 * C) - 2 * B * (2 * B))) := by ring
      rw [this, l1, mul_zero]
    · have e1 : 2 * A + 2 * C - L / 2 = 1 / 2 * (4 * A + 4 * C - L) := by ring
      have e2 : L / 2 = 1 / 2 * L := by ring
      rw [e1, e2, abs_mul, abs_mul]
      exact mul_le_mul_of_nonneg_left l2 (abs_nonneg _)
  have hm : ∀ i j, i < ny → j < nx → (regQ (fun x y => A * x * x + B * x * y + C * y * y + D * x + E * y + F) ny g.x0 g.y0 g.size i j).1.x ≠ -999 ∧
      (regQ (fun x y => A * x * x + B * x * y + C * y * y + D * x + E * y + F) ny g.x0 g.y0 g.size i j).1.y ≠ -999 ∧
      (regQ (fun x y => A * x * x + B * x * y + C * y * y + D * x + E * y + F) ny g.x0 g.y0 g.size i j).2 ≠ -999 := by
    intro i j hi hj
    obtain ⟨m1, m2, m3⟩ := hmiss (ny - 1 - i) j (by omega) hj
    rw [hg.vals _ _ (by omega) hj] at m3
    exact ⟨m1, m2, fun e => m3 (by rw [← e]; rfl)⟩
  obtain ⟨out, e1, e2, e3⟩ := samplesHessian_eq (env := env) (rounds := 0) h2 hg.small rfl _
    (fun i j h4 h5 h6 h7 => strengthAt_eq h3 h4 h5 h6 h7)
  refine ⟨out, L / 2, ?_, hstrong, ?_⟩
  · rw [ridges, h1, Res.ok_bind, hx, hy]; exact e1
  have := reports_of h3 e2 (w := fun i j => if 1 ≤ i ∧ i < ny - 1 ∧ 1 ≤ j ∧ j < nx - 1 then some (2 * (L / 2) * (g.size * g.size)) else some 0) (by
    intro i j p hi hj hp
    rw [e3 i j p hi hj hp]
    congr 2
    split
    · rename_i hin
      have hq := hslope (ny - 1 - i) j ⟨by omega, by omega, by omega, by omega⟩
      simp only [List.mem_cons, List.not_mem_nil, or_false, Prod.mk.injEq] at hq
      rw [quad_reg hsize htall hin.1 hin.2.1 hin.2.2.1 hin.2.2.2 rfl rfl hm, hL]
      · rw [Option.getD_some]; congr 1; ring
      · have := hq 0 (-(g.size / 2)) (Or.inr (Or.inl ⟨rfl, rfl⟩))
        rw [add_zero, ← sub_eq_add_neg] at this; exact this
      · have := hq 0 (g.size / 2) (Or.inl ⟨rfl, rfl⟩)
        rw [add_zero] at this; exact this
      · have := hq (g.size / 2) 0 (Or.inr (Or.inr (Or.inl ⟨rfl, rfl⟩)))
        rw [add_zero] at this; exact this
      · have := hq (-(g.size / 2)) 0 (Or.inr (Or.inr (Or.inr ⟨rfl, rfl⟩)))
        rw [add_zero, ← sub_eq_add_neg] at this; exact this
    · rfl)
  refine ⟨this.1, ?_⟩
  intro r c hr hc
  rw [this.2 r c hr hc]
  congr 2
  simp only
  by_cases hin : 1 ≤ r ∧ r + 1 < ny ∧ 1 ≤ c ∧ c + 1 < nx
  · rw [if_pos hin, if_pos (by omega)]
  · rw [if_neg hin, if_neg (by omega)]

/-- The values `x² - 3 y²` on a grid with four columns and three rows. -/
def saddle : Grid ℚ := ⟨4, 3, 0, 0, 2, none, none, [0, 4, 16, 36, -12, -8, 4, 24, -48, -44, -32, -12]⟩

example : ∃ out μ, ridges diag saddle 0 = .ok out ∧ Strongest (1 : ℚ) 0 (-3) μ ∧
    Reports out saddle 4 3 (fun r c => if 1 ≤ r ∧ r + 1 < 3 ∧ 1 ≤ c ∧ c + 1 < 4 then some (2 * μ * (saddle.size * saddle.size)) else some 0) := by
  refine quadratic_exact_partial diag (D := 0) (E := 0) (F := 0)
    ⟨rfl, rfl, by decide, by decide, by decide, Or.inl rfl, by decide, ?_⟩ (by decide +kernel) (by decide) (by constructor <;> decide +kernel) ?_ ?_
  · have : ∀ r : Nat, r < 3 → ∀ c : Nat, c < 4 → saddle.values[4 * r + c]? = some (1 * (saddle.x0 + (c : ℚ) * saddle.size) * (saddle.x0 + (c : ℚ) * saddle.size) +
      0 * (saddle.x0 + (c : ℚ) * saddle.size) * (saddle.y0 + (r : ℚ) * saddle.size) +
      -3 * (saddle.y0 + (r : ℚ) * saddle.size) * (saddle.y0 + (r : ℚ) * saddle.size) + 0 * (saddle.x0 + (c : ℚ) * saddle.size) +
      0 * (saddle.y0 + (r : ℚ) * saddle.size) + 0) := by decide +kernel
    exact fun r c hr hc => this r hr c hc
  · have : ∀ r : Nat, r < 3 → ∀ c : Nat, c < 4 → saddle.x0 + (c : ℚ) * saddle.size ≠ -999 ∧ saddle.y0 + (r : ℚ) * saddle.size ≠ -999 ∧
      saddle.values[4 * r + c]? ≠ some (-999) := by decide +kernel
    exact fun r c hr hc => this r hr c hc
  · have : ∀ r : Nat, r < 3 → ∀ c : Nat, c < 4 → ∀ d ∈ [((0 : ℚ), saddle.size / 2), (0, -(saddle.size / 2)), (saddle.size / 2, 0), (-(saddle.size / 2), 0)],
      diag.near (2 * 1 * (saddle.x0 + (c : ℚ) * saddle.size + d.1) + 0 * (saddle.y0 + (r : ℚ) * saddle.size + d.2) + 0) = false := by decide +kernel
    exact fun r c hin dx dy hd => this r (by have := hin.2.1; omega) c (by have := hin.2.2.2; omega) (dx, dy) hd

/-- Two rows more than columns: the values `x²` have the same second derivative everywhere, but the strength found in one row is half of that
in the others. -/
theorem strength_depends_on_row : ∃ (g : Grid ℚ) (out : List (Strength ℚ)), Sampled g 3 5 (fun x _ => x * x) ∧ g.size ≠ 0 ∧
    ridges diag g 0 = .ok out ∧ out[5 * 1 + (5 - 1 - 3)]? = some ⟨1, 3, some 4⟩ ∧ out[5 * 1 + (5 - 1 - 2)]? = some ⟨1, 2, some 4⟩ ∧
    out[5 * 1 + (5 - 1 - 1)]? = some ⟨1, 1, some 2⟩ := by
  refine ⟨⟨3, 5, 0, 0, 1, none, none, [0, 1, 4, 0, 1, 4, 0, 1, 4, 0, 1, 4, 0, 1, 4]⟩,
    [⟨0, 4, some 0⟩, ⟨0, 3, some 0⟩, ⟨0, 2, some 0⟩, ⟨0, 1, some 0⟩, ⟨0, 0, some 0⟩, ⟨1, 4, some 0⟩, ⟨1, 3, some 4⟩, ⟨1, 2, some 4⟩, ⟨1, 1, some 2⟩,
      ⟨1, 0, some 0⟩, ⟨2, 4, some 0⟩, ⟨2, 3, some 0⟩, ⟨2, 2, some 0⟩, ⟨2, 1, some 0⟩, ⟨2, 0, some 0⟩],
    ⟨rfl, rfl, by decide, by decide, by decide, Or.inl rfl, by decide, ?_⟩, by decide +kernel, by decide +kernel, rfl, rfl, rfl⟩
  have : ∀ r : Nat, r < 5 → ∀ c : Nat, c < 3 → ([0, 1, 4, 0, 1, 4, 0, 1, 4, 0, 1, 4, 0, 1, 4] : List ℚ)[3 * r + c]? = some ((0 + (c : ℚ) * 1) * (0 + (c : ℚ) * 1)) := by decide +kernel
  exact fun r c hr hc => this r hr c hc

/-- Three rows more than columns: even the value zero everywhere gives values that are not numbers. -/
theorem tall_grid_not_a_number : ∃ (g : Grid ℚ) (out : List (Strength ℚ)), Sampled g 3 6 (fun _ _ => 0) ∧ g.size ≠ 0 ∧
    ridges diag g 0 = .ok out ∧ out[6 * 1 + (6 - 1 - 1)]? = some ⟨1, 1, none⟩ := by
  refine ⟨⟨3, 6, 0, 0, 1, none, none, List.replicate 18 0⟩,
    [⟨0, 5, some 0⟩, ⟨0, 4, some 0⟩, ⟨0, 3, some 0⟩, ⟨0, 2, some 0⟩, ⟨0, 1, some 0⟩, ⟨0, 0, some 0⟩, ⟨1, 5, some 0⟩, ⟨1, 4, some 0⟩, ⟨1, 3, some 0⟩,
      ⟨1, 2, some 0⟩, ⟨1, 1, none⟩, ⟨1, 0, some 0⟩, ⟨2, 5, some 0⟩, ⟨2, 4, some 0⟩, ⟨2, 3, some 0⟩, ⟨2, 2, some 0⟩, ⟨2, 1, some 0⟩, ⟨2, 0, some 0⟩],
    ⟨rfl, rfl, by decide, by decide, by decide, Or.inl rfl, by decide, ?_⟩, by decide +kernel, by decide +kernel, rfl⟩
  have : ∀ r : Nat, r < 6 → ∀ c : Nat, c < 3 → (List.replicate 18 (0 : ℚ))[3 * r + c]? = some 0 := by decide +kernel
  exact fun r c hr hc => this r hr c hc

/-- Smoothing is not the same as handing in smoothed values: the computation goes on using the values from before. -/
theorem smoothing_keeps_old_values : ∃ (s s' : List (Sample ℚ)) (z : List ℚ), smooth 3 3 1 (s.map (·.value)) = .ok z ∧
    s' = s.zipWith (fun p v => { p with value := v }) z ∧ samplesHessian diag s 1 3 3 ≠ samplesHessian diag s' 0 3 3 := by
  refine ⟨[⟨0, 2, 0⟩, ⟨0, 1, 0⟩, ⟨0, 0, 0⟩, ⟨1, 2, 0⟩, ⟨1, 1, 1⟩, ⟨1, 0, 0⟩, ⟨2, 2, 0⟩, ⟨2, 1, 0⟩, ⟨2, 0, 0⟩],
    [⟨0, 2, 0⟩, ⟨0, 1, 0⟩, ⟨0, 0, 0⟩, ⟨1, 2, 0⟩, ⟨1, 1, 1 / 2⟩, ⟨1, 0, 0⟩, ⟨2, 2, 0⟩, ⟨2, 1, 0⟩, ⟨2, 0, 0⟩],
    [0, 0, 0, 0, 1 / 2, 0, 0, 0, 0], by decide +kernel, by decide +kernel, by decide +kernel⟩

/-- A slope of -999 is taken for a missing one: the values `x² - 1002 x` show no ridge. -/
theorem slope_taken_for_missing : ∃ (g : Grid ℚ) (out : List (Strength ℚ)), Sampled g 3 3 (fun x _ => x * x - 1002 * x) ∧ g.size ≠ 0 ∧
    ridges diag g 0 = .ok out ∧ out[3 * 1 + (3 - 1 - 1)]? = some ⟨1, 1, some 0⟩ := by
  refine ⟨⟨3, 3, 0, 0, 1, none, none, [0, -1001, -2000, 0, -1001, -2000, 0, -1001, -2000]⟩,
    [⟨0, 2, some 0⟩, ⟨0, 1, some 0⟩, ⟨0, 0, some 0⟩, ⟨1, 2, some 0⟩, ⟨1, 1, some 0⟩, ⟨1, 0, some 0⟩, ⟨2, 2, some 0⟩, ⟨2, 1, some 0⟩, ⟨2, 0, some 0⟩],
    ⟨rfl, rfl, by decide, by decide, by decide, Or.inl rfl, by decide, ?_⟩, by decide +kernel, by decide +kernel, rfl⟩
  have : ∀ r : Nat, r < 3 → ∀ c : Nat, c < 3 → ([0, -1001, -2000, 0, -1001, -2000, 0, -1001, -2000] : List ℚ)[3 * r + c]? =
    some ((0 + (c : ℚ) * 1) * (0 + (c : ℚ) * 1) - 1002 * (0 + (c : ℚ) * 1)) := by decide +kernel
  exact fun r c hr hc => this r hr c hc

omit [IsStrictOrderedRing K] in
/-- Coordinates given for each column and each row, as the other functions on gridded samples read them, are read out of bounds. -/
theorem listed_coordinates_undefined (env : Env K) {g : Grid K} {nx ny : Nat} {xs ys : List K} (hx : g.numX = nx) (hy : g.numY = ny) (hx0 : 1 ≤ nx)
    (hy0 : 2 ≤ ny) (hxs : g.xs = some xs) (hys : g.ys = some ys) (hxl : xs.length = nx) (rounds : Int) : ridges env g rounds = .ub := by
  have hd : ¬ (g.numX ≤ 0 ∨ g.numY ≤ 0) := by omega
  have hub : sampleAt g (ny - 1 - 0) 0 = .ub := by
    rw [sampleAt, hxs, hys, hx, Int.toNat_natCast]
    have hge : nx ≤ nx * (ny - 1 - 0) + 0 := Nat.le_mul_of_pos_right _ (by omega)
    have h1 : vget xs (nx * (ny - 1 - 0) + 0) = .ub := by
      rw [vget, List.getElem?_eq_none (by rw [hxl]; exact hge)]
    cases hv : vget g.values (nx * (ny - 1 - 0) + 0) with
    | ok v => rw [Res.ok_bind]; simp only [h1, Res.ub_bind]
    | throw => rw [vget] at hv; split at hv <;> cases hv
    | ub => rw [Res.ub_bind]
  obtain ⟨a, ha⟩ : ∃ a, nx = a + 1 := ⟨nx - 1, by omega⟩
  obtain ⟨b, hb⟩ : ∃ b, ny = b + 1 := ⟨ny - 1, by omega⟩
  rw [ridges, convert, if_neg hd, hx, hy, Int.toNat_natCast, Int.toNat_natCast]
  rw [forRange, Nat.sub_zero, ha, loopN, forRange, Nat.sub_zero, hb, loopN]
  rw [hb] at hub
  rw [hub, Res.ub_bind, Res.ub_bind, Res.ub_bind, Res.ub_bind]

example : ridges diag ⟨3, 2, 0, 0, 1, some [0, 1, 3], some [0, 2], [1, 2, 3, 4, 5, 6]⟩ 0 = .ub :=
  listed_coordinates_undefined diag (nx := 3) (ny := 2) rfl rfl (by decide) (by decide) rfl rfl rfl 0

omit [IsStrictOrderedRing K] in
/-- A grid without columns: a smoothing round reads out of bounds. -/
theorem no_columns_undefined (env : Env K) {g : Grid K} {ny : Nat} (hx : g.numX = 0) (hy : g.numY = ny) (h3 : 3 ≤ ny) (hn : ny ≤ missing)
    {rounds : Nat} (h1 : 1 ≤ rounds) (h2 : rounds ≤ missing) : ridges env g rounds = .ub := by
  have hd : g.numX ≤ 0 ∨ g.numY ≤ 0 := Or.inl (by omega)
  have hz : toUInt 0 = 0 := rfl
  obtain ⟨k, rfl⟩ : ∃ k, rounds = k + 1 := ⟨rounds - 1, by omega⟩
  rw [ridges, convert, if_pos hd, Res.ok_bind, hx, hy, hz, toUInt_nat hn, toUInt_nat h2, samplesHessian]
  have ht : ¬ 0 * ny % (missing + 1) ≠ ([] : List (Sample K)).length := by rw [Nat.zero_mul, Nat.zero_mod]; simp
  rw [if_neg ht, values_eq (by rw [Nat.mul_zero]; rfl), Res.ok_bind, smooth, smoothRound, pred, if_pos rfl, pred_pos (by omega)]
  have hb : smoothAt ny 0 (List.map (fun x : Sample K => x.value) []) 1 1 (List.map (fun x : Sample K => x.value) []) = .ub := by
    have : ¬ (1 < ny ∧ 1 < 0) := by omega
    rw [smoothAt, mget, if_neg this, Res.ub_bind]
  obtain ⟨b, hb2⟩ : ∃ b, ny - 1 - 1 = b + 1 := ⟨ny - 3, by omega⟩
  obtain ⟨c, hc⟩ : ∃ c, missing - 1 = c + 1 := ⟨missing - 2, rfl⟩
  rw [forRange, hc, loopN, forRange, hb2, loopN, hb]
  rfl

example : ridges diag ⟨0, 3, 0, 0, 1, none, none, []⟩ 1 = .ub :=
  no_columns_undefined diag (ny := 3) (rounds := 1) rfl rfl (by decide) (by decide) (by decide) (by decide)

end Verif.Ridge
