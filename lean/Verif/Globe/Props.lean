import Mathlib.Algebra.Order.Field.Rat
import Mathlib.Data.Rat.Floor
import Verif.Globe.Apart
import Verif.Globe.Cover
/-!
# Properties of global meshes
-/
namespace Verif.Globe
section
variable {K : Type} [Field K] [LinearOrder K]

/-- A global mesh is refused exactly when there are no nodes along one of the directions or the projection is not spherical. -/
theorem refused_iff {rad : K} {delta : K → K → K} {spherical : Bool} {n k : Nat} :
    compute rad delta spherical n k = .throw ↔ n = 0 ∨ k = 0 ∨ spherical = false := by
  unfold compute
  by_cases h1 : n = 0
  · rw [if_pos h1]; simp [h1]
  · rw [if_neg h1]
    by_cases h2 : k = 0
    · rw [if_pos h2]; simp [h2]
    · rw [if_neg h2]
      cases spherical <;> simp [h1, h2]

theorem compute_ok {rad : K} {delta : K → K → K} {spherical : Bool} {n k : Nat} {fs : List (List (K × K))}
    (h : compute rad delta spherical n k = .ok fs) :
    0 < n ∧ 0 < k ∧ spherical = true ∧ fs = (allRows rad delta n k).flatMap fun r => (drawRow n r).1 := by
  unfold compute at h
  by_cases h1 : n = 0
  · rw [if_pos h1] at h; cases h
  · rw [if_neg h1] at h
    by_cases h2 : k = 0
    · rw [if_pos h2] at h; cases h
    · rw [if_neg h2] at h
      cases spherical
      · simp at h
      · simp only [Bool.not_true, Bool.false_eq_true, if_false, Res.ok.injEq] at h
        exact ⟨by omega, by omega, rfl, h.symm⟩

/-- North and south are alike: the mirror image of each face in the equator is a face. -/
theorem mirrored {rad : K} {delta : K → K → K} {spherical : Bool} {n k : Nat} {fs : List (List (K × K))}
    (h : compute rad delta spherical n k = .ok fs) (f : List (K × K)) : f ∈ fs ↔ f.map (fun p => (p.1, -p.2)) ∈ fs := by
  obtain ⟨_, _, _, rfl⟩ := compute_ok h
  have key : ∀ g, g ∈ (allRows rad delta n k).flatMap (fun r => (drawRow n r).1) → mirror g ∈ (allRows rad delta n k).flatMap fun r => (drawRow n r).1 := by
    intro g hg
    obtain ⟨r, h1, h2⟩ := List.mem_flatMap.1 hg
    exact List.mem_flatMap.2 ⟨r, h1, mirror_drawPlaces h2⟩
  constructor
  · exact key f
  · intro hf
    have := key _ hf
    rwa [show f.map (fun p => (p.1, -p.2)) = mirror f from rfl, mirror_mirror] at this

variable [IsStrictOrderedRing K]

/-- When the last row is reached and 360 degrees are a multiple of the width of each row, every point of the sphere lies in a face.  Missing: that the last
row is reached, that the widths divide 360 degrees (`odd_strip_missing` shows that they need not), and the merging of nodes afterwards. -/
theorem covers_partial {rad : K} {delta : K → K → K} {spherical : Bool} {n k : Nat} {fs : List (List (K × K))}
    (h : compute rad delta spherical n k = .ok fs) (hlast : ∃ r ∈ allRows rad delta n k, r.last = true)
    (hwidth : ∀ r ∈ allRows rad delta n k, ∃ q : Nat, 0 < q ∧ r.lon * q = 360) {x y : K} (hs : OnSphere x y) : ∃ f ∈ fs, Contains f x y := by
  obtain ⟨hn, _, _, rfl⟩ := compute_ok h
  exact covered hn hlast hwidth hs

/-- In the three rows drawn with twelve nodes, if a row is as high as it is wide. -/
example : (∃ r ∈ allRows (1 / 57 : ℚ) (fun _ l => l) 12 3, r.last = true) ∧ ∀ r ∈ allRows (1 / 57 : ℚ) (fun _ l => l) 12 3, r.lon = 30 := by decide +kernel

/-- Half as many nodes along the parallels and twice as wide: the first row is widened. -/
example : (allRows (1 / 63781370 : ℚ) (fun _ l => l / 8) 24 40).map (fun r => r.lon) ≠ [] ∧
    ∀ r ∈ allRows (1 / 63781370 : ℚ) (fun _ l => l / 8) 24 1, r.lon = 30 ∧ r.pent = true := by decide +kernel

/-- When every row has a positive height, all points of the faces are points of the sphere.  Missing: that the heights are positive, see `true_on_sphere_partial`. -/
theorem on_sphere_partial {rad : K} {delta : K → K → K} {spherical : Bool} {n k : Nat} {fs : List (List (K × K))}
    (h : compute rad delta spherical n k = .ok fs) (hpos : ∀ r ∈ allRows rad delta n k, 0 < r.height) {f : List (K × K)} (hf : f ∈ fs) {p : K × K}
    (hp : p ∈ f) : OnSphere p.1 p.2 := by
  obtain ⟨_, _, _, rfl⟩ := compute_ok h
  exact faces_range hpos hf hp

example : ∀ r ∈ allRows (1 / 57 : ℚ) (fun _ l => l) 12 3, 0 < r.height := by decide +kernel

/-- When every row has a positive height, no point lies inside of two faces. -/
theorem apart_partial {rad : K} {delta : K → K → K} {spherical : Bool} {n k : Nat} {fs : List (List (K × K))}
    (h : compute rad delta spherical n k = .ok fs) (hpos : ∀ r ∈ allRows rad delta n k, 0 < r.height) {x y : K} :
    fs.Pairwise fun f g => ¬ (Inside f x y ∧ Inside g x y) := by
  obtain ⟨_, _, _, rfl⟩ := compute_ok h
  exact faces_apart hpos

example : Inside [((0 : ℚ), 0), (30, 0), (30, 30), (0, 30)] 1 1 := ⟨0, 30, 0, 30, by simp, by simp, by simp, by simp, by norm_num⟩

/-- All faces of a row north of the equator are boxes of the same size, next to each other from 180 degrees west: face number `i` has the corners
`i * w - 180` and `i * w + w - 180`, and there is one if and only if it ends at 180 degrees east or before. -/
theorem row_faces {n : Nat} {r : Row K} {j : Nat} (hj : j < n) :
    (∃ f ∈ (drawRow n r).1, ((j : K) * r.lon - 180, r.cur) ∈ f ∧ ((j : K) * r.lon - 180 + r.lon, r.cur) ∈ f ∧
      ((j : K) * r.lon - 180 + r.lon, r.cur + r.height) ∈ f ∧ ((j : K) * r.lon - 180, r.cur + r.height) ∈ f) ∨
    180 < (j : K) * r.lon - 180 + r.lon := by
  by_cases hc : (j : K) * r.lon - 180 + r.lon ≤ 180
  · obtain ⟨b, h1, _⟩ := drawPlaces_mem (r := r) hc (js := List.range n) (pent := r.pent) (List.mem_range.2 hj)
    refine Or.inl ⟨_, h1, ?_⟩
    cases b <;> simp [facePoints]
  · exact Or.inr (not_le.1 hc)

end

/-! ## Over the real numbers -/

/-- With the heights that the code computes, all points of the faces are points of the sphere if no row is wider than 114 degrees. -/
theorem true_on_sphere_partial {spherical : Bool} {n k : Nat} {fs : List (List (ℝ × ℝ))} (h : compute degree trueDelta spherical n k = .ok fs)
    (hw : ∀ r ∈ allRows degree trueDelta n k, r.lon ≤ 114) {f : List (ℝ × ℝ)} (hf : f ∈ fs) {p : ℝ × ℝ} (hp : p ∈ f) : OnSphere p.1 p.2 := by
  have hn : (0 : ℝ) < n := by exact_mod_cast (compute_ok h).1
  refine on_sphere_partial h ?_ hf hp
  exact rows_height (by simp [start]) (by simp [start]) (by simp only [start]; positivity) hw

/-- That is so with at least four nodes, doubled once for each row. -/
example {n k : Nat} (hn : 4 * 2 ^ k ≤ n) : ∀ r ∈ allRows degree trueDelta n k, r.lon ≤ 114 := by
  have h0 : (0 : ℝ) < n := by
    have : 0 < 2 ^ k := by positivity
    exact_mod_cast (by omega : 0 < n)
  have key : ∀ (k : Nat) (s : Cursor ℝ), 0 ≤ s.lon → ∀ r ∈ rows degree trueDelta n k s, r.lon ≤ s.lon * 2 ^ k := by
    intro k
    induction k with
    | zero => intro s _ r h; simp [rows] at h
    | succ k ih =>
      intro s hs r h
      have h1 : (1 : ℝ) ≤ 2 ^ k := one_le_pow₀ (by norm_num)
      have h3 : (nextRow degree trueDelta s).lon ≤ 2 * s.lon ∧ 0 ≤ (nextRow degree trueDelta s).lon := by
        rcases nextRow_lon (rad := degree) (delta := trueDelta) (s := s) with q | q <;> rw [q] <;> constructor <;> linarith
      simp only [rows] at h
      rcases List.mem_cons.1 h with rfl | h
      · rw [pow_succ]
        nlinarith
      · split at h
        · simp at h
        · have := ih ⟨_, _, _⟩ h3.2 r h
          simp only at this
          rw [pow_succ]
          nlinarith
  intro r hr
  have h1 := key k (start n) (by simp only [start]; positivity) r hr
  have h2 : (4 : ℝ) * 2 ^ k ≤ n := by exact_mod_cast hn
  have h3 : (360 : ℝ) / n * 2 ^ k ≤ 90 := by
    rw [div_mul_eq_mul_div, div_le_iff₀ h0]
    linarith
  simp only [start] at h1
  linarith

/-- With 4, 5 or 6 times a power of two nodes and enough rows, the code does cover the sphere: every point of the sphere lies in a face, no point lies inside
of two faces, and all points of the faces are points of the sphere. -/
theorem power_covers {q m k : Nat} (hq4 : 4 ≤ q) (hq6 : q ≤ 6) (hk : m + 361 ≤ k) : ∃ fs, compute degree trueDelta true (q * 2 ^ m) k = .ok fs ∧
    (∀ x y, OnSphere x y → ∃ f ∈ fs, Contains f x y) ∧
    (∀ x y, fs.Pairwise fun f g => ¬ (Inside f x y ∧ Inside g x y)) ∧ ∀ f ∈ fs, ∀ p ∈ f, OnSphere p.1 p.2 := by
  have hn : 0 < q * 2 ^ m := by positivity
  have hkR : (m : ℝ) + 361 ≤ k := by exact_mod_cast hk
  obtain ⟨h1, h2⟩ := rows_power (n := q * 2 ^ m) hn hq4 hq6 (k := k) (j := m) (s := start (q * 2 ^ m)) rfl (by simp [start]) (by simp [start])
    (by simp [start])
  have h : compute degree trueDelta true (q * 2 ^ m) k =
      .ok ((allRows degree trueDelta (q * 2 ^ m) k).flatMap fun r => (drawRow (q * 2 ^ m) r).1) := by
    unfold compute
    rw [if_neg (by omega), if_neg (by omega)]
    rfl
  refine ⟨_, h, fun x y hs => ?_, fun x y => ?_, fun f hf p hp => ?_⟩
  · refine covers_partial h (h2 ?_) ?_ hs
    · simp only [start]
      linarith
    · intro r hr
      obtain ⟨i, hi⟩ := (h1 r hr).2
      refine ⟨q * 2 ^ i, by positivity, ?_⟩
      have : (q : ℝ) ≠ 0 := by positivity
      rw [hi]
      push_cast
      field_simp
  · refine apart_partial h ?_
    exact rows_height (by simp [start]) (by simp [start]) (by simp only [start]; positivity) fun r hr => (h1 r hr).1
  · exact true_on_sphere_partial h (fun r hr => (h1 r hr).1) hf hp

/-- For instance with 1536 nodes, where the first row is widened. -/
example : 6 * 2 ^ 8 = 1536 ∧ (nextRow degree trueDelta (start 1536)).lon = 2 * (360 / (1536 : Nat)) := ⟨by norm_num, (first_widened (by norm_num)).1⟩

/-- The code does not cover the sphere: with an odd number of nodes from 1337 on, nothing is drawn in the last strip west of the meridian of 180 degrees,
which is as wide as the distance between the nodes. -/
theorem odd_strip_missing {spherical : Bool} {n k : Nat} {fs : List (List (ℝ × ℝ))} (h : compute degree trueDelta spherical n k = .ok fs)
    (hodd : n % 2 = 1) (hn : 1337 ≤ n) {x y : ℝ} (hx : 180 - 360 / n < x) : ¬ ∃ f ∈ fs, Contains f x y := by
  obtain ⟨_, _, _, rfl⟩ := compute_ok h
  rintro ⟨f, hf, x0, x1, y0, y1, _, hb, _, _, _, h2, _⟩
  have := rows_east hodd (first_widened hn) hf hb
  simp only at this
  linarith

example : ∃ fs, compute degree trueDelta true 1337 10 = .ok fs ∧ OnSphere (180 : ℝ) 0 ∧ (180 : ℝ) - 360 / (1337 : Nat) < 180 :=
  ⟨_, rfl, by unfold OnSphere; norm_num, by norm_num⟩

/-- A single node along the parallels is accepted, and no face is drawn at all. -/
theorem one_node_empty {k : Nat} (hk : 0 < k) : compute degree trueDelta true 1 k = .ok [] := by
  unfold compute
  rw [if_neg (by omega), if_neg (by omega)]
  simp only [Bool.not_true, Bool.false_eq_true, if_false, Res.ok.injEq]
  rw [List.flatMap_eq_nil_iff]
  intro r hr
  have hl := one_rows hr
  rw [List.eq_nil_iff_forall_not_mem]
  intro f hf
  obtain ⟨j, b, _, h2, _⟩ := mem_drawPlaces hf
  have : 0 ≤ (j : ℝ) * r.lon := mul_nonneg (by positivity) (by linarith)
  linarith

/-- The interface accepts negative numbers: they stand for numbers of nodes of more than four thousand million. -/
theorem negative_not_refused {n : Nat} {k : Int} (hn : 0 < n) (hn2 : n < 2 ^ 32) (hk : 0 < k) (hk2 : k < 2 ^ 32) :
    makeGlobal degree trueDelta true (-n) k = compute degree trueDelta true (2 ^ 32 - n) k.toNat ∧ makeGlobal degree trueDelta true (-n) k ≠ .throw := by
  have h1 : ((-(n : Int)) % 2 ^ 32).toNat = 2 ^ 32 - n := by omega
  have h2 : (k % 2 ^ 32).toNat = k.toNat := by omega
  have e : makeGlobal degree trueDelta true (-n) k = compute degree trueDelta true (2 ^ 32 - n) k.toNat := by
    unfold makeGlobal
    rw [if_neg (by omega), if_neg (by omega), h1, h2]
  refine ⟨e, ?_⟩
  rw [e, ne_eq, refused_iff]
  simp
  omega

example : (0 : Nat) < 1 ∧ (1 : Nat) < 2 ^ 32 := by decide

/-- At most one face north of the equator, and its mirror image, has five points in a row, although a widened row needs them all along the row. -/
theorem one_pentagon {n : Nat} {r : Row ℝ} : ((drawRow n r).1.filter fun f => f.length = 5).length ≤ 2 := drawPlaces_pentagons

end Verif.Globe
