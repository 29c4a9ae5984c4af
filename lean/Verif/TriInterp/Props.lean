import Verif.TriInterp.ValueLemmas
/-!
# Interpolation in a triangulation of the samples

The triangulation comes from another library and is an argument: `Proper` and `Regular` (or `Delaunay`) say what is expected of it.
-/
namespace Verif.TriInterp
open Verif.Mesh
open Verif.Polygons (Pt area2 OnSegment InBox sides)
open Verif.Sampling (Spot)

/-! ## An example: four samples, two triangles -/

/-- The triangulation of four samples. -/
def two : Tables := ⟨[(0, 1, 3), (1, 2, 3)], [(0, 1, 2), (3, 4, 1)], [(0, 1), (1, 3), (3, 0), (1, 2), (2, 3)]⟩

/-- The four samples. -/
def four : List Spot := [⟨⟨0, 0⟩, 1⟩, ⟨⟨4, 0⟩, 5⟩, ⟨⟨5, 4⟩, 2⟩, ⟨⟨0, 3⟩, 7⟩]

theorem two_has {f e : Nat} : Has two f e ↔ (f = 0 ∧ (e = 0 ∨ e = 1 ∨ e = 2)) ∨ (f = 1 ∧ (e = 3 ∨ e = 4 ∨ e = 1)) := by
  constructor
  · rintro ⟨es, h1, h2⟩
    rcases f with _ | _ | f
    · cases h1
      simp only [three, List.mem_cons, List.not_mem_nil, or_false] at h2
      exact .inl ⟨rfl, h2⟩
    · cases h1
      simp only [three, List.mem_cons, List.not_mem_nil, or_false] at h2
      exact .inr ⟨rfl, h2⟩
    · simp [two] at h1
  · rintro (⟨rfl, h⟩ | ⟨rfl, h⟩)
    · exact ⟨_, rfl, by simpa [three] using h⟩
    · exact ⟨_, rfl, by simpa [three] using h⟩

theorem two_face {f : Nat} {t : Nat × Nat × Nat} (h : two.faceNodes[f]? = some t) : (f = 0 ∧ t = (0, 1, 3)) ∨ (f = 1 ∧ t = (1, 2, 3)) := by
  rcases f with _ | _ | f
  · cases h; exact .inl ⟨rfl, rfl⟩
  · cases h; exact .inr ⟨rfl, rfl⟩
  · simp [two] at h

theorem two_proper : Proper two four where
  lengths := rfl
  nonempty := by decide
  few := by decide
  corners := by decide
  turn := by decide +kernel
  valid := by decide +kernel
  distinct := by decide
  edges := by
    intro f t es ht hes
    rcases two_face ht with ⟨rfl, rfl⟩ | ⟨rfl, rfl⟩
    · cases hes
      unfold Ends
      exact ⟨by decide, by decide⟩
    · cases hes
      unfold Ends
      exact ⟨by decide, by decide⟩
  shared := by
    intro f g t t' e s hfg ht ht' hf hg hs he
    rw [two_has] at hf hg
    have he1 : e = 1 := by omega
    subst he1
    rcases two_face ht with ⟨rfl, rfl⟩ | ⟨rfl, rfl⟩ <;> rcases two_face ht' with ⟨rfl, rfl⟩ | ⟨rfl, rfl⟩
    · exact absurd rfl hfg
    · have : ∀ s ∈ sidesOf (0, 1, 3), Ends two 1 s → s.swap ∈ sidesOf (1, 2, 3) := by unfold Ends; decide
      exact this s hs he
    · have : ∀ s ∈ sidesOf (1, 2, 3), Ends two 1 s → s.swap ∈ sidesOf (0, 1, 3) := by unfold Ends; decide
      exact this s hs he
    · exact absurd rfl hfg
  hull := by
    intro f t e s ht hf hone hs he
    have hne : e ≠ 1 := by
      rintro rfl
      have h0 := hone 0 (two_has.2 (by simp))
      have h1 := hone 1 (two_has.2 (by simp))
      omega
    rw [two_has] at hf
    rcases two_face ht with ⟨rfl, rfl⟩ | ⟨rfl, rfl⟩
    · have : e = 0 ∨ e = 2 := by omega
      rcases this with rfl | rfl <;> revert s <;> unfold Ends <;> decide +kernel
    · have : e = 3 ∨ e = 4 := by omega
      rcases this with rfl | rfl <;> revert s <;> unfold Ends <;> decide +kernel

theorem two_opposite {f g d : Nat} {t : Nat × Nat × Nat} (h : Opposite two f g t d) : (t = (0, 1, 3) ∧ d = 2) ∨ (t = (1, 2, 3) ∧ d = 0) := by
  obtain ⟨h1, h2, -, t', h4, h5, h6⟩ := h
  rcases two_face h2 with ⟨rfl, rfl⟩ | ⟨rfl, rfl⟩ <;> rcases two_face h4 with ⟨rfl, rfl⟩ | ⟨rfl, rfl⟩
  · exact absurd rfl h1
  · simp only [three, List.mem_cons, List.not_mem_nil, or_false] at h5 h6
    left; exact ⟨rfl, by omega⟩
  · simp only [three, List.mem_cons, List.not_mem_nil, or_false] at h5 h6
    right; exact ⟨rfl, by omega⟩
  · exact absurd rfl h1

theorem two_delaunay : Delaunay two four := by
  intro f g t d h o h1 h2
  rcases two_opposite h with ⟨rfl, rfl⟩ | ⟨rfl, rfl⟩
  · simp only [dist2, posOf, four] at *
    norm_num at *
    nlinarith
  · simp only [dist2, posOf, four] at *
    norm_num at *
    nlinarith

theorem two_tri {f : Nat} {x : Tri} (h : triAt two four f = some x) :
    x = ⟨⟨⟨0, 0⟩, 1⟩, ⟨⟨4, 0⟩, 5⟩, ⟨⟨0, 3⟩, 7⟩⟩ ∨ x = ⟨⟨⟨4, 0⟩, 5⟩, ⟨⟨5, 4⟩, 2⟩, ⟨⟨0, 3⟩, 7⟩⟩ := by
  obtain ⟨t, h1, -⟩ := triAt_some h
  rcases two_face h1 with ⟨rfl, rfl⟩ | ⟨rfl, rfl⟩
  · cases h; exact .inl rfl
  · cases h; exact .inr rfl

theorem two_clear : Clear two four ⟨2, 1⟩ where
  valid := by decide +kernel
  finite := by unfold Pt.Finite; decide +kernel
  fair := by
    intro f x hx _ s hs h0
    rcases two_tri hx with rfl | rfl
    · have : ∀ s ∈ sides (Tri.ring ⟨⟨⟨0, 0⟩, 1⟩, ⟨⟨4, 0⟩, 5⟩, ⟨⟨0, 3⟩, 7⟩⟩), area2 s.1 s.2 ⟨2, 1⟩ ≠ 0 := by decide +kernel
      exact absurd h0 (this s hs)
    · have : ∀ s ∈ sides (Tri.ring ⟨⟨⟨4, 0⟩, 5⟩, ⟨⟨5, 4⟩, 2⟩, ⟨⟨0, 3⟩, 7⟩⟩), area2 s.1 s.2 ⟨2, 1⟩ ≠ 0 := by decide +kernel
      exact absurd h0 (this s hs)
  apart := by
    intro f x hx s hs hm
    clear hm
    revert s
    rcases two_tri hx with rfl | rfl
    · unfold Cross.Apart; decide +kernel
    · unfold Cross.Apart; decide +kernel

theorem two_conforming : Conforming two four := by
  have key : ∀ p : Pt, Tri.Contains ⟨⟨⟨0, 0⟩, 1⟩, ⟨⟨4, 0⟩, 5⟩, ⟨⟨0, 3⟩, 7⟩⟩ p → Tri.Contains ⟨⟨⟨4, 0⟩, 5⟩, ⟨⟨5, 4⟩, 2⟩, ⟨⟨0, 3⟩, 7⟩⟩ p →
      OnSegment ⟨4, 0⟩ ⟨0, 3⟩ p := by
    intro p h1 h2
    have g1 := (contains_iff (by decide +kernel)).1 h1
    have g2 := (contains_iff (by decide +kernel)).1 h2
    simp only [area2] at g1 g2
    obtain ⟨a1, a2, a3⟩ := g1
    obtain ⟨b1, b2, b3⟩ := g2
    exact ⟨p.y / 3, by linarith, by linarith, by simp only; linarith, by simp only; linarith⟩
  intro f g x y p hfg hx hy h1 h2
  have hf : f ≠ g → x ≠ y := by
    intro _ hxy
    obtain ⟨t, k1, k2, -⟩ := triAt_some hx
    obtain ⟨t', l1, l2, -⟩ := triAt_some hy
    rcases two_face k1 with ⟨rfl, rfl⟩ | ⟨rfl, rfl⟩ <;> rcases two_face l1 with ⟨rfl, rfl⟩ | ⟨rfl, rfl⟩
    · exact hfg rfl
    · rw [← hxy, ← k2] at l2
      exact absurd l2 (by decide +kernel)
    · rw [← hxy, ← k2] at l2
      exact absurd l2 (by decide +kernel)
    · exact hfg rfl
  rcases two_tri hx with rfl | rfl <;> rcases two_tri hy with rfl | rfl
  · exact absurd rfl (hf hfg)
  · exact ⟨⟨⟨4, 0⟩, 5⟩, ⟨⟨0, 3⟩, 7⟩, by simp, by simp, by simp, by simp, key p h1 h2⟩
  · exact ⟨⟨⟨4, 0⟩, 5⟩, ⟨⟨0, 3⟩, 7⟩, by simp, by simp, by simp, by simp, key p h2 h1⟩
  · exact absurd rfl (hf hfg)

/-- The first of the points. -/
def first : List Pt → Pt → Option Nat
  | [], _ => none
  | _ :: _, _ => some 0

theorem first_finds : Finds first := by
  intro cs p h
  cases cs with
  | nil => exact absurd rfl h
  | cons c cs => exact ⟨0, by simp, rfl⟩

/-! ## The properties -/

/-- A Delaunay triangulation is regular. -/
theorem delaunay_regular {T : Tables} {ss : List Spot} (hP : Proper T ss) (hD : Delaunay T ss) : Regular T ss := by
  refine ⟨fun n => dist2 ⟨0, 0⟩ (posOf ss n), fun f g t d h => ?_⟩
  have hA := hP.turn_pos (List.mem_of_getElem? h.2.1)
  obtain ⟨o, h1, h2⟩ := circle_centre hA
  rw [plane_lifted hA h1 h2]
  have := hD f g t d h o h1 h2
  linarith

example : Regular two four := delaunay_regular two_proper two_delaunay

/-- No location makes the call fail; a location that lies on no extended side gets a value of linear interpolation in a triangle that contains it, or none. -/
theorem value_right_or_missing_partial {T : Tables} {ss : List Spot} (hP : Proper T ss) (nearest : List Pt → Pt → Option Nat) (ps : List Pt) :
    ∃ vs, compute nearest T ss ps = .ok vs ∧ vs.length = ps.length ∧
      ∀ (i : Nat) p v, ps[i]? = some p → Fair T ss p → vs[i]? = some (some v) → ∃ f x, triAt T ss f = some x ∧ x.Mean p v := by
  obtain ⟨D, vs, hF, h1, h2, h3⟩ := compute_ok hP nearest ps
  refine ⟨vs, h1, h2, fun i p v hp hC hv => ?_⟩
  obtain ⟨r, h4, h5⟩ := h3 i p hp
  rw [hv] at h4
  cases h4
  exact valueAt_fair hP hF hC h5

example : ∃ p, Fair two four p ∧ ∃ f x, triAt two four f = some x ∧ x.Contains p :=
  ⟨⟨2, 1⟩, two_clear.toFair, 0, _, rfl, (contains_iff (by decide +kernel)).2 (by decide +kernel)⟩

/-- Every location in a triangle gets the value of linear interpolation in such a triangle, wherever the search starts; a location in no triangle gets none. -/
theorem value_in_triangle_partial {T : Tables} {ss : List Spot} (hP : Proper T ss) (hR : Regular T ss) {nearest : List Pt → Pt → Option Nat}
    (hN : Finds nearest) (ps : List Pt) :
    ∃ vs, compute nearest T ss ps = .ok vs ∧ vs.length = ps.length ∧ ∀ (i : Nat) p, ps[i]? = some p → Clear T ss p →
      ((∃ f x, triAt T ss f = some x ∧ x.Contains p) → ∃ f x v, triAt T ss f = some x ∧ x.Mean p v ∧ vs[i]? = some (some v)) ∧
        ((∀ f x, triAt T ss f = some x → ¬ x.Contains p) → vs[i]? = some none) := by
  obtain ⟨D, vs, hF, h1, h2, h3⟩ := compute_ok hP nearest ps
  refine ⟨vs, h1, h2, fun i p hp hC => ?_⟩
  obtain ⟨r, h4, h5⟩ := h3 i p hp
  obtain ⟨h6, h7⟩ := valueAt_clear hP hF hR hN hC
  rw [h5] at h6 h7
  rw [h4]
  refine ⟨fun h => ?_, fun h => by rw [Res.ok.inj (h7 h)]⟩
  obtain ⟨f, x, v, g1, g2, g3⟩ := h6 h
  exact ⟨f, x, v, g1, g2, by rw [Res.ok.inj g3]⟩

example : Proper two four ∧ Regular two four ∧ Finds first ∧ Clear two four ⟨2, 1⟩ ∧ compute first two four [⟨2, 1⟩, ⟨7, 1⟩] = .ok [some 5, none] :=
  ⟨two_proper, delaunay_regular two_proper two_delaunay, first_finds, two_clear, by decide +kernel⟩

/-- If triangles meet in common sides and corners only, any triangle that contains the location gives its value. -/
theorem value_of_any_triangle_partial {T : Tables} {ss : List Spot} (hP : Proper T ss) (hR : Regular T ss) (hK : Conforming T ss)
    {nearest : List Pt → Pt → Option Nat} (hN : Finds nearest) (ps : List Pt) :
    ∃ vs, compute nearest T ss ps = .ok vs ∧ vs.length = ps.length ∧ ∀ (i : Nat) p, ps[i]? = some p → Clear T ss p →
      ∀ f x v, triAt T ss f = some x → x.Mean p v → vs[i]? = some (some v) := by
  obtain ⟨vs, h1, h2, h3⟩ := value_in_triangle_partial hP hR hN ps
  refine ⟨vs, h1, h2, fun i p hp hC f x v hx hv => ?_⟩
  obtain ⟨g, y, w, g1, g2, g3⟩ := (h3 i p hp hC).1 ⟨f, x, hx, v, hv⟩
  rw [g3, mean_same hP hK hx g1 hv g2]

example : Proper two four ∧ Regular two four ∧ Conforming two four ∧ Finds first ∧ Clear two four ⟨2, 1⟩ :=
  ⟨two_proper, delaunay_regular two_proper two_delaunay, two_conforming, first_finds, two_clear⟩

/-- The value of a sample is found at the sample. -/
theorem value_at_sample_partial {T : Tables} {ss : List Spot} (hP : Proper T ss) (hR : Regular T ss) (hK : Conforming T ss)
    {nearest : List Pt → Pt → Option Nat} (hN : Finds nearest) (ps : List Pt) :
    ∃ vs, compute nearest T ss ps = .ok vs ∧ ∀ (i : Nat) s, ps[i]? = some s.pos → Clear T ss s.pos →
      (∃ f x, triAt T ss f = some x ∧ s ∈ [x.a, x.b, x.c]) → vs[i]? = some (some s.value) := by
  obtain ⟨vs, h1, -, h3⟩ := value_of_any_triangle_partial hP hR hK hN ps
  exact ⟨vs, h1, fun i s hp hC ⟨f, x, hx, hs⟩ => h3 i s.pos hp hC f x s.value hx (mean_corner hs)⟩

/-- Samples of a linear function give that function wherever there is a value, and there is one in every triangle. -/
theorem linear_exact_partial {T : Tables} {ss : List Spot} (hP : Proper T ss) (hR : Regular T ss) {nearest : List Pt → Pt → Option Nat} (hN : Finds nearest)
    (α β γ : ℚ) (hl : ∀ s ∈ ss, s.value = α * s.pos.x + β * s.pos.y + γ) (ps : List Pt) :
    ∃ vs, compute nearest T ss ps = .ok vs ∧ ∀ (i : Nat) p, ps[i]? = some p → Clear T ss p → (∃ f x, triAt T ss f = some x ∧ x.Contains p) →
      vs[i]? = some (some (α * p.x + β * p.y + γ)) := by
  obtain ⟨vs, h1, -, h3⟩ := value_in_triangle_partial hP hR hN ps
  refine ⟨vs, h1, fun i p hp hC hin => ?_⟩
  obtain ⟨f, x, v, g1, ⟨r, s, t, -, -, -, k4, k5, k6, k7⟩, g3⟩ := (h3 i p hp hC).1 hin
  obtain ⟨_, -, e2, e3, e4⟩ := triAt_some g1
  rw [g3, k7, hl _ (List.mem_of_getElem? e2), hl _ (List.mem_of_getElem? e3), hl _ (List.mem_of_getElem? e4), k5, k6]
  congr 2
  linear_combination γ * k4

example : (∀ s ∈ ([⟨⟨0, 0⟩, 1⟩, ⟨⟨4, 0⟩, 9⟩, ⟨⟨5, 4⟩, 7⟩, ⟨⟨0, 3⟩, -2⟩] : List Spot), s.value = 2 * s.pos.x + (-1) * s.pos.y + 1) ∧
    compute first two [⟨⟨0, 0⟩, 1⟩, ⟨⟨4, 0⟩, 9⟩, ⟨⟨5, 4⟩, 7⟩, ⟨⟨0, 3⟩, -2⟩] [⟨2, 1⟩] = .ok [some 4] := by decide +kernel

/-- No value is less than all samples or greater than all. -/
theorem value_between_partial {T : Tables} {ss : List Spot} (hP : Proper T ss) (nearest : List Pt → Pt → Option Nat) (lo hi : ℚ)
    (hb : ∀ s ∈ ss, lo ≤ s.value ∧ s.value ≤ hi) (ps : List Pt) :
    ∃ vs, compute nearest T ss ps = .ok vs ∧ ∀ (i : Nat) p v, ps[i]? = some p → Fair T ss p → vs[i]? = some (some v) → lo ≤ v ∧ v ≤ hi := by
  obtain ⟨vs, h1, -, h3⟩ := value_right_or_missing_partial hP nearest ps
  refine ⟨vs, h1, fun i p v hp hC hv => ?_⟩
  obtain ⟨f, x, g1, r, s, t, k1, k2, k3, k4, -, -, k7⟩ := h3 i p v hp hC hv
  obtain ⟨_, -, e2, e3, e4⟩ := triAt_some g1
  have a := hb _ (List.mem_of_getElem? e2)
  have b := hb _ (List.mem_of_getElem? e3)
  have c := hb _ (List.mem_of_getElem? e4)
  have hlo : lo = r * lo + s * lo + t * lo := by rw [← add_mul, ← add_mul, k4, one_mul]
  have hhi : hi = r * hi + s * hi + t * hi := by rw [← add_mul, ← add_mul, k4, one_mul]
  have := mul_le_mul_of_nonneg_left a.1 k1
  have := mul_le_mul_of_nonneg_left a.2 k1
  have := mul_le_mul_of_nonneg_left b.1 k2
  have := mul_le_mul_of_nonneg_left b.2 k2
  have := mul_le_mul_of_nonneg_left c.1 k3
  have := mul_le_mul_of_nonneg_left c.2 k3
  constructor <;> linarith

/-- Outside the bounding box of the samples there is no value. -/
theorem outside_box_missing {T : Tables} {ss : List Spot} (hP : Proper T ss) (nearest : List Pt → Pt → Option Nat) (ps : List Pt) :
    ∃ vs, compute nearest T ss ps = .ok vs ∧ ∀ (i : Nat) p, ps[i]? = some p → p.Finite → ¬ InBox (ss.map (·.pos)) p → vs[i]? = some none := by
  obtain ⟨D, vs, hF, h1, -, h3⟩ := compute_ok hP nearest ps
  refine ⟨vs, h1, fun i p hp hfin hb => ?_⟩
  obtain ⟨r, h4, h5⟩ := h3 i p hp
  rw [valueAt_box hP hF hfin hb] at h5
  rw [h4, ← Res.ok.inj h5]

/-- The interface: the values at the nodes, in their order.  A deleted node has a value only if the samples reach its place. -/
theorem nodes_written_partial {T : Tables} {ss : List Spot} (hP : Proper T ss) (hR : Regular T ss) {nearest : List Pt → Pt → Option Nat} (hN : Finds nearest)
    (m : Mesh Pt) (hm : m.nodes ≠ []) (centres : List Pt) {room : Nat} (hroom : room ≤ m.nodes.length) :
    ∃ vs, call nearest T m centres .nodes room ss = .ok vs ∧ vs.length = room ∧
      (∀ (n : Nat) p, n < room → m.nodes[n]? = some (some p) → Clear T ss p →
        ((∃ f x, triAt T ss f = some x ∧ x.Contains p) → ∃ f x v, triAt T ss f = some x ∧ x.Mean p v ∧ vs[n]? = some (some v)) ∧
          ((∀ f x, triAt T ss f = some x → ¬ x.Contains p) → vs[n]? = some none)) ∧
      (¬ InBox (ss.map (·.pos)) ⟨-999, -999⟩ → ∀ n : Nat, n < room → m.nodes[n]? = some none → vs[n]? = some none) := by
  obtain ⟨vs, h1, h2, h3⟩ := value_in_triangle_partial hP hR hN (m.nodes.map place)
  obtain ⟨vs', h4, h5⟩ := outside_box_missing hP nearest (m.nodes.map place)
  rw [h1] at h4
  cases h4
  rw [List.length_map] at h2
  have htake : ∀ n : Nat, n < room → (vs.take room)[n]? = vs[n]? := fun n hn => List.getElem?_take_of_lt hn
  refine ⟨vs.take room, ?_, ?_, ?_, ?_⟩
  · unfold call
    rw [if_neg (by rw [List.isEmpty_iff]; exact hm), if_neg (by rw [List.isEmpty_iff]; exact hP.samples_ne)]
    simp only [locations, Res.ok_bind]
    rw [h1, Res.ok_bind, if_neg (by omega)]
  · rw [List.length_take]; omega
  · intro n p hn hp hC
    rw [htake n hn]
    exact h3 n p (by rw [List.getElem?_map, hp]; rfl) hC
  · intro hb n hn hp
    rw [htake n hn]
    exact h5 n ⟨-999, -999⟩ (by rw [List.getElem?_map, hp]; rfl) (by unfold Pt.Finite; decide +kernel) hb

/-- The mesh of the example. -/
def line : Mesh Pt := ⟨[some ⟨2, 1⟩, some ⟨4, 2⟩, none], [(0, 1)], [[0], [0], []], [1, 1, 0]⟩

example : line.nodes ≠ [] ∧ call first two line [] .nodes 3 four = .ok [some 5, some (75 / 19), none] ∧
    call first two line [] .edges 1 four = .ok [some (97 / 19)] := by decide +kernel

/-- The interface: the values at the middles of the edges, in their order. -/
theorem edges_written_partial {T : Tables} {ss : List Spot} (hP : Proper T ss) (hR : Regular T ss) {nearest : List Pt → Pt → Option Nat} (hN : Finds nearest)
    (m : Mesh Pt) (hm : m.nodes ≠ []) (he : ∀ e ∈ m.edges, e.1 ≠ missing → e.2 ≠ missing → e.1 < m.nodes.length ∧ e.2 < m.nodes.length) (centres : List Pt)
    {room : Nat} (hroom : room ≤ m.edges.length) :
    ∃ vs, call nearest T m centres .edges room ss = .ok vs ∧ vs.length = room ∧
      ∀ (n a b : Nat) p q c, n < room → m.edges[n]? = some (a, b) → a ≠ missing → b ≠ missing → m.nodes[a]? = some (some p) → m.nodes[b]? = some (some q) →
        c = ⟨(p.x + q.x) / 2, (p.y + q.y) / 2⟩ → Clear T ss c →
        ((∃ f x, triAt T ss f = some x ∧ x.Contains c) → ∃ f x v, triAt T ss f = some x ∧ x.Mean c v ∧ vs[n]? = some (some v)) ∧
          ((∀ f x, triAt T ss f = some x → ¬ x.Contains c) → vs[n]? = some none) := by
  obtain ⟨ps, k1, k2, k3⟩ := middles_ok (nodes := m.nodes) m.edges he
  obtain ⟨vs, h1, h2, h3⟩ := value_in_triangle_partial hP hR hN ps
  refine ⟨vs.take room, ?_, ?_, ?_⟩
  · unfold call
    rw [if_neg (by rw [List.isEmpty_iff]; exact hm), if_neg (by rw [List.isEmpty_iff]; exact hP.samples_ne)]
    simp only [locations]
    rw [k1, Res.ok_bind, h1, Res.ok_bind, if_neg (by omega)]
  · rw [List.length_take]; omega
  · intro n a b p q c hn hed ha hb hp hq hc hC
    rw [List.getElem?_take_of_lt hn]
    obtain ⟨r, g1, g2⟩ := k3 n (a, b) hed
    have hr : r = c := by
      unfold middle at g2
      rw [if_pos ⟨ha, hb⟩, vget_some hp, Res.ok_bind, vget_some hq, Res.ok_bind] at g2
      rw [hc, ← Res.ok.inj g2]
      simp only [place]
      congr 1 <;> ring
    subst hr
    exact h3 n r g1 hC

/-- Without samples, or without a triangle, the call fails. -/
theorem nothing_refused (nearest : List Pt → Pt → Option Nat) (T : Tables) (ss : List Spot) (ps : List Pt)
    (h : ss = [] ∨ (T.faceNodes = [] ∧ T.faceEdges = [])) : compute nearest T ss ps = .throw := by
  unfold compute
  rcases h with rfl | ⟨h1, h2⟩
  · rfl
  · split
    · rfl
    · unfold edgesFaces
      rw [h1, h2]
      rfl

example : compute first ⟨[], [], [(0, 1)]⟩ [⟨⟨0, 0⟩, 1⟩, ⟨⟨1, 1⟩, 2⟩] [⟨0, 0⟩] = .throw := nothing_refused _ _ _ _ (.inr ⟨rfl, rfl⟩)

/-- The interface refuses an empty mesh and an empty list of samples. -/
theorem empty_refused (nearest : List Pt → Pt → Option Nat) (T : Tables) (m : Mesh Pt) (centres : List Pt) (w : Where) (room : Nat) (ss : List Spot)
    (h : m.nodes = [] ∨ ss = []) : call nearest T m centres w room ss = .throw := by
  unfold call
  rcases h with h | h <;> rw [h]
  · rfl
  · simp

/-- The interface refuses a list for the results that is longer than the locations. -/
theorem too_much_room {T : Tables} {ss : List Spot} (hP : Proper T ss) (nearest : List Pt → Pt → Option Nat) (m : Mesh Pt) (centres : List Pt) {room : Nat}
    (hroom : m.nodes.length < room) : call nearest T m centres .nodes room ss = .throw := by
  unfold call
  split
  · rfl
  · rw [if_neg (by rw [List.isEmpty_iff]; exact hP.samples_ne)]
    obtain ⟨D, vs, -, h1, h2, -⟩ := compute_ok hP nearest (m.nodes.map place)
    simp only [locations, Res.ok_bind]
    rw [h1, Res.ok_bind, if_pos (by rw [h2, List.length_map]; exact hroom)]

end Verif.TriInterp
