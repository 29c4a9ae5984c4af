import Verif.TriInterp.Props
/-!
# Where the interpolation in a triangulation goes wrong
-/
namespace Verif.TriInterp
open Verif.Mesh
open Verif.Polygons (Pt area2 OnSegment InBox sides)
open Verif.Sampling (Spot)

/-- The triangulation of three samples. -/
def one : Tables := ⟨[(0, 1, 2)], [(0, 1, 2)], [(0, 1), (1, 2), (2, 0)]⟩

theorem one_tri {ss : List Spot} {a b c : Spot} (h : ss = [a, b, c]) {f : Nat} {x : Tri} (hx : triAt one ss f = some x) : x = ⟨a, b, c⟩ := by
  subst h
  rcases f with _ | f
  · cases hx; rfl
  · simp [triAt, one] at hx

/-- A location beside the only triangle, on one of its sides extended, gets a value, greater than every sample. -/
theorem not_only_in_triangles : ∃ ss p v, compute first one ss [p] = .ok [some v] ∧ (∀ f x, triAt one ss f = some x → ¬ x.Contains p) ∧ ∀ s ∈ ss, s.value < v := by
  refine ⟨[⟨⟨0, 0⟩, 0⟩, ⟨⟨4, 2⟩, 0⟩, ⟨⟨2, 2⟩, 1⟩], ⟨1, 2⟩, 3 / 2, by decide +kernel, ?_, by decide +kernel⟩
  intro f x hx
  rw [one_tri rfl hx, contains_iff (by decide +kernel)]
  decide +kernel

/-- The number of the point that is closest, the first of several. -/
def closest (cs : List Pt) (p : Pt) : Option Nat :=
  (List.range cs.length).find? fun i => cs.all fun c => decide (dist2 p (cs[i]?.getD ⟨0, 0⟩) ≤ dist2 p c)

/-- The samples of the example, so many times closer. -/
def scaled (k : ℚ) : List Spot := [⟨⟨0, 0⟩, 1⟩, ⟨⟨4 * k, 0⟩, 5⟩, ⟨⟨5 * k, 4 * k⟩, 2⟩, ⟨⟨0, 3 * k⟩, 7⟩]

/-- Between samples a few millionths apart the search does not leave the triangle it starts in: a location in the other one gets no value. -/
theorem lost_between_close_samples :
    compute closest two (scaled (1 / 1000000)) [⟨3 / 2000000, 2 / 1000000⟩] = .ok [none] ∧
      (∃ f x, triAt two (scaled (1 / 1000000)) f = some x ∧ x.Contains ⟨3 / 2000000, 2 / 1000000⟩) ∧
      compute closest two (scaled 1) [⟨3 / 2, 2⟩] = .ok [some (235 / 38)] :=
  ⟨by decide +kernel, ⟨1, _, rfl, (contains_iff (by decide +kernel)).2 (by decide +kernel)⟩, by decide +kernel⟩

/-- In a small triangle there is no value at all. -/
theorem small_triangle_missing : ∃ ss p, compute closest one ss [p] = .ok [none] ∧ ∃ f x, triAt one ss f = some x ∧ 0 < x.area ∧ x.Contains p :=
  ⟨[⟨⟨0, 0⟩, 0⟩, ⟨⟨4 / 10000000, 0⟩, 0⟩, ⟨⟨0, 4 / 10000000⟩, 1⟩], ⟨1 / 10000000, 1 / 10000000⟩, by decide +kernel, 0, _, rfl, by decide +kernel,
    (contains_iff (by decide +kernel)).2 (by decide +kernel)⟩

/-- A deleted edge counts as an edge at (-999, -999): it gets a value if there are samples around. -/
theorem deleted_edge_has_value : ∃ ss m v, m.edges = [noEdge] ∧ call closest one m [] .edges 1 ss = .ok [some v] :=
  ⟨[⟨⟨-1000, -1000⟩, 0⟩, ⟨⟨0, -1000⟩, 0⟩, ⟨⟨-1000, 0⟩, 1⟩], ⟨[some ⟨0, 0⟩], [noEdge], [[]], [0]⟩, 1 / 1000, rfl, by decide +kernel⟩

end Verif.TriInterp
