import Verif.Gridded.Props
/-!
# Where gridded samples are interpolated wrongly (C64)
-/
namespace Verif.Gridded
open Verif.Mesh
open Verif.Polygons (Pt)

/-- Two columns and two rows with cell size 10 and the values 0, 10, 0, 10: they are the values of `x`. -/
def slope : Samples := ⟨.regular 0 10 2, .regular 0 10 2, [0, 10, 0, 10]⟩

/-- A location left of all samples has a value, smaller than that of every sample: the index is rounded towards zero. -/
theorem extrapolated_before_origin : slope.Proper ∧ interpolate slope ⟨-9, 5⟩ = .ok (some (-9)) ∧ (∀ v ∈ slope.values, (0 : ℚ) ≤ v) ∧
    ¬ slope.xs.Inside (-9) := by
  refine ⟨⟨by show (0 : ℚ) < 10; norm_num, by show (0 : ℚ) < 10; norm_num, rfl, by decide, by decide⟩, by decide +kernel, by decide +kernel, ?_⟩
  rintro ⟨⟨u, hu, h⟩, -⟩
  have : slope.xs.coord 0 = some 0 := by decide +kernel
  rw [this] at hu; cases hu
  norm_num at h

/-- The same samples with their coordinates one by one: the location has no value. -/
theorem listed_not_extrapolated : interpolate ⟨.listed [0, 10], .listed [0, 10], [0, 10, 0, 10]⟩ ⟨-9, 5⟩ = .ok none := by decide +kernel

/-- A sample of the last column has no value. -/
theorem last_sample_missing : slope.at 1 0 = some 10 ∧ slope.xs.coord 1 = some 10 ∧ slope.ys.coord 0 = some 0 ∧ interpolate slope ⟨10, 0⟩ = .ok none := by
  decide +kernel

/-- Rows from top to bottom: no location at all has a value. -/
theorem falling_nothing {g : Samples} {ys : List ℚ} (hys : g.ys = .listed ys) (h : ys.Pairwise (· > ·)) (p : Pt) : interpolate g p = .ok none := by
  refine listed_outside_rows hys p ?_
  rintro i u v hu hv ⟨h0, h1⟩
  obtain ⟨k1, rfl⟩ := List.getElem?_eq_some_iff.1 hu
  obtain ⟨k2, rfl⟩ := List.getElem?_eq_some_iff.1 hv
  have := List.pairwise_iff_getElem.1 h _ _ k1 k2 (by omega)
  linarith

example : List.Pairwise (· > ·) [(10 : ℚ), 5, 0] := by decide +kernel

/-- Cell size zero, as in the default arguments: the index is undefined. -/
theorem zero_size_undefined (nx ny : Nat) (vs : List ℚ) : interpolate ⟨.regular 0 0 nx, .regular 0 0 ny, vs⟩ ⟨1, 1⟩ = .ub := by
  have h (n : Nat) : fraction (.regular 0 0 n) 1 = .high := by rw [fraction, if_pos rfl, if_neg (by norm_num)]
  unfold interpolate
  simp only [h]
  rfl

/-- A location far beyond the samples: the index does not fit, the result is undefined instead of missing. -/
theorem far_undefined : interpolate slope ⟨10 ^ 11, 5⟩ = .ub := by decide +kernel

/-- Not quite as far: the index of the next column wraps around to zero, and a value that does not exist is read. -/
theorem wrapped_undefined : interpolate slope ⟨42949672955, 5⟩ = .ub := by decide +kernel

/-- One node inside, one outside. -/
def leaving : Mesh Pt where
  nodes := [some ⟨5, 5⟩, some ⟨25, 5⟩]
  edges := [(0, 1)]
  nodesEdges := []
  numEdges := []

/-- An edge that leaves the samples has a value that is no value of a sample: half of the missing value. -/
theorem edge_half_missing : compute slope leaving [] = .ok ⟨[5, -999], [-497], []⟩ := by decide +kernel

/-- One cell. -/
def hill : Samples := ⟨.regular 0 10 3, .regular 0 10 2, [0, 100, 0, 0, 100, 0]⟩

/-- An edge across the crest. -/
def crest : Mesh Pt where
  nodes := [some ⟨5, 5⟩, some ⟨15, 5⟩]
  edges := [(0, 1)]
  nodesEdges := []
  numEdges := []

/-- The value of an edge is not the value at its middle. -/
theorem edge_not_at_middle : compute hill crest [] = .ok ⟨[50, 50], [50], []⟩ ∧ interpolate hill ⟨10, 5⟩ = .ok (some 100) := by decide +kernel

/-- A mesh with a deleted edge. -/
def holed : Mesh Pt where
  nodes := [some ⟨5, 5⟩, some ⟨6, 5⟩]
  edges := [(0, 1), noEdge]
  nodesEdges := []
  numEdges := []

example : compute slope holed [] = .ub := by decide +kernel

/-- Only the coordinates of the columns given: they are left out of account, and the cell size (zero by default) is used. -/
theorem one_direction_ignored {a : Given} (h : a.coordsY = none) : (samplesOf a).xs = .regular a.originX a.size a.numX := by
  unfold samplesOf
  rw [h]
  cases a.coordsX <;> rfl

end Verif.Gridded
