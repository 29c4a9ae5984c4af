import Verif.PolyEdit.Props
/-!
# Witnesses: where offsetting, snapping and selecting fail
-/
namespace Verif.PolyEdit
open Verif.Polygons

/-- The same square, clockwise. -/
def clockwise : List Pt := square.reverse

/-- A second square. -/
def second : List Pt := [⟨20, 0⟩, ⟨30, 0⟩, ⟨30, 10⟩, ⟨20, 10⟩, ⟨20, 0⟩]

/-- A hole in the first one. -/
def hole : List Pt := [⟨4, 4⟩, ⟨6, 4⟩, ⟨6, 6⟩, ⟨4, 6⟩, ⟨4, 4⟩]

theorem square_offset : getOffset unitLen square 0 1 5 = .ok [⟨-1, -1⟩, ⟨11, -1⟩, ⟨11, 11⟩, ⟨-1, 11⟩, ⟨-1, -1⟩] := by decide +kernel

/-- **C79, negation.** The ring of the square goes outside or inside depending on which way round it is written down: the same
call without the inward flag makes the clockwise one smaller. -/
theorem offset_depends_on_orientation :
    getOffset unitLen square 0 1 5 = .ok [⟨-1, -1⟩, ⟨11, -1⟩, ⟨11, 11⟩, ⟨-1, 11⟩, ⟨-1, -1⟩] ∧
      getOffset unitLen clockwise 0 1 5 = .ok [⟨1, 1⟩, ⟨1, 9⟩, ⟨9, 9⟩, ⟨9, 1⟩, ⟨1, 1⟩] := by decide +kernel

/-- **C79, negation.** The inward flag does not choose the inner ring: both are returned. -/
theorem offset_inward_is_both :
    countOffset unitLen square 1 1 = .ok 11 ∧
      getOffset unitLen square 1 1 11 = .ok ([⟨-1, -1⟩, ⟨11, -1⟩, ⟨11, 11⟩, ⟨-1, 11⟩, ⟨-1, -1⟩] ++ outerSep ::
        [⟨1, 1⟩, ⟨9, 1⟩, ⟨9, 9⟩, ⟨1, 9⟩, ⟨1, 1⟩]) := by decide +kernel

/-- **C79, negation.** Two squares are a valid input, but their offsets are written one after the other without a separator,
and the call throws. -/
theorem offset_two_throws :
    polygonsCtor (flat [(square, []), (second, [])]) = .ok ⟨[⟨square, []⟩, ⟨second, []⟩], [(0, 4), (6, 10)], 11⟩ ∧
      countOffset unitLen (flat [(square, []), (second, [])]) 0 1 = .throw ∧
      getOffset unitLen (flat [(square, []), (second, [])]) 0 1 11 = .throw := by decide +kernel

/-- The square with the hole is such an input. -/
theorem offset_hole_example (len : Vec ℚ → ℚ) (d : ℚ) : countOffset len (flat [(square, [hole])]) 0 d = .ub := by
  have h : polygonsCtor (pointVector (flat [(square, [hole])])) = .ok ⟨[⟨square, [hole]⟩], [(0, 4)], 11⟩ := by decide +kernel
  exact (offset_hole_ub len h ⟨⟨square, [hole]⟩, by simp, by simp⟩ 0 (by decide) d 0).1

/-- **C80, negation.** Snapping a part that ends at the first node moves one copy of the closing point and leaves the other
one: the result is not a polygon any more. -/
theorem snap_opens_ring :
    snapPolygon (fun p => ⟨p.x, p.y - 3⟩) square 0 1 = .ok [⟨0, -3⟩, ⟨10, -3⟩, ⟨10, 10⟩, ⟨0, 10⟩, ⟨0, 0⟩] ∧
      polygonsCtor [⟨0, -3⟩, ⟨10, -3⟩, ⟨10, 10⟩, ⟨0, 10⟩, ⟨0, 0⟩] = .throw := by decide +kernel

/-- Two squares, and one square with a repeated point: the call is undefined, whatever the land boundary. -/
theorem snap_two_ub (nearest : Pt → Pt) : snapPolygon nearest (flat [(square, []), (second, [])]) 1 2 = .ub := by
  have hr : Readable second := by
    refine ⟨⟨by simp [second], ?_⟩, by decide, ?_, ⟨_, _, rfl, rfl, by decide +kernel⟩⟩
    · show ∀ p ∈ second, _
      decide +kernel
    · show ∀ p ∈ second, _
      decide +kernel
  refine snap_beyond_ub nearest [(square, []), (second, [])] (by decide +kernel) ?_ ?_ 0 (square, []) rfl 1 2 (by decide) (by decide) (by decide)
  · intro a ha
    simp only [List.mem_cons, List.not_mem_nil, or_false] at ha
    rcases ha with rfl | rfl
    · exact square_area.1 _ (by simp)
    · refine ⟨fun x hx => ?_, by simp⟩
      simp only [Area.rings, List.mem_singleton] at hx
      subst hx
      exact hr.1
  · intro a ha
    simp only [List.mem_cons, List.not_mem_nil, or_false] at ha
    rcases ha with rfl | rfl
    · exact square_area.2 _ (by simp)
    · intro x hx
      simp only [Area.rings, List.mem_singleton] at hx
      subst hx
      exact hr.2

theorem snap_repeated_ub (nearest : Pt → Pt) : snapPolygon nearest (⟨0, 0⟩ :: square) 1 2 = .ub := by
  refine snap_beyond_ub nearest [(square, [])] (by decide +kernel) square_area.1 square_area.2 0 (square, []) rfl 1 2 (by decide) (by decide) (by decide)

/-- **C81, negation.** Only the first selecting polygon counts: a point inside the second one gets zero. -/
theorem included_ignores_others :
    includedPoints ringInside (flat [(square, []), (second, [])]) [⟨5, 5⟩, ⟨25, 5⟩] [7, 7] = .ok [1, 0] := by decide +kernel

/-- **C81, negation.** When a point is repeated, the answers for the points after it are written one place too early and the
last value is not written. -/
theorem included_repeats_shift :
    includedPoints ringInside square [⟨5, 5⟩, ⟨5, 5⟩, ⟨15, 5⟩] [7, 7, 7] = .ok [1, 0, 7] := by decide +kernel

end Verif.PolyEdit
