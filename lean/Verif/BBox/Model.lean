import Verif.Basic
import Mathlib.Algebra.Order.Field.Rat
import Mathlib.Order.BoundedOrder.Basic
/-!
# Bounding boxes

Models `libs/MeshKernel/include/MeshKernel/BoundingBox.hpp`.  The finite doubles are a linear order
with a least element `numeric_limits::lowest()` (`⊥`) and a greatest `numeric_limits::max()` (`⊤`);
the model works over any such order.  NaN and infinite coordinates are not modelled.
-/
namespace Verif.BBox

/-- A point of the plane. -/
structure Pt (K : Type) where
  x : K
  y : K
  deriving DecidableEq, Repr

/-- `BoundingBox`, `BoundingBox.hpp:39-164`. -/
structure Box (K : Type) where
  lo : Pt K
  hi : Pt K
  deriving DecidableEq, Repr

variable {K : Type} [LinearOrder K]

/-- `std::min`: the second argument when it is smaller, else the first. -/
def stdMin (a b : K) : K := if b < a then b else a
/-- `std::max`: the second argument when it is larger, else the first. -/
def stdMax (a b : K) : K := if a < b then b else a

/-- `Contains`, `BoundingBox.hpp:102-107`. -/
def contains (b : Box K) (p : Pt K) : Bool :=
  decide (b.lo.x ≤ p.x) && decide (p.x ≤ b.hi.x) && decide (b.lo.y ≤ p.y) && decide (p.y ≤ b.hi.y)

/-- `Overlaps`, `BoundingBox.hpp:234-247`. -/
def overlaps (b c : Box K) : Bool :=
  if b.hi.x < c.lo.x ∨ c.hi.x < b.lo.x ∨ b.hi.y < c.lo.y ∨ c.hi.y < b.lo.y then false else true

/-- `Merge`, `BoundingBox.hpp:214-220`. -/
def merge (b c : Box K) : Box K :=
  ⟨⟨stdMin b.lo.x c.lo.x, stdMin b.lo.y c.lo.y⟩, ⟨stdMax b.hi.x c.hi.x, stdMax b.hi.y c.hi.y⟩⟩

/-- `CreateBoundingBox`, `BoundingBox.hpp:151-159`. -/
def ofTwo (p q : Pt K) : Box K :=
  ⟨⟨stdMin p.x q.x, stdMin p.y q.y⟩, ⟨stdMax p.x q.x, stdMax p.y q.y⟩⟩

section
variable [BoundedOrder K]

/-- The default box, `BoundingBox.hpp:43-44`. -/
def whole : Box K := ⟨⟨⊥, ⊥⟩, ⟨⊤, ⊤⟩⟩

/-- `CreateNonOverlappingBoundingBox`, `BoundingBox.hpp:222-227`; also the values the loop of `Reset`
starts from, `BoundingBox.hpp:193-196`. -/
def inverted : Box K := ⟨⟨⊤, ⊤⟩, ⟨⊥, ⊥⟩⟩

/-- Loop body of `Reset`, `BoundingBox.hpp:202-208`. -/
def grow (valid : Pt K → Bool) (b : Box K) (p : Pt K) : Box K :=
  if valid p then
    ⟨⟨stdMin b.lo.x p.x, stdMin b.lo.y p.y⟩, ⟨stdMax b.hi.x p.x, stdMax b.hi.y p.y⟩⟩
  else b

/-- `Reset` with a slice, `BoundingBox.hpp:191-212`.  Both ends are included; a slice that leaves the
array is undefined behaviour, one with `fin < start` is empty. -/
def resetSlice (valid : Pt K → Bool) (ps : List (Pt K)) (start fin : Nat) : Res (Box K) :=
  if fin < start then .ok inverted
  else if ps.length ≤ fin then .ub
  else .ok (((ps.take (fin + 1)).drop start).foldl (grow valid) inverted)

/-- `Reset`, `BoundingBox.hpp:175-188`. -/
def reset (valid : Pt K → Bool) (ps : List (Pt K)) : Res (Box K) :=
  if ps.length > 0 then resetSlice valid ps 0 (ps.length - 1) else .ok whole
end

/-- `Extend`, `BoundingBox.hpp:135-144`, in exact rational arithmetic. -/
def extend (f : ℚ) (b : Box ℚ) : Box ℚ :=
  let w := b.hi.x - b.lo.x
  let h := b.hi.y - b.lo.y
  ⟨⟨b.lo.x - w * f, b.lo.y - h * f⟩, ⟨b.hi.x + w * f, b.hi.y + h * f⟩⟩

end Verif.BBox
