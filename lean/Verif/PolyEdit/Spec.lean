import Verif.PolyEdit.Model
import Verif.Polygons.ParseSpec
/-!
# What offsetting, snapping and selecting should do
-/
namespace Verif.PolyEdit
open Verif.Polygons

section
variable {K : Type} [Field K] [LinearOrder K]

/-- `len` gives the length of `v`. -/
def LengthAt (len : Vec K → K) (v : Vec K) : Prop := 0 ≤ len v ∧ len v ^ 2 = v.x ^ 2 + v.y ^ 2

/-- `len` gives the lengths of the sides. -/
def Lengths (len : Vec K → K) (r : List (Vec K)) : Prop :=
  ∀ (k : Nat) (a b : Vec K), r[k]? = some a → r[k + 1]? = some b → LengthAt len ⟨b.x - a.x, b.y - a.y⟩

/-- Closed: the last point repeats the first one, and there are at least three others. -/
def Loop {α : Type} (r : List α) : Prop := 4 ≤ r.length ∧ r.head? = r.getLast?

/-- `a`, `b`, `c` follow each other in the closed ring. -/
def Follow (r : List (Vec K)) (a b c : Vec K) : Prop :=
  (∃ k : Nat, r[k]? = some a ∧ r[k + 1]? = some b ∧ r[k + 2]? = some c) ∨
    (r[r.length - 2]? = some a ∧ r[0]? = some b ∧ r[1]? = some c)

/-- Every side has a length, and no side goes straight back over the one before it. -/
def NoSpike (r : List (Vec K)) : Prop :=
  (∀ (k : Nat) (a b : Vec K), r[k]? = some a → r[k + 1]? = some b → a ≠ b) ∧
    ∀ a b c, Follow r a b c → ¬ ∃ t : K, 0 < t ∧ c.x - b.x = -(t * (b.x - a.x)) ∧ c.y - b.y = -(t * (b.y - a.y))

/-- `p` is at distance `d` to the left of the line from `a` to `b`, to the right if `d` is negative. -/
def LeftBy (len : Vec K → K) (d : K) (a b p : Vec K) : Prop :=
  (b.x - a.x) * (p.y - a.y) - (b.y - a.y) * (p.x - a.x) = d * len ⟨b.x - a.x, b.y - a.y⟩

end

/-- No point is within the tolerance of the one before it. -/
def NoRepeats (l : List Pt) : Prop :=
  ∀ (k : Nat) (p q : Pt), l[k]? = some p → l[k + 1]? = some q → (isEqual q.x p.x && isEqual q.y p.y) = false

/-- Node `k` is between the nodes `start` and `fin`, going upwards and around; both zero means all nodes. -/
def InRange (start fin k : Nat) : Prop :=
  (start = 0 ∧ fin = 0) ∨ (start ≤ fin ∧ start ≤ k ∧ k ≤ fin) ∨ (fin < start ∧ (start ≤ k ∨ k ≤ fin))

instance (start fin k : Nat) : Decidable (InRange start fin k) := by unfold InRange; infer_instance

/-- A ring that can be read: no coordinate that marks a separator, closed, no missing coordinates. -/
def Readable (r : List Pt) : Prop := Polygons.Separable r ∧ ClosedRing r

end Verif.PolyEdit
