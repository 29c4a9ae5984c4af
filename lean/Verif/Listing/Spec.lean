import Verif.Faces.Spec
/-!
# Specification: closed polygons in one list

A list of closed polygons is stored in two arrays of coordinates, one polygon after the other with a pair of missing values (`none`) between
them.
-/
namespace Verif.Listing
variable {P : Type}

/-- The corners of a face and the first corner once more. -/
def ring (nodes : List (Option P)) (ns : List Nat) : List (Option P) := (ns ++ ns.take 1).map fun n => nodes[n]?.join

/-- The polygons one after the other, with a separator before each but the first. -/
def listing : List (List (Option P)) → List (Option P)
  | [] => []
  | r :: rs => r ++ rs.flatMap (none :: ·)

/-- Reading such a list: the parts between the separators. -/
def parts : List (Option P) → List (List (Option P))
  | [] => [[]]
  | none :: l => [] :: parts l
  | some p :: l => match parts l with
    | [] => [[some p]]
    | r :: rs => (some p :: r) :: rs

/-- The faces that are marked, in the order of the mesh. -/
def picked {α : Type} (faces : List α) (mask : List Bool) : List α := (faces.zip mask).filterMap fun p => if p.2 then some p.1 else none

end Verif.Listing
