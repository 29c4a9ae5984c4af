import Verif.Refine.Model
import Verif.Faces.OrderModel
/-!
# Refinement in the plane: a setting and meshes for the examples

Not part of the model of the code: a choice of the parameters of `Refine.Model` with exact arithmetic.
-/
namespace Verif.Refine
open Verif.Mesh Verif.Faces
open Verif.Polygons (Pt)

/-- The point in the middle, `MeshRefinement.cpp:533` for Cartesian meshes. -/
def midPt (p q : Pt) : Pt := ⟨(p.x + q.x) / 2, (p.y + q.y) / 2⟩

/-- The average of the points. -/
def average (ps : List Pt) : Pt := ⟨(ps.map (·.x)).sum / ps.length, (ps.map (·.y)).sum / ps.length⟩

/-- `r` is the point in the middle between `p` and `q`. -/
def isMiddle (p q r : Option Pt) : Bool :=
  match p, q, r with
  | some p, some q, some r => decide (r = midPt p q)
  | _, _, _ => false

/-- Refinement in the plane of the faces selected by `mask`, with edges that are never too short. -/
def plain (mask : List Int) (levels : Nat) (connectHanging : Bool) : Setting Pt where
  mid := midPt
  centre m st f := average (((st.facesNodes[f]?).getD []).filterMap (fun n => (m.nodes[n]?).join))
  middle := isMiddle
  order m := ccwOrder m.nodes m.edges
  clockwise := Faces.clockwise
  nodeMask _ _ := mask
  marks := sizeMarks (fun _ _ => false)
  maxLevels := levels
  connectHanging := connectHanging

/-- A square. -/
def square : Mesh Pt := ⟨[some ⟨0, 0⟩, some ⟨4, 0⟩, some ⟨4, 4⟩, some ⟨0, 4⟩], [(0, 1), (1, 2), (2, 3), (3, 0)], [], []⟩

/-- Two squares side by side. -/
def twoSquares : Mesh Pt :=
  ⟨[some ⟨0, 0⟩, some ⟨4, 0⟩, some ⟨4, 4⟩, some ⟨0, 4⟩, some ⟨8, 0⟩, some ⟨8, 4⟩], [(0, 1), (1, 2), (2, 3), (3, 0), (1, 4), (4, 5), (5, 2)], [], []⟩

/-- A hexagon. -/
def hexagon : Mesh Pt :=
  ⟨[some ⟨4, 0⟩, some ⟨2, 4⟩, some ⟨-2, 4⟩, some ⟨-4, 0⟩, some ⟨-2, -4⟩, some ⟨2, -4⟩], [(0, 1), (1, 2), (2, 3), (3, 4), (4, 5), (5, 0)], [], []⟩

/-- A square with a pentagon beside it. -/
def squareAndPentagon : Mesh Pt :=
  ⟨[some ⟨0, 0⟩, some ⟨4, 0⟩, some ⟨4, 4⟩, some ⟨0, 4⟩, some ⟨7, -1⟩, some ⟨9, 2⟩, some ⟨7, 5⟩],
   [(0, 1), (1, 2), (2, 3), (3, 0), (1, 4), (4, 5), (5, 6), (6, 2)], [], []⟩

/-- The nodes and edges of a mesh. -/
def shape (r : Res (List (Act Pt) × Mesh Pt)) : Res (List (Option Pt) × List Edge) :=
  match r with
  | .ok (_, m) => .ok (m.nodes, m.edges)
  | .throw => .throw
  | .ub => .ub

end Verif.Refine
