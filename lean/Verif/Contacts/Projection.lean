import Verif.Basic
import Mathlib.Analysis.SpecialFunctions.Pow.Real

/-!
# Where single contacts are sought for 1D nodes outside of the 2D mesh

`Mesh1D::ComputeProjectedNode` (`Mesh1D.cpp:83-117`) for the Cartesian projection, over the real
numbers.  The coordinates of 1D nodes with edges are valid.
-/
namespace Verif.Contacts.Side
open Classical

/-- A point. -/
structure Pt where
  x : ℝ
  y : ℝ

/-- `ComputeDistance` (`Operations.cpp:913-921`). -/
noncomputable def len (p q : Pt) : ℝ := Real.sqrt ((q.x - p.x) ^ 2 + (q.y - p.y) ^ 2)

/-- `NormalVectorOutside` (`Operations.cpp:704-724`); for points at the same place the missing
value. -/
noncomputable def normal (p q : Pt) : Pt :=
  if 0 < (q.x - p.x) ^ 2 + (q.y - p.y) ^ 2 then
    ⟨(q.y - p.y) / len p q, -(q.x - p.x) / len p q⟩
  else ⟨-999, -999⟩

/-- The node, moved along the normal (`Mesh1D.cpp:101`, `:116`). -/
noncomputable def moved (n p q : Pt) (f : ℝ) : Pt :=
  ⟨n.x + (normal p q).x * len p q * f, n.y + (normal p q).y * len p q * f⟩

/-- The other node of an edge (`Mesh1D.cpp:96`, `:110`, `:111`). -/
def other (e : Nat × Nat) (n : Nat) : Nat := if e.1 = n then e.2 else e.1

/-- The 1D mesh after its administration (`Contacts.cpp:36`). -/
structure Line where
  /-- the coordinates -/
  pos : List Pt
  /-- the edges -/
  edges : List (Nat × Nat)
  /-- `m_nodesEdges`: the numbers of the edges at each node -/
  at_ : List (List Nat)

/-- The two points whose direction counts at a node (`Mesh1D.cpp:86-111`). -/
noncomputable def direction (m : Line) (n : Nat) : Res (Pt × Pt) :=
  (vget m.at_ n).bind fun es =>
    if es.length = 0 then .throw
    else if es.length = 1 then
      (vget es 0).bind fun i => (vget m.edges i).bind fun e =>
        (vget m.pos n).bind fun p => (vget m.pos (other e n)).bind fun q => .ok (p, q)
    else
      (vget es 0).bind fun i => (vget es 1).bind fun j =>
        (vget m.edges i).bind fun e => (vget m.edges j).bind fun e' =>
          (vget m.pos (other e n)).bind fun p => (vget m.pos (other e' n)).bind fun q => .ok (p, q)

/-- `ComputeProjectedNode` (`Mesh1D.cpp:83-117`). -/
noncomputable def projected (m : Line) (n : Nat) (f : ℝ) : Res Pt :=
  (direction m n).bind fun d => (vget m.pos n).bind fun p => .ok (moved p d.1 d.2 f)

/-- The ends of the two segments along which a face is sought (`Contacts.cpp:67-70`). -/
noncomputable def sides (m : Line) (n : Nat) (f : ℝ) : Res (Pt × Pt) :=
  (projected m n f).bind fun p => (projected m n (-f)).bind fun q => .ok (p, q)

end Verif.Contacts.Side
