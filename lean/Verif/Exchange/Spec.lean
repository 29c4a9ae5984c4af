import Verif.Exchange.Model
/-!
# What the caller's arrays hold
-/
namespace Verif.Exchange
open Verif.Mesh Verif.Polygons

/-- The arrays hold these points and edges at their start, and the counts say so. -/
structure Holds (a : Arrays) (ps : List Pt) (es : List (Int × Int)) : Prop where
  numNodes : a.numNodes = ps.length
  numEdges : a.numEdges = es.length
  xs : a.nodeX.take ps.length = ps.map (·.x)
  ys : a.nodeY.take ps.length = ps.map (·.y)
  edges : a.edgeNodes.take (2 * es.length) = es.flatMap (fun e => [e.1, e.2])

/-- All points are valid, every edge joins two of them, every point is the end of an edge; there are fewer than `2^31`. -/
structure Tidy (ps : List Pt) (es : List (Int × Int)) : Prop where
  fits : ps.length < 2147483648
  valid : ∀ p ∈ ps, p.isValid = true
  ends : ∀ e ∈ es, (0 ≤ e.1 ∧ e.1 < ps.length) ∧ (0 ≤ e.2 ∧ e.2 < ps.length)
  used : ∀ i : Nat, i < ps.length → ∃ e ∈ es, e.1 = i ∨ e.2 = i

/-- The valid point with an index. -/
def pointAt (ps : List Pt) (i : Int) : Option Pt :=
  if 0 ≤ i then (ps[i.toNat]?).bind (fun p => if p.isValid then some p else none) else none

/-- The two ends of an edge, if both are valid points. -/
def endsOf (ps : List Pt) (e : Int × Int) : Option (Pt × Pt) :=
  match pointAt ps e.1, pointAt ps e.2 with
  | some p, some q => some (p, q)
  | _, _ => none

/-- The drawing of points and edges. -/
def drawing (ps : List Pt) (es : List (Int × Int)) : List (Pt × Pt) := es.filterMap (endsOf ps)

/-- Points and edges put behind others. -/
def append (a b : List Pt × List (Int × Int)) : List Pt × List (Int × Int) :=
  (a.1 ++ b.1, a.2 ++ b.2.map (fun e => (e.1 + (a.1.length : Int), e.2 + (a.1.length : Int))))

/-- The mesh of the kernel consists of these points and edges. -/
def Held (m : Mesh Pt) (ps : List Pt) (es : List (Int × Int)) : Prop :=
  m.nodes = ps.map some ∧ m.edges = es.map (fun e => (e.1.toNat, e.2.toNat))

/-- The arrays have room for so many nodes and edges. -/
def Room (o : Arrays) (n e : Nat) : Prop := n ≤ o.nodeX.length ∧ n ≤ o.nodeY.length ∧ 2 * e ≤ o.edgeNodes.length

end Verif.Exchange
