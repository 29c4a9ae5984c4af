import Verif.Sampling.Model
import Verif.Faces.Spec
import Verif.Quality.Spec
/-!
# Specification: which samples count, and what is reported
-/
namespace Verif.Sampling
open Verif.Polygons (Pt sides turns OnSegment area2 RingNodes)
open Verif.Averaging (Val)

/-- The point `p`, moved away from `c` by the factor `k`. -/
def scaled (k : ℚ) (c p : Pt) : Pt := ⟨c.x + k * (p.x - c.x), c.y + k * (p.y - c.y)⟩

/-- The closed polygon goes around the point: counted by the triangles that the sides make with a base point `o`. -/
def Inside (ring : List Pt) (p : Pt) : Prop := ∃ o, (∀ q ∈ ring, ¬ OnSegment o q p) ∧ turns o ring p ≠ 0

/-- The point is on none of the lines that carry the sides. -/
def OffLines (ring : List Pt) (p : Pt) : Prop := ∀ s ∈ sides ring, area2 s.1 s.2 p ≠ 0

open Classical in
/-- The samples within the closed polygon; those with a value of -999 or less count as missing. -/
noncomputable def within (ring : List Pt) (ss : List Spot) : List Spot := ss.filter (fun s => decide (-999 < s.value ∧ Inside ring s.pos))

/-- Square of the distance. -/
def sqDist (a b : Pt) : ℚ := (b.x - a.x) ^ 2 + (b.y - a.y) ^ 2

/-- The weight of a sample at distance `d`. -/
def weightAt (d : ℚ) : ℚ := 1 / max d (1 / 100)

/-- What each method is to report at `c` for a collection of samples. -/
def Average (dist : Pt → Pt → ℚ) (method : Method) (minNum : Nat) (c : Pt) (ss : List Spot) (v : Val ℚ) : Prop :=
  match method with
  | .simple => if ss.length < minNum then v = .num (-999) else v = .num ((ss.map (·.value)).sum / ss.length)
  | .inverse =>
    if (ss.map (fun s => weightAt (dist c s.pos))).sum < minNum then v = .num (-999)
    else v = .num ((ss.map (fun s => weightAt (dist c s.pos) * s.value)).sum / (ss.map (fun s => weightAt (dist c s.pos))).sum)
  | .max => (ss = [] ∧ v = .num (-999)) ∨ ∃ s ∈ ss, v = .num s.value ∧ ∀ t ∈ ss, t.value ≤ s.value
  | .min => (ss = [] ∧ v = .num (-999)) ∨ ∃ s ∈ ss, v = .num s.value ∧ ∀ t ∈ ss, s.value ≤ t.value
  | .minAbs => (ss = [] ∧ v = .num (-999)) ∨ ∃ s ∈ ss, v = .num |s.value| ∧ ∀ t ∈ ss, |s.value| ≤ |t.value|
  | .closest => (ss = [] ∧ v = .num (-999)) ∨ ∃ s ∈ ss, v = .num s.value ∧ ∀ t ∈ ss, sqDist c s.pos ≤ sqDist c t.pos

/-- The samples are ordinary numbers, seen from `c`. -/
structure Ordinary (env : Env) (c : Pt) (ss : List Spot) : Prop where
  some : ss ≠ []
  order : ∀ l, (env.order l).Perm l
  lowest : env.lowest < 0
  valid : ∀ s ∈ ss, s.pos.isValid = true
  finite : ∀ s ∈ ss, s.pos.Finite
  low : ∀ s ∈ ss, env.lowest < s.value
  high : ∀ s ∈ ss, |s.value| < env.top
  reach : ∀ s ∈ ss, sqDist c s.pos < env.top

/-- The closed polygon with the given corners, moved away from `c` by the factor `k`. -/
def scaledRing (k : ℚ) (c : Pt) (corners : List Pt) : List Pt := Polygons.ringOf (corners.map (scaled k c))

/-- The point lies in the circle around `c` through the furthest corner of the polygon; the four extreme points of the circle do not count. -/
def Reached (ring : List Pt) (c p : Pt) : Prop :=
  ∃ q ∈ ring, (p.x - c.x) ^ 2 < sqDist c q ∧ (p.y - c.y) ^ 2 < sqDist c q ∧ sqDist c p ≤ sqDist c q

/-- The value is a number above zero. -/
def Positive (v : Val ℚ) : Prop := ∃ x, v = .num x ∧ 0 < x

open Classical in
/-- The samples after some polygons, each given with its centre and the value found there: a sample in the circle of a polygon with a positive value
is lowered by one, once. -/
noncomputable def lowered (done : List ((List Pt × Pt) × Val ℚ)) (ss : List Spot) : List Spot :=
  ss.map (fun s => if ∃ d ∈ done, Positive d.2 ∧ Reached d.1.1 d.1.2 s.pos then ⟨s.pos, s.value - 1⟩ else s)

/-- A polygon around `c` that the samples can be tested against: closed, with proper coordinates, not just one point, and no sample on the line of a
side. -/
structure Sound (ring : List Pt) (c : Pt) (ss : List Spot) : Prop where
  centre : c.isValid = true
  nodes : RingNodes ring
  move : ∃ q ∈ ring, q ≠ c
  off : ∀ s ∈ ss, OffLines ring s.pos

end Verif.Sampling

namespace Verif.Sampling
open Verif.Mesh Verif.Faces
open Verif.Polygons (Pt)

/-- The face with sides `es` has the successive sides `e'` and `e`. -/
def follows (es : List Nat) (e' e : Nat) : Bool :=
  (List.range es.length).any (fun j => decide (es[j]? = some e') && decide (es[(j + 1) % es.length]? = some e))

/-- The faces with the successive sides `e'` and `e`: those in the corner between these two. -/
def cornerFaces (s : State) (e' e : Nat) : List Nat := (List.range s.facesEdges.length).filter (fun f => follows (s.facesEdges.getD f []) e' e)

/-- The middle of edge `e`. -/
def middleOf (m : Mesh Pt) (e : Nat) : Pt :=
  let p := m.edges.getD e noEdge
  ⟨((position m.nodes p.1).x + (position m.nodes p.2).x) / 2, ((position m.nodes p.1).y + (position m.nodes p.2).y) / 2⟩

/-- The point between two successive edges of node `n`: the centre of mass of the face in the corner, or the node itself if there is none. -/
def between (m : Mesh Pt) (s : State) (n e' e : Nat) : Pt :=
  match (cornerFaces s e' e).head? with
  | some f => Quality.massOf m s f
  | none => position m.nodes n

/-- The polygon around node `n`: for each of its edges, in the order around the node, the middle, and then the point between this edge and the
next one. -/
def dualPolygon (m : Mesh Pt) (s : State) (n : Nat) : List Pt :=
  let es := m.nodesEdges.getD n []
  (List.range es.length).flatMap (fun k =>
    [middleOf m (es.getD k 0), between m s n (es.getD ((k + 1) % es.length) 0) (es.getD k 0)])

/-- In every corner at node `n` there is one face, or none and the edge before the gap has just the face on its other side. -/
def Regular (m : Mesh Pt) (s : State) (n : Nat) : Prop :=
  let es := m.nodesEdges.getD n []
  ∀ k < es.length, (cornerFaces s (es.getD ((k + 1) % es.length) 0) (es.getD k 0)).length = 1 ∨
    (cornerFaces s (es.getD ((k + 1) % es.length) 0) (es.getD k 0) = [] ∧ s.numFaces[es.getD k 0]? = some 1)

/-- The centre the program computes for a polygon. -/
def centreFound (l : List Pt) : Pt :=
  let r := Polygons.referencePoint (Polygons.ringOf l)
  (Polygons.areaFinish r (Polygons.areaSums r l)).2.1

end Verif.Sampling
