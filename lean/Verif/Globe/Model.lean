import Mathlib.Algebra.Order.Field.Basic
import Verif.Basic
/-!
# Generation of a global mesh

Models `Mesh2DGenerateGlobal` up to the faces that are drawn.  The numbers are an ordered field; the cosine, the square root and the factor from degrees to
radians are parameters.  `AddFace` puts the nodes and edges of a face in the mesh that are not there yet (`Mesh2DGenerateGlobal.cpp:47-86`); here a face is
the list of its points.  The merging of nodes and the deletion of edges at the end (`182-214`) are not modelled.
-/
namespace Verif.Globe

section
variable {K : Type} [Field K] [LinearOrder K]

/-- The loop `Mesh2DGenerateGlobal.cpp:14-28`, `k` rounds before the end. -/
def newton (rad : K) (cos sqrt : K → K) (cur lon : K) : Nat → K → K
  | 0, d => d
  | k + 1, d =>
    let c := cos (rad * (cur + 1 / 2 * d))
    let a := (d - lon * c) / (1 + 1 / 2 * rad * lon * sqrt (1 - c * c))
    if a < 1 / 10 ^ 14 then d - a else newton rad cos sqrt cur lon k (d - a)

/-- `DeltaLatitude`, `Mesh2DGenerateGlobal.cpp:9-31`. -/
def deltaLatitude (rad : K) (cos sqrt : K → K) (cur lon : K) : K := newton rad cos sqrt cur lon 5 (lon * cos (rad * cur))

/-- A row of faces: where it begins, its width per face, its height, and if its faces are to have five points; if it is the last one. -/
structure Row (K : Type) where
  cur : K
  lon : K
  height : K
  pent : Bool
  last : Bool

/-- `currentLatitude`, `deltaLongitude` and `pentagonFace` at the start of a round. -/
structure Cursor (K : Type) where
  cur : K
  lon : K
  pent : Bool

/-- Is the height below 30 km?  `Mesh2DGenerateGlobal.cpp:126`. -/
def short (rad d : K) : Bool := decide (d * rad * 6378137 < 30000)

/-- `Mesh2DGenerateGlobal.cpp:126-136`: width, height and number of points. -/
def widen (rad : K) (delta : K → K → K) (s : Cursor K) (d : K) : K × K × Bool :=
  if short rad d && !s.pent then (2 * s.lon, delta s.cur (2 * s.lon), true) else (s.lon, d, false)

/-- `Mesh2DGenerateGlobal.cpp:116-142`; `delta` is `DeltaLatitude`. -/
def nextRow (rad : K) (delta : K → K → K) (s : Cursor K) : Row K :=
  let d := delta s.cur s.lon
  if s.cur + 3 / 2 * d > 90 then ⟨s.cur, s.lon, 90 - s.cur, false, true⟩
  else
    let w := widen rad delta s d
    ⟨s.cur, w.1, if s.cur + 3 / 2 * w.2.1 > 90 then 51 / 100 * (90 - s.cur) else w.2.1, w.2.2, false⟩

/-- The points of a face, `Mesh2DGenerateGlobal.cpp:146-164`. -/
def facePoints (r : Row K) (pent : Bool) (j : Nat) : List (K × K) :=
  let x := j * r.lon - 180
  if pent then [(x, r.cur), (x + 1 / 2 * r.lon, r.cur), (x + r.lon, r.cur), (x + r.lon, r.cur + r.height), (x, r.cur + r.height)]
  else [(x, r.cur), (x + r.lon, r.cur), (x + r.lon, r.cur + r.height), (x, r.cur + r.height)]

/-- The face to the south, `Mesh2DGenerateGlobal.cpp:57-58`. -/
def mirror (f : List (K × K)) : List (K × K) := f.map fun p => (p.1, -p.2)

/-- The loop `Mesh2DGenerateGlobal.cpp:144-172` over the places; also `pentagonFace` afterwards. -/
def drawPlaces (r : Row K) : List Nat → Bool → List (List (K × K)) × Bool
  | [], pent => ([], pent)
  | j :: js, pent =>
    if j * r.lon - 180 + r.lon ≤ 180 then
      let q := drawPlaces r js false
      (facePoints r pent j :: mirror (facePoints r pent j) :: q.1, q.2)
    else drawPlaces r js pent

/-- The faces of a row, and `pentagonFace` afterwards. -/
def drawRow (n : Nat) (r : Row K) : List (List (K × K)) × Bool := drawPlaces r (List.range n) r.pent

/-- The rows, `Mesh2DGenerateGlobal.cpp:114-180`, with at most `k` more. -/
def rows (rad : K) (delta : K → K → K) (n : Nat) : Nat → Cursor K → List (Row K)
  | 0, _ => []
  | k + 1, s =>
    let r := nextRow rad delta s
    r :: if r.last then [] else rows rad delta n k ⟨r.cur + r.height, r.lon, (drawRow n r).2⟩

/-- The start, `Mesh2DGenerateGlobal.cpp:106-108`. -/
def start (n : Nat) : Cursor K := ⟨0, 360 / n, false⟩

/-- All rows of a global mesh. -/
def allRows (rad : K) (delta : K → K → K) (n k : Nat) : List (Row K) := rows rad delta n k (start n)

/-- The faces drawn by `Compute`, `Mesh2DGenerateGlobal.cpp:88-217`; `spherical` tells if the projection is one of the two spherical ones. -/
def compute (rad : K) (delta : K → K → K) (spherical : Bool) (n k : Nat) : Res (List (List (K × K))) :=
  if n = 0 then .throw
  else if k = 0 then .throw
  else if !spherical then .throw
  else .ok ((allRows rad delta n k).flatMap fun r => (drawRow n r).1)

/-- `mkernel_mesh2d_make_global`, `MeshKernel.cpp:1657-1685`: the numbers are converted to unsigned ones. -/
def makeGlobal (rad : K) (delta : K → K → K) (spherical : Bool) (n k : Int) : Res (List (List (K × K))) :=
  if n = 0 then .throw
  else if k = 0 then .throw
  else compute rad delta spherical (n % 2 ^ 32).toNat (k % 2 ^ 32).toNat

end
end Verif.Globe
