import Verif.Mesh.UndoModel
import Mathlib.Analysis.SpecialFunctions.Trigonometric.Basic
/-!
# Model: translation and rotation of a mesh

Models `libs/MeshKernel/include/MeshKernel/MeshTransformation.hpp` and the calls in `MeshKernel.cpp`. Coordinates are real numbers.
-/
namespace Verif.Transform
open Verif.Mesh

/-- `Point`, `Vector`. -/
@[ext] structure Pt where
  x : ℝ
  y : ℝ

/-- Sum of a point and a vector, as in `MeshTransformation.hpp:99` and `93`. -/
def Pt.add (p v : Pt) : Pt := ⟨p.x + v.x, p.y + v.y⟩

/-- `constants::conversion::degToRad`, `libs/MeshKernel/include/MeshKernel/Constants.hpp:73`. -/
noncomputable def degToRad : ℝ := Real.pi / 180

/-- `Rotation::operator()`, `MeshTransformation.hpp:143-168`, for a rotation by `angle` degrees. -/
noncomputable def rotate (angle : ℝ) (p : Pt) : Pt :=
  ⟨Real.cos (angle * degToRad) * p.x - Real.sin (angle * degToRad) * p.y, Real.sin (angle * degToRad) * p.x + Real.cos (angle * degToRad) * p.y⟩

/-- `RigidBodyTransformation`, `MeshTransformation.hpp:190-260`: the angle of the rotation and the translation. -/
structure Rigid where
  angle : ℝ
  shift : Pt

/-- The default transformation, `MeshTransformation.hpp:110, 179-186, 194`. -/
def Rigid.start : Rigid := ⟨0, ⟨0, 0⟩⟩

/-- `compose(const Rotation&)`, `MeshTransformation.hpp:212-216, 157-160`. -/
noncomputable def Rigid.turn (r : Rigid) (angle : ℝ) : Rigid := ⟨angle + r.angle, rotate angle r.shift⟩

/-- `compose(const Translation&)`, `MeshTransformation.hpp:221-224, 91-94`. -/
def Rigid.move (r : Rigid) (v : Pt) : Rigid := ⟨r.angle, v.add r.shift⟩

/-- `operator()`, `MeshTransformation.hpp:239-244`. -/
noncomputable def Rigid.apply (r : Rigid) (p : Pt) : Pt := (rotate r.angle p).add r.shift

/-- The transformation `mkernel_mesh2d_rotate` makes, `MeshKernel.cpp:2909-2917`. -/
noncomputable def rotationAbout (c : Pt) (angle : ℝ) : Rigid := ((Rigid.start.move ⟨-c.x, -c.y⟩).turn angle).move c

/-- The places of a list with their entries. -/
def numbered {α : Type} (l : List α) : List (Nat × α) := (List.range' 0 l.length).zip l

/-- `MeshTransformation::Compute`, `MeshTransformation.hpp:268-298`, with `NodeTranslationAction::Create(mesh)`. `gone` tells that a point is taken for a
missing one, because a coordinate is -999 (`Point.hpp:116-122`). The search for the faces is left out. -/
def transform (cartesian : Bool) (gone : Pt → Bool) (order : Nat → List Nat → List Nat) (f : Pt → Pt) (m : Mesh Pt) : Res (List (Act Pt) × Mesh Pt) :=
  if !cartesian then .throw
  else do
    let m' ← administrate order { m with nodes := m.nodes.map (fun v => v.bind (fun p => if gone (f p) then none else some (f p))) }
    .ok ([.translate (numbered m.nodes)], m')

end Verif.Transform
