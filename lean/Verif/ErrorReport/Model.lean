import Verif.Basic
/-!
# Error reporting of the C interface

Characters are numbers, 0 is the terminating NUL.
-/
namespace Verif.ErrorReport

/-- The classes derived from `MeshKernelError` other than `MeshGeometryError`,
`Exceptions.hpp:141-360`. -/
inductive Kind where
  | meshKernel | notImplemented | algorithm | constraint | linearAlgebra | range
  deriving DecidableEq, Repr

/-- An exception reaching `HandleException`; `what` is the text returned by `what()`. -/
inductive Exc where
  | geometry (what : List Nat) (index : Nat) (location : Int)
  | kernel (k : Kind) (what : List Nat)
  | stdlib (what : List Nat)
  | unknown
  deriving DecidableEq, Repr

/-- `Category().Code()` of each class, `Exceptions.hpp:141-360`, with `ExitCode`,
`Exceptions.hpp:51-63`. -/
def kindCode : Kind → Int
  | .meshKernel => 1
  | .notImplemented => 2
  | .algorithm => 3
  | .constraint => 4
  | .linearAlgebra => 6
  | .range => 7

/-- `std::strncpy(dst, src, n)`: copy up to the terminating NUL, pad with NULs to `n` characters;
writing past the end of `dst` is undefined behaviour.  `src` is the characters before its NUL. -/
def strncpy : Nat → List Nat → List Nat → Res (List Nat)
  | 0, _, dst => .ok dst
  | _ + 1, _, [] => .ub
  | n + 1, [], _ :: dst => do
    let r ← strncpy n [] dst
    .ok (0 :: r)
  | n + 1, c :: src, _ :: dst => do
    if c = 0 then
      let r ← strncpy n [] dst
      .ok (0 :: r)
    else
      let r ← strncpy n src dst
      .ok (c :: r)

/-- `bufferSize`, `MeshKernel.cpp:110`. -/
def bufferSize : Nat := 512
/-- `maxCharsToCopy`, `MeshKernel.cpp:111`. -/
def maxChars : Nat := bufferSize - 1
/-- The literal `"Unknown exception"`, `MeshKernel.cpp:145`. -/
def unknownText : List Nat := "Unknown exception".toList.map Char.toNat

/-- The error state, `MeshKernel.cpp:112-115`. -/
structure State where
  buffer : List Nat
  index : Nat
  location : Int
  deriving DecidableEq, Repr

/-- The static initialisers, `MeshKernel.cpp:112-115`; `Location::Unknown` is 3. -/
def init : State := ⟨List.replicate bufferSize 0, 0, 3⟩

/-- `HandleException`, `MeshKernel.cpp:120-148`. -/
def handle (s : State) : Exc → Res (Int × State)
  | .geometry w i l => do
    let b ← strncpy maxChars w s.buffer
    .ok (5, ⟨b, i, l⟩)
  | .kernel k w => do
    let b ← strncpy maxChars w s.buffer
    .ok (kindCode k, { s with buffer := b })
  | .stdlib w => do
    let b ← strncpy maxChars w s.buffer
    .ok (8, { s with buffer := b })
  | .unknown => do
    let b ← strncpy maxChars unknownText s.buffer
    .ok (9, { s with buffer := b })

/-- The frame of every function of the interface, e.g. `mkernel_is_valid_state`,
`MeshKernel.cpp:167-181`: success is assumed, an exception replaces it.  `none` is a body that
returns normally. -/
def call (s : State) : Option Exc → Res (Int × State)
  | none => .ok (0, s)
  | some e => handle s e

/-- `mkernel_get_error`, `MeshKernel.cpp:3365-3370`: copies the whole buffer into the caller's. -/
def getError (s : State) (caller : List Nat) : Res (List Nat) :=
  if caller.length < s.buffer.length then .ub else .ok (s.buffer ++ caller.drop s.buffer.length)

/-- `mkernel_get_geometry_error`, `MeshKernel.cpp:3449-3455` (the casts to `int` are not modelled). -/
def getGeometryError (s : State) : Nat × Int := (s.index, s.location)

/-- A sequence of calls; the exit codes they return and the state afterwards. -/
def run : State → List (Option Exc) → Res (List Int × State)
  | s, [] => .ok ([], s)
  | s, c :: cs => do
    let r ← call s c
    let q ← run r.2 cs
    .ok (r.1 :: q.1, q.2)

end Verif.ErrorReport
