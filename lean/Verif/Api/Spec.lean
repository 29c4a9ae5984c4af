import Verif.Api.Model
import Verif.Undo.Spec
/-!
# Specification of the API state

When a history is well behaved, and the snapshot machine a user has in mind.
-/
namespace Verif.Api
open Verif.Undo

variable {π V : Type}

/-- Calls whose undo records and object references cannot dangle:
* not `mkernel_mesh2d_snap_to_landboundary`, whose record is filed without an id;
* `mkernel_get_projection` and `mkernel_mesh2d_get_closest_node` only for existing kernels;
* a step of an interactive algorithm only while its instance refers to the object that
  the kernel holds now (or when the function reports a missing instance);
* no undo action refers to a `Contacts` object (there is none in the library). -/
def Allowed (s : St π V) : Call π V → Prop
  | .snapMesh _ _ => False
  | .getProjection k => (s.kernels k).isSome
  | .closestNode k _ => (s.kernels k).isSome
  | .edit _ f _ _ => f ≠ .contacts
  | .stepAlg k al _ nullCheck _ => ∀ K, s.kernels k = some K →
      K.alg al = K.obj al.field ∨ (nullCheck = true ∧ K.alg al = none)
  | _ => True

/-- Every call of the history is allowed when it is made. -/
def AllowedRun (E : Env π V) : St π V → List (Call π V) → Prop
  | _, [] => True
  | s, c :: cs => Allowed s c ∧ ∀ r, s.step E c = .ok r → AllowedRun E r.1 cs

/-- States reached by allowed histories from the loading of the library. -/
def Reached (E : Env π V) (s : St π V) : Prop :=
  ∃ n h cs outs, AllowedRun E (St.init n h) cs ∧ St.run E (St.init n h) cs = .ok (s, outs)

/-- All records on the stack. -/
def St.records (s : St π V) : List (Record (List (Prim π))) :=
  s.stack.committed ++ s.stack.restored

/-- The kernel id a call is given, if any. -/
def Call.id? : Call π V → Option Int
  | .allocate _ | .setUndoSize _ | .undo | .redo | .undoCount | .clearState | .clearUndo => none
  | .isValid k | .deallocate k | .expunge k | .undoCountFor k | .clearUndoFor k
  | .getProjection k | .closestNode k _ | .query k _ _ | .edit k _ _ _ | .snapMesh k _
  | .convertProjection k _ _ | .assign k _ _ | .replace k _ _ _ | .overwrite k _ _
  | .contacts k _ | .gridToMesh k _ _ _ | .initAlg k _ _ | .stepAlg k _ _ _ _
  | .dropAlg k _ _ _ => some k

/-- The ids that allocations returned. -/
def Out.id? : Out → Option Int
  | .id k => some k
  | _ => none

end Verif.Api

namespace Verif.Api
open Verif.Undo

variable {π V : Type}

/-- What a user keeps in mind: the contents of the existing kernels, and whole copies of
the contents before each recorded change (`past`, newest first) and after each undone
change (`future`, most recently undone first).  No objects, no pointers, no actions. -/
structure Book (V : Type) where
  world : Int → Option (Field → V)
  proj : Int → Int
  past : List (Int × (Field → V))
  future : List (Int × (Field → V))
  bound : Nat
  counter : Int

namespace Book

/-- A recorded change of kernel `k` from `c` to `c'`. -/
def change (b : Book V) (k : Int) (c c' : Field → V) : Book V :=
  if 0 < b.bound then
    { b with
      world := upd b.world k (some c')
      past := ((k, c) :: b.past).take b.bound
      future := b.future.filter (fun p => p.1 ≠ k) }
  else { b with world := upd b.world k (some c') }

/-- New contents in one field. -/
def put (c : Field → V) (f : Field) (v : V) : Field → V := fun g => if g = f then v else c g

/-- What the editing function `out` makes of field `f` of kernel `k`. -/
def editField (b : Book V) (k : Int) (c : Field → V) (f : Field) : EditOut π V → Book V × Out
  | .ok v (some _) => (b.change k c (put c f v), .ok)
  | .ok _ none => (b, .ok)
  | .fail _ _ => (b, .fail)

def withKernel (b : Book V) (k : Int) (f : (Field → V) → Book V × Out) : Book V × Out :=
  match b.world k with
  | none => (b, .fail)
  | some c => f c

/-- Expected effect of each call on the contents. -/
def step (E : Env π V) (b : Book V) : Call π V → Book V × Out
  | .allocate p =>
    if validProjection p then
      ({ b with world := upd b.world b.counter (some (E.empty p)), proj := upd b.proj b.counter p,
                counter := b.counter + 1 }, .id b.counter)
    else ({ b with counter := b.counter + 1 }, .fail)
  | .isValid k => (b, .valid (b.world k).isSome)
  | .deallocate k => b.withKernel k fun c => (b.change k c (E.empty (b.proj k)), .ok)
  | .expunge k => b.withKernel k fun _ =>
      ({ b with world := upd b.world k none, past := b.past.filter (fun p => p.1 ≠ k),
                future := b.future.filter (fun p => p.1 ≠ k) }, .ok)
  | .setUndoSize n =>
    if n < 0 then (b, .fail)
    else ({ b with past := b.past.take n.toNat, future := if n.toNat = 0 then [] else b.future,
                   bound := n.toNat }, .ok)
  | .undo =>
    match b.past with
    | [] => (b, .undone none)
    | (k, c) :: p =>
      match b.world k with
      | none => (b, .undone none)
      | some now => ({ b with world := upd b.world k (some c), past := p,
                              future := (k, now) :: b.future }, .undone (some k))
  | .redo =>
    match b.future with
    | [] => (b, .undone none)
    | (k, c) :: p =>
      match b.world k with
      | none => (b, .undone none)
      | some now => ({ b with world := upd b.world k (some c), future := p,
                              past := ((k, now) :: b.past).take b.bound }, .undone (some k))
  | .undoCount => (b, .counts b.past.length b.future.length)
  | .undoCountFor k =>
    match b.world k with
    | none => (b, .counts 0 0)
    | some _ =>
      if k = missingInt then (b, .counts b.past.length b.future.length)
      else (b, .counts (b.past.countP (fun p => p.1 = k)) (b.future.countP (fun p => p.1 = k)))
  | .clearState =>
    ({ b with world := fun _ => none, past := [], future := [], counter := 0 }, .ok)
  | .clearUndo => ({ b with past := [], future := [] }, .ok)
  | .clearUndoFor k =>
    ({ b with past := b.past.filter (fun p => p.1 ≠ k),
              future := b.future.filter (fun p => p.1 ≠ k) }, .ok)
  | .getProjection k => b.withKernel k fun _ => (b, .projection (b.proj k))
  | .closestNode k ask => b.withKernel k fun c => (b, if ask (c .mesh2d) then .ok else .fail)
  | .query k _ ask => b.withKernel k fun c => (b, if ask (fun f => some (c f)) then .ok else .fail)
  | .edit k f _ run => b.withKernel k fun c => b.editField k c f (run (fun g => some (c g)) (c f))
  | .snapMesh k run => b.withKernel k fun c => b.editField k c .mesh2d (run (c .mesh2d))
  | .convertProjection k p run => b.withKernel k fun c =>
      match run (c .mesh2d) with
      | .ok v (some _) => ({ b.change k c (put c .mesh2d v) with proj := upd b.proj k p }, .ok)
      | out => b.editField k c .mesh2d out
  | .assign k f run => b.withKernel k fun c =>
      match run (c f) with
      | some v => (b.change k c (put c f v), .ok)
      | none => (b, .fail)
  | .replace k _ fs build => b.withKernel k fun c =>
      match build (fun f => some (c f)) with
      | none => (b, .fail)
      | some vals => (b.change k c (fun f => if f ∈ fs then vals f else c f), .ok)
  | .overwrite k f build => b.withKernel k fun c =>
      match build (c f) with
      | none => (b, .fail)
      | some v => (b.change k c (put c f v), .ok)
  | .contacts k compute => b.withKernel k fun c =>
      if (compute (fun f => some (c f))).2 then
        (b.change k c (put c .contacts (compute (fun f => some (c f))).1), .ok)
      else (b, .fail)
  | .gridToMesh k check join emptyGrid => b.withKernel k fun c =>
      if check (c .mesh2d) (c .grid) then
        (b.change k c (put (put c .mesh2d (join (c .mesh2d) (c .grid)).1) .grid emptyGrid), .ok)
      else (b, .fail)
  | .initAlg k al run => b.withKernel k fun c =>
      match run (c al.field) with
      | .skip => (b, .ok)
      | .refuse => (b, .fail)
      | .start out => b.editField k c al.field out
  | .stepAlg k al _ _ run => b.withKernel k fun c => b.editField k c al.field (run (c al.field))
  | .dropAlg k _ _ _ => b.withKernel k fun _ => (b, .ok)

def run (E : Env π V) : Book V → List (Call π V) → Book V × List Out
  | b, [] => (b, [])
  | b, c :: cs =>
    let r := b.step E c
    let rs := run E r.1 cs
    (rs.1, r.2 :: rs.2)

def init (maxSize : Nat) : Book V := ⟨fun _ => none, fun _ => 0, [], [], maxSize, 0⟩

end Book

/-- The contract of a library function that edits an object with contents `v`: its undo
action records the change; without action nothing changed; a failing one changes and
records nothing. -/
def EditOut.Lawful (sem : Sem π V) (v : V) : EditOut π V → Prop
  | .ok v' none => v' = v
  | .ok v' (some p) => Records sem p v v'
  | .fail v' act => v' = v ∧ act = none

/-- The calls for which undo is promised: the edits keep their contract, contacts are
computed successfully, and the calls that change an object without a usable record
(`assign`, `overwrite`) are left out. -/
def Recorded (E : Env π V) (s : St π V) : Call π V → Prop
  | .snapMesh _ _ => False
  | .assign _ _ _ => False
  | .overwrite _ _ _ => False
  | .getProjection k => (s.kernels k).isSome
  | .closestNode k _ => (s.kernels k).isSome
  | .edit _ f _ run => f ≠ .contacts ∧ ∀ c v, (run c v).Lawful E.sem v
  | .convertProjection _ _ run => ∀ v, (run v).Lawful E.sem v
  | .contacts _ compute => ∀ c, (compute c).2 = true
  | .gridToMesh _ check join _ => ∀ m g, check m g = true → Records E.sem (join m g).2 m (join m g).1
  | .initAlg _ _ run => ∀ v out, run v = .start out → out.Lawful E.sem v
  | .stepAlg k al guard _ run => guard = none ∧ (∀ v, (run v).Lawful E.sem v) ∧
      ∀ K, s.kernels k = some K → K.alg al = K.obj al.field
  | .dropAlg k al _ nullCheck => nullCheck = false ∨ ∀ K, s.kernels k = some K → (K.alg al).isSome
  | _ => True

def RecordedRun (E : Env π V) : St π V → List (Call π V) → Prop
  | _, [] => True
  | s, c :: cs => Recorded E s c ∧ ∀ r, s.step E c = .ok r → RecordedRun E r.1 cs

/-- The API state shows the contents of the book. -/
def Shows (s : St π V) (b : Book V) : Prop :=
  ∀ k, match s.kernels k, b.world k with
    | none, none => True
    | some K, some c => ∀ f, (K.obj f).map (s.heap k) = some (c f)
    | _, _ => False

end Verif.Api
