import Verif.Basic
import Verif.Undo.Model
/-!
# Model of the API state

Models the global state of `libs/MeshKernelApi/src/MeshKernel.cpp` (106-118), the
life cycle and undo functions (150-388), `State.hpp`, `MKStateUndoAction.cpp` and the
way every other API function uses them.

A kernel holds five shared pointers to heap objects and (non-owning, through the
interactive algorithm instances) further references to such objects.  Undo records hold
either a reference to one object (`edit`) or a reference to the state of a kernel
together with five saved shared pointers (`snap`).  The model keeps addresses apart
from contents, so that dangling references are visible: using an object that no shared
pointer owns, a null pointer, or the state of an erased kernel is `Res.ub`.

The contents `V` of the objects and the private data `π` of the edit actions are
abstract; what an API function computes is a parameter of the call.

Simplifications: objects of different kernels are never shared, hence the heap is
indexed by kernel id and address.  The instance `m_curvilinearGridFromSplines` owns its
data and is left out.  `int` overflow of the counter is left out.
-/
namespace Verif.Api
open Verif.Undo

/-- The five geometry objects of a kernel, `State.hpp:62-66`. -/
inductive Field | mesh1d | network1d | mesh2d | contacts | grid
  deriving DecidableEq, Repr

def Field.all : List Field := [.mesh1d, .network1d, .mesh2d, .contacts, .grid]

def Field.idx : Field → Nat
  | .mesh1d => 0 | .network1d => 1 | .mesh2d => 2 | .contacts => 3 | .grid => 4

/-- The interactive algorithm instances that hold a reference to an object of the
kernel, `State.hpp:69,71,72`. -/
inductive Alg | orth | gridOrth | shift
  deriving DecidableEq, Repr

/-- The object an interactive algorithm works on (`MeshKernel.cpp:1283`, `4312`, `4553`). -/
def Alg.field : Alg → Field
  | .orth => .mesh2d | .gridOrth => .grid | .shift => .grid

/-- Addresses of heap objects. -/
scoped notation "Addr" => Nat

/-- `MeshKernelState`, `State.hpp:45-76`.  `none` is a null pointer.  `alg a` is the
object the instance refers to. -/
structure Kernel where
  obj : Field → Option Addr
  alg : Alg → Option Addr
  proj : Int

/-- One undo action: a change of the object at an address (any `UndoAction` of the
MeshKernel library; it holds a reference to the mesh or grid), or an
`MKStateUndoAction` (`MKStateUndoAction.cpp:35-48`) with its saved pointers. -/
inductive Prim (π : Type)
  | edit (a : Addr) (p : π)
  | snap (obj : Field → Option Addr)

/-- The global variables, `MeshKernel.cpp:106-118`, and the heap.  The data of a record
is the list of its actions, last one first: one action, or the children of a
`CompoundUndoAction` (they change state together with the compound action). -/
structure St (π V : Type) where
  kernels : Int → Option Kernel
  heap : Int → Addr → V
  next : Addr
  counter : Int
  stack : Stack (List (Prim π))

/-- What the model is parameterised by: the undo actions of the library and the contents
of freshly constructed objects (`State.hpp:52-59`). -/
structure Env (π V : Type) where
  sem : Sem π V
  empty : Int → Field → V

variable {π V : Type}

/-- The shared pointers of the kernel or of a snapshot of it on the stack own the object. -/
def St.owned (s : St π V) (k : Int) (a : Addr) : Bool :=
  (match s.kernels k with
    | some K => Field.all.any (fun f => K.obj f == some a)
    | none => false) ||
  (s.stack.committed ++ s.stack.restored).any (fun r => r.target == k &&
    r.act.data.any (fun x => match x with
      | .edit _ _ => false
      | .snap q => Field.all.any (fun f => q f == some a)))

def St.setKernel (s : St π V) (k : Int) (K : Kernel) : St π V :=
  { s with kernels := upd s.kernels k (some K) }

def St.write (s : St π V) (k : Int) (a : Addr) (v : V) : St π V :=
  { s with heap := upd s.heap k (fun b => if b = a then v else s.heap k b) }

/-- The contents of the objects of a kernel (`none`: null pointer). -/
def St.view (s : St π V) (k : Int) (K : Kernel) : Field → Option V :=
  fun f => (K.obj f).map (s.heap k)

/-- Shared pointer of field `f` after fresh objects were stored in the fields `fs`. -/
def freshObj (next : Addr) (fs : List Field) (o : Field → Option Addr) : Field → Option Addr :=
  fun f => if f ∈ fs then some (next + f.idx) else o f

/-- `make_shared`/`make_unique` of new objects for the fields `fs` and assignment to the
pointers of the kernel. -/
def St.fresh (s : St π V) (k : Int) (K : Kernel) (fs : List Field) (vals : Field → V) : St π V :=
  { s with
    kernels := upd s.kernels k (some { K with obj := freshObj s.next fs K.obj })
    heap := upd s.heap k (fun a =>
      match fs.find? (fun f => s.next + f.idx = a) with
      | some f => vals f
      | none => s.heap k a)
    next := s.next + 5 }

/-- `meshKernelUndoStack.Add(action, id)` for an action on kernel `k`
(`UndoActionStack.cpp:11-37`); new actions are in the committed state, so the exception
of `Add` cannot occur. -/
def St.add (s : St π V) (data : Option (List (Prim π))) (id k : Int) : St π V :=
  match s.stack.add (data.map (fun d => ⟨.committed, d⟩)) id k with
  | .ok st => { s with stack := st }
  | .constraintError => s

/-- `DoRestore` of one action of a record on kernel `k`: an edit action works on its
object, a snapshot swaps the five pointers (`MKStateUndoAction.cpp:50-57`, `64-67`). -/
def restorePrim (sem : Sem π V) (k : Int) (s : St π V) : Prim π → Res (Prim π × St π V)
  | .edit a p =>
    if s.owned k a then
      .ok (.edit a (sem.doRestore p (s.heap k a)).1, s.write k a (sem.doRestore p (s.heap k a)).2)
    else .ub
  | .snap q =>
    match s.kernels k with
    | some K => .ok (.snap K.obj, s.setKernel k { K with obj := q })
    | none => .ub

/-- `DoCommit` of one action (`MKStateUndoAction.cpp:59-62`). -/
def commitPrim (sem : Sem π V) (k : Int) (s : St π V) : Prim π → Res (Prim π × St π V)
  | .edit a p =>
    if s.owned k a then
      .ok (.edit a (sem.doCommit p (s.heap k a)).1, s.write k a (sem.doCommit p (s.heap k a)).2)
    else .ub
  | .snap q =>
    match s.kernels k with
    | some K => .ok (.snap K.obj, s.setKernel k { K with obj := q })
    | none => .ub

/-- `CompoundUndoAction::DoRestore`, `CompoundUndoAction.cpp:34-40`: last action first. -/
def restoreList (sem : Sem π V) (k : Int) : List (Prim π) → St π V → Res (List (Prim π) × St π V)
  | [], s => .ok ([], s)
  | x :: xs, s => do
    let r ← restorePrim sem k s x
    let rs ← restoreList sem k xs r.2
    .ok (r.1 :: rs.1, rs.2)

/-- `CompoundUndoAction::DoCommit`, `CompoundUndoAction.cpp:26-32`: first action first. -/
def commitList (sem : Sem π V) (k : Int) : List (Prim π) → St π V → Res (List (Prim π) × St π V)
  | [], s => .ok ([], s)
  | x :: xs, s => do
    let rs ← commitList sem k xs s
    let r ← commitPrim sem k rs.2 x
    .ok (r.1 :: rs.1, r.2)

/-- `UndoActionStack::Undo`, `UndoActionStack.cpp:90-105`, with `UndoAction::Restore`,
`UndoAction.cpp:34-41`. -/
def St.undo (sem : Sem π V) (s : St π V) : Res (St π V × Option Int) :=
  match s.stack.committed with
  | [] => .ok (s, none)
  | r :: rest =>
    match r.act.state with
    | .restored => .ok ({ s with stack := { s.stack with
        committed := rest, restored := r :: s.stack.restored } }, some r.id)
    | .committed => do
      let d ← restoreList sem r.target r.act.data s
      .ok ({ d.2 with stack := { s.stack with
        committed := rest
        restored := ⟨⟨.restored, d.1⟩, r.id, r.target⟩ :: s.stack.restored } }, some r.id)

/-- `UndoActionStack::Commit`, `UndoActionStack.cpp:107-129`, with `UndoAction::Commit`,
`UndoAction.cpp:25-32`. -/
def St.redo (sem : Sem π V) (s : St π V) : Res (St π V × Option Int) :=
  match s.stack.restored with
  | [] => .ok (s, none)
  | r :: rest =>
    match r.act.state with
    | .committed => .ok ({ s with stack := { s.stack with
        restored := rest, committed := trim s.stack.maxSize (r :: s.stack.committed) } }, some r.id)
    | .restored => do
      let d ← commitList sem r.target r.act.data s
      .ok ({ d.2 with stack := { s.stack with
        restored := rest
        committed := trim s.stack.maxSize
          (⟨⟨.committed, d.1⟩, r.id, r.target⟩ :: s.stack.committed) } }, some r.id)

/-- Result of a library function that edits an object: it returns an undo action (or a
null pointer), or throws, leaving the contents `v` and possibly a record already added. -/
inductive EditOut (π V : Type)
  | ok (v : V) (act : Option π)
  | fail (v : V) (act : Option π)

/-- Result of the call that creates an interactive algorithm instance. -/
inductive InitOut (π V : Type)
  | skip
  | refuse
  | start (out : EditOut π V)

/-- What a caller sees: the exit code and the relevant output arguments. -/
inductive Out
  | ok
  | fail
  | id (k : Int)
  | valid (b : Bool)
  | undone (k : Option Int)
  | counts (c r : Nat)
  | projection (p : Int)
  deriving DecidableEq, Repr

/-- The calls.  Constructors with a parameter for the library function stand for all API
functions of that shape; the list is in `DESIGN.md`, section 3. -/
inductive Call (π V : Type)
  /-- `mkernel_allocate_state`, `MeshKernel.cpp:150-165`. -/
  | allocate (proj : Int)
  /-- `mkernel_is_valid_state`, `MeshKernel.cpp:167-181`. -/
  | isValid (k : Int)
  /-- `mkernel_deallocate_state`, `MeshKernel.cpp:183-215`. -/
  | deallocate (k : Int)
  /-- `mkernel_expunge_state`, `MeshKernel.cpp:217-235`. -/
  | expunge (k : Int)
  /-- `mkernel_set_undo_size`, `MeshKernel.cpp:237-255`. -/
  | setUndoSize (n : Int)
  /-- `mkernel_undo_state`, `MeshKernel.cpp:257-276`. -/
  | undo
  /-- `mkernel_redo_state`, `MeshKernel.cpp:322-341`. -/
  | redo
  /-- `mkernel_undo_state_count`, `MeshKernel.cpp:278-294`. -/
  | undoCount
  /-- `mkernel_undo_state_count_for_id`, `MeshKernel.cpp:296-320`. -/
  | undoCountFor (k : Int)
  /-- `mkernel_clear_state`, `MeshKernel.cpp:343-358`. -/
  | clearState
  /-- `mkernel_clear_undo_state`, `MeshKernel.cpp:360-373`. -/
  | clearUndo
  /-- `mkernel_clear_undo_state_for_id`, `MeshKernel.cpp:375-388`. -/
  | clearUndoFor (k : Int)
  /-- `mkernel_get_projection`, `MeshKernel.cpp:5304-5309`. -/
  | getProjection (k : Int)
  /-- `mkernel_mesh2d_get_closest_node`, `MeshKernel.cpp:2834-2869`. -/
  | closestNode (k : Int) (ask : V → Bool)
  /-- A function that only reads objects, e.g. `MeshKernel.cpp:741-759`. -/
  | query (k : Int) (reads : List Field) (ask : (Field → Option V) → Bool)
  /-- A function that edits one object in place and adds its undo action under the id
  of the kernel, e.g. `MeshKernel.cpp:2268-2290`. -/
  | edit (k : Int) (f : Field) (reads : List Field) (run : (Field → Option V) → V → EditOut π V)
  /-- `mkernel_mesh2d_snap_to_landboundary`, `MeshKernel.cpp:479-510`: adds its action
  without an id (line 503). -/
  | snapMesh (k : Int) (run : V → EditOut π V)
  /-- `mkernel_mesh2d_convert_projection`, `MeshKernel.cpp:1077-1118`; `proj` is the target
  of the conversion.  A mesh that has this projection already is left alone (1091). -/
  | convertProjection (k : Int) (proj : Int) (run : V → EditOut π V)
  /-- A function that changes an object in place without an undo action:
  `mkernel_network1d_compute_fixed_chainages` (`MeshKernel.cpp:676-700`),
  `…_compute_offsetted_chainages` (702-719), `mkernel_contacts_set` (1049-1075), and the
  queries that administrate the mesh (`mkernel_mesh2d_get_dimensions`, line 751,
  `…_count_hanging_edges`, 1153, `…_get_face_polygons`, 2420, and its `_dimension`, 2450). -/
  | assign (k : Int) (f : Field) (run : V → Option V)
  /-- A function that takes a snapshot and stores new objects in the pointers `fs`, e.g.
  `mkernel_mesh2d_set` (`MeshKernel.cpp:421-477`), `mkernel_mesh2d_convert_to_curvilinear`
  (1120-1140), `mkernel_curvilinear_set` (4588-4622). -/
  | replace (k : Int) (reads fs : List Field) (build : (Field → Option V) → Option (Field → V))
  /-- A function that takes a snapshot and then assigns *through* the pointer:
  `mkernel_network1d_set` (`MeshKernel.cpp:650-674`, line 665) and
  `mkernel_curvilinear_compute_circular_grid` (4272-4299, line 4289). -/
  | overwrite (k : Int) (f : Field) (build : V → Option V)
  /-- `mkernel_contacts_compute_*`, `MeshKernel.cpp:3521-3660`, `3725-3759`: snapshot, new
  empty `Contacts`, computation that may throw, then `Add`.  `compute` gives the
  contents afterwards and whether it succeeded. -/
  | contacts (k : Int) (compute : (Field → Option V) → V × Bool)
  /-- `mkernel_curvilinear_convert_to_mesh2d`, `MeshKernel.cpp:4748-4790`. -/
  | gridToMesh (k : Int) (check : V → V → Bool) (join : V → V → V × π) (emptyGrid : V)
  /-- `mkernel_mesh2d_initialize_orthogonalization` (`MeshKernel.cpp:1252-1297`),
  `mkernel_curvilinear_initialize_orthogonalize` (4301-4320),
  `mkernel_curvilinear_initialize_line_shift` (4532-4560). -/
  | initAlg (k : Int) (a : Alg) (run : V → InitOut π V)
  /-- A step of an interactive algorithm: `MeshKernel.cpp:1299-1345`, `1381-1403`
  (mesh orthogonalization: `guard` is "the mesh has nodes", no null check),
  `4322-4410` (grid orthogonalization, null check), `4562-4586`, `4624-4672` (line
  shift, no null check), `4674-4696` (null check). -/
  | stepAlg (k : Int) (a : Alg) (guard : Option (V → Bool)) (nullCheck : Bool)
      (run : V → EditOut π V)
  /-- The calls that drop the instance: `MeshKernel.cpp:1405-1427` (mesh orthogonalization:
  nothing happens without nodes, `guard`), `4412-4434` (null check), `4698-4715`. -/
  | dropAlg (k : Int) (a : Alg) (guard : Option (V → Bool)) (nullCheck : Bool)

/-- `GetValidProjections`: cartesian 0, spherical 1, spherical accurate 2. -/
def validProjection (p : Int) : Bool := p == 0 || p == 1 || p == 2

/-- The default constructed state (null pointers, cartesian), `State.hpp:49`, `62-75`,
which `operator[]` of the map inserts for an unknown key. -/
def nullKernel : Kernel := ⟨fun _ => none, fun _ => none, 0⟩

/-- Run `f` on the kernel with id `k`, or report an unknown id:
`if (!meshKernelState.contains(meshKernelId)) throw …`, the first statement of the API
functions (e.g. `MeshKernel.cpp:396-399`). -/
def St.withKernel (s : St π V) (k : Int) (f : Kernel → Res (St π V × Out)) : Res (St π V × Out) :=
  match s.kernels k with
  | none => .ok (s, .fail)
  | some K => f K

/-- The pointers of the fields that a call dereferences are not null. -/
def Kernel.present (K : Kernel) (fs : List Field) : Bool := fs.all (fun f => (K.obj f).isSome)

/-- The object of field `f` for a call that dereferences its pointer. -/
def St.derefThen (K : Kernel) (f : Field) (g : Addr → Res (St π V × Out)) : Res (St π V × Out) :=
  match K.obj f with
  | none => .ub
  | some a => g a

/-- In-place edit of the object at address `a`, followed by `Add` under `id`. -/
def St.editAt (s : St π V) (k id : Int) (a : Addr) : EditOut π V → St π V × Out
  | .ok v act => ((s.write k a v).add (act.map (fun p => [.edit a p])) id k, .ok)
  | .fail v act => ((s.write k a v).add (act.map (fun p => [.edit a p])) id k, .fail)

/-- Use of an algorithm instance: null dereference or exception when there is none;
undefined behaviour when the object it refers to has been freed (see `Call.stepAlg`). -/
def St.algStep (s : St π V) (k : Int) (K : Kernel) (al : Alg) (nullCheck : Bool)
    (run : V → EditOut π V) : Res (St π V × Out) :=
  match K.alg al with
  | none => if nullCheck then .ok (s, .fail) else .ub
  | some a => if s.owned k a then .ok (s.editAt k k a (run (s.heap k a))) else .ub

/-- `reset()` of an algorithm instance (see `Call.dropAlg`). -/
def St.algDrop (s : St π V) (k : Int) (K : Kernel) (al : Alg) (nullCheck : Bool) :
    Res (St π V × Out) :=
  match K.alg al with
  | none => if nullCheck then .ok (s, .fail) else .ok (s, .ok)
  | some _ =>
    .ok (s.setKernel k { K with alg := fun b => if b = al then none else K.alg b }, .ok)

/-- The effect of one call. -/
def St.step (E : Env π V) (s : St π V) : Call π V → Res (St π V × Out)
  | .allocate p =>
    if validProjection p then
      match s.kernels s.counter with
      | some _ => .ok ({ s with counter := s.counter + 1 }, .id s.counter)
      | none =>
        .ok ({ s.fresh s.counter ⟨fun _ => none, fun _ => none, p⟩ Field.all (E.empty p) with
                counter := s.counter + 1 }, .id s.counter)
    else .ok ({ s with counter := s.counter + 1 }, .fail)
  | .isValid k => .ok (s, .valid (s.kernels k).isSome)
  | .deallocate k => s.withKernel k fun K =>
      .ok ((s.fresh k { K with alg := fun _ => none } Field.all (E.empty K.proj)).add
        (some [.snap K.obj]) k k, .ok)
  | .expunge k => s.withKernel k fun _ =>
      .ok ({ s with kernels := upd s.kernels k none, stack := (s.stack.remove k).1 }, .ok)
  | .setUndoSize n =>
    if n < 0 then .ok (s, .fail)
    else .ok ({ s with stack := s.stack.setMaximumSize n.toNat }, .ok)
  | .undo => do
    let r ← s.undo E.sem
    .ok (r.1, .undone r.2)
  | .redo => do
    let r ← s.redo E.sem
    .ok (r.1, .undone r.2)
  | .undoCount => .ok (s, .counts s.stack.committed.length s.stack.restored.length)
  | .undoCountFor k =>
    match s.kernels k with
    | none => .ok (s, .counts 0 0)
    | some _ => .ok (s, .counts (s.stack.committedSize k) (s.stack.restoredSize k))
  | .clearState =>
    .ok ({ s with kernels := fun _ => none, stack := s.stack.clear, counter := 0 }, .ok)
  | .clearUndo => .ok ({ s with stack := s.stack.clear }, .ok)
  | .clearUndoFor k => .ok ({ s with stack := (s.stack.remove k).1 }, .ok)
  | .getProjection k =>
    match s.kernels k with
    | some K => .ok (s, .projection K.proj)
    | none => .ok (s.setKernel k nullKernel, .projection nullKernel.proj)
  | .closestNode k ask =>
    match s.kernels k with
    | none => .ub
    | some K => St.derefThen K .mesh2d fun a =>
        .ok (s, if ask (s.heap k a) then .ok else .fail)
  | .query k reads ask => s.withKernel k fun K =>
      if K.present reads then .ok (s, if ask (s.view k K) then .ok else .fail) else .ub
  | .edit k f reads run => s.withKernel k fun K =>
      if K.present reads then
        St.derefThen K f fun a => .ok (s.editAt k k a (run (s.view k K) (s.heap k a)))
      else .ub
  | .snapMesh k run => s.withKernel k fun K =>
      St.derefThen K .mesh2d fun a => .ok (s.editAt k missingInt a (run (s.heap k a)))
  | .convertProjection k p run => s.withKernel k fun K =>
      St.derefThen K .mesh2d fun a =>
        let r := s.editAt k k a (run (s.heap k a))
        .ok (match run (s.heap k a) with
          | .ok _ (some _) => (r.1.setKernel k { K with proj := p }, .ok)
          | _ => r)
  | .assign k f run => s.withKernel k fun K =>
      St.derefThen K f fun a =>
        match run (s.heap k a) with
        | some v => .ok (s.write k a v, .ok)
        | none => .ok (s, .fail)
  | .replace k reads fs build => s.withKernel k fun K =>
      if K.present reads then
        match build (s.view k K) with
        | none => .ok (s, .fail)
        | some vals => .ok ((s.fresh k K fs vals).add (some [.snap K.obj]) k k, .ok)
      else .ub
  | .overwrite k f build => s.withKernel k fun K =>
      St.derefThen K f fun a =>
        match build (s.heap k a) with
        | none => .ok (s, .fail)
        | some v => .ok ((s.write k a v).add (some [.snap K.obj]) k k, .ok)
  | .contacts k compute => s.withKernel k fun K =>
      if K.present [.mesh1d, .mesh2d] then
        let r := compute (s.view k K)
        if r.2 then .ok ((s.fresh k K [.contacts] (fun _ => r.1)).add (some [.snap K.obj]) k k, .ok)
        else .ok (s.fresh k K [.contacts] (fun _ => r.1), .fail)
      else .ub
  | .gridToMesh k check join emptyGrid => s.withKernel k fun K =>
      St.derefThen K .mesh2d fun m => St.derefThen K .grid fun g =>
        if check (s.heap k m) (s.heap k g) then
          let r := join (s.heap k m) (s.heap k g)
          .ok (((s.write k m r.1).fresh k K [.grid] (fun _ => emptyGrid)).add
            (some [.edit m r.2, .snap K.obj]) k k, .ok)
        else .ok (s, .fail)
  | .initAlg k al run => s.withKernel k fun K =>
      St.derefThen K al.field fun a =>
        match run (s.heap k a) with
        | .skip => .ok (s, .ok)
        | .refuse => .ok (s, .fail)
        | .start out =>
          .ok ((s.setKernel k { K with alg := fun b => if b = al then some a else K.alg b }).editAt
            k k a out)
  | .stepAlg k al guard nullCheck run => s.withKernel k fun K =>
      match guard with
      | some g => St.derefThen K al.field fun b =>
          if g (s.heap k b) then s.algStep k K al nullCheck run else .ok (s, .ok)
      | none => s.algStep k K al nullCheck run
  | .dropAlg k al guard nullCheck => s.withKernel k fun K =>
      match guard with
      | some g => St.derefThen K al.field fun b =>
          if g (s.heap k b) then s.algDrop k K al nullCheck else .ok (s, .ok)
      | none => s.algDrop k K al nullCheck
/-- A history of calls with their outputs. -/
def St.run (E : Env π V) : St π V → List (Call π V) → Res (St π V × List Out)
  | s, [] => .ok (s, [])
  | s, c :: cs => do
    let r ← s.step E c
    let rs ← St.run E r.1 cs
    .ok (rs.1, r.2 :: rs.2)

/-- The state when the library is loaded: no kernel, empty stack of the given size
(`MeshKernel.cpp:106-118`). -/
def St.init (maxSize : Nat) (h : Int → Addr → V) : St π V :=
  ⟨fun _ => none, h, 0, 0, ⟨[], [], maxSize⟩⟩

end Verif.Api
