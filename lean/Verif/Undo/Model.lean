/-!
# Model of the undo stack

Models `libs/MeshKernel/src/UndoActions/UndoActionStack.cpp`,
`UndoAction.cpp` and `CompoundUndoAction.cpp`.

The data edited by undo actions is abstract: `S` is the contents of one kernel
(meshes, contacts, …) and `π` the private data of an undo action.  The virtual
functions `DoCommit`/`DoRestore` are the parameter `Sem`.
-/
namespace Verif.Undo

/-- `UndoAction::State` (`UndoAction.hpp`, used in `UndoAction.cpp:20-41`). -/
inductive AState | committed | restored
  deriving DecidableEq, Repr

/-- The virtual functions `DoRestore`/`DoCommit` of an action.  They may change the
private data of the action (e.g. swap it with the mesh contents), hence the pair. -/
structure Sem (π S : Type) where
  doRestore : π → S → π × S
  doCommit : π → S → π × S

/-- An `UndoAction` object: its state flag and private data. -/
structure Action (π : Type) where
  state : AState
  data : π
  deriving DecidableEq, Repr

/-- `UndoAction::Restore`, `UndoAction.cpp:34-41`: only acts in the committed state. -/
def Action.restore {π S} (sem : Sem π S) (a : Action π) (s : S) : Action π × S :=
  match a.state with
  | .committed => (⟨.restored, (sem.doRestore a.data s).1⟩, (sem.doRestore a.data s).2)
  | .restored => (a, s)

/-- `UndoAction::Commit`, `UndoAction.cpp:25-32`: only acts in the restored state. -/
def Action.commit {π S} (sem : Sem π S) (a : Action π) (s : S) : Action π × S :=
  match a.state with
  | .restored => (⟨.committed, (sem.doCommit a.data s).1⟩, (sem.doCommit a.data s).2)
  | .committed => (a, s)

/-- `UndoActionForMesh`, `UndoActionStack.hpp:110-117`: an action with the id under
which it was added.  `target` is the kernel whose data the action refers to (the C++
action holds a reference to the mesh); the API passes `id = target` except in one
call, see `Verif.Api`. -/
structure Record (π : Type) where
  act : Action π
  id : Int
  target : Int
  deriving DecidableEq, Repr

/-- `UndoActionStack`, `UndoActionStack.hpp:119-126`.  Both `std::list`s are stored
newest first, i.e. the head of the Lean list is `back()` of the C++ list and the last
element is `front()`. -/
structure Stack (π : Type) where
  committed : List (Record π)
  restored : List (Record π)
  maxSize : Nat
  deriving DecidableEq, Repr

/-- The stack together with the data of all kernels. -/
structure World (π S : Type) where
  stack : Stack π
  data : Int → S

/-- Update of the data of one kernel. -/
def upd {S : Type} (w : Int → S) (k : Int) (s : S) : Int → S := fun j => if j = k then s else w j

/-- `if (m_committed.size() > m_maxUndoSize) m_committed.pop_front();`,
`UndoActionStack.cpp:27-31` and `119-123`. -/
def trim {α : Type} (maxSize : Nat) (l : List α) : List α :=
  if l.length > maxSize then l.dropLast else l

/-- Outcome of `Add`: an exception or the new stack. -/
inductive AddResult (π : Type)
  | constraintError
  | ok (s : Stack π)

/-- `UndoActionStack::Add`, `UndoActionStack.cpp:11-37`.  `none` models a null pointer. -/
def Stack.add {π} (st : Stack π) (a : Option (Action π)) (id target : Int) : AddResult π :=
  match a with
  | none => .ok st
  | some a =>
    if st.maxSize > 0 then
      if a.state ≠ .committed then .constraintError
      else .ok { st with
        committed := trim st.maxSize (⟨a, id, target⟩ :: st.committed)
        restored := st.restored.filter (fun r => r.id ≠ id) }
    else .ok st

/-- `UndoActionStack::SetMaximumSize`, `UndoActionStack.cpp:39-57`: popping the front
`size - maximumSize` times keeps the newest `maximumSize` entries. -/
def Stack.setMaximumSize {π} (st : Stack π) (n : Nat) : Stack π :=
  if n = 0 then { committed := [], restored := [], maxSize := 0 }
  else if n < st.committed.length then
    { st with committed := st.committed.take n, maxSize := n }
  else { st with maxSize := n }

/-- `UndoActionStack::Size`, `UndoActionStack.cpp:59-62`. -/
def Stack.size {π} (st : Stack π) : Nat := st.committed.length + st.restored.length

/-- `constants::missing::intValue`. -/
def missingInt : Int := -999

/-- `UndoActionStack::CommittedSize`, `UndoActionStack.cpp:64-75`. -/
def Stack.committedSize {π} (st : Stack π) (id : Int := missingInt) : Nat :=
  if id = missingInt then st.committed.length
  else st.committed.countP (fun r => r.id = id)

/-- `UndoActionStack::RestoredSize`, `UndoActionStack.cpp:77-88`. -/
def Stack.restoredSize {π} (st : Stack π) (id : Int := missingInt) : Nat :=
  if id = missingInt then st.restored.length
  else st.restored.countP (fun r => r.id = id)

/-- `UndoActionStack::Undo`, `UndoActionStack.cpp:90-105`. -/
def World.undo {π S} (sem : Sem π S) (w : World π S) : World π S × Option Int :=
  match w.stack.committed with
  | [] => (w, none)
  | r :: rest =>
    let res := r.act.restore sem (w.data r.target)
    ({ stack := { w.stack with committed := rest, restored := { r with act := res.1 } :: w.stack.restored }
       data := upd w.data r.target res.2 }, some r.id)

/-- `UndoActionStack::Commit`, `UndoActionStack.cpp:107-129`. -/
def World.redo {π S} (sem : Sem π S) (w : World π S) : World π S × Option Int :=
  match w.stack.restored with
  | [] => (w, none)
  | r :: rest =>
    let res := r.act.commit sem (w.data r.target)
    ({ stack := { w.stack with
          restored := rest
          committed := trim w.stack.maxSize ({ r with act := res.1 } :: w.stack.committed) }
       data := upd w.data r.target res.2 }, some r.id)

/-- `UndoActionStack::Clear`, `UndoActionStack.cpp:131-135`. -/
def Stack.clear {π} (st : Stack π) : Stack π := { st with committed := [], restored := [] }

/-- `UndoActionStack::Remove`, `UndoActionStack.cpp:137-148`, with the returned count. -/
def Stack.remove {π} (st : Stack π) (id : Int) : Stack π × Nat :=
  ({ st with
      committed := st.committed.filter (fun r => r.id ≠ id)
      restored := st.restored.filter (fun r => r.id ≠ id) },
   st.committed.countP (fun r => r.id = id) + st.restored.countP (fun r => r.id = id))

/-- An API call that edits kernel `k` and adds the returned action to the stack with
`meshKernelUndoStack.Add(…, meshKernelId)` (pattern of every editing function in
`MeshKernelApi/src/MeshKernel.cpp`, e.g. 2268-2290).  `run` gives the new contents and
the action (`none`: a null pointer); freshly created actions are in the committed state
(`UndoAction.hpp`, default of `m_state`). -/
structure Edit (π S : Type) where
  run : S → S × Option π

/-- Perform an edit of kernel `k`. -/
def World.edit {π S} (w : World π S) (k : Int) (e : Edit π S) : World π S :=
  let res := e.run (w.data k)
  match w.stack.add (res.2.map (fun p => ⟨.committed, p⟩)) k k with
  | .ok st => { stack := st, data := upd w.data k res.1 }
  | .constraintError => { w with data := upd w.data k res.1 }

/-- Operations of a user on the kernels and the undo stack. -/
inductive Op (π S : Type)
  | edit (k : Int) (e : Edit π S)
  | undo
  | redo
  | setMaximumSize (n : Nat)
  | clear
  | remove (k : Int)

/-- One operation; the output is the id reported by undo/redo. -/
def World.step {π S} (sem : Sem π S) (w : World π S) : Op π S → World π S × Option Int
  | .edit k e => (w.edit k e, none)
  | .undo => w.undo sem
  | .redo => w.redo sem
  | .setMaximumSize n => ({ w with stack := w.stack.setMaximumSize n }, none)
  | .clear => ({ w with stack := w.stack.clear }, none)
  | .remove k => ({ w with stack := (w.stack.remove k).1 }, none)

/-- A history of operations, with the reported ids (oldest first). -/
def World.run {π S} (sem : Sem π S) (w : World π S) : List (Op π S) → World π S × List (Option Int)
  | [] => (w, [])
  | o :: os =>
    let r := w.step sem o
    let rs := World.run sem r.1 os
    (rs.1, r.2 :: rs.2)

/-- `UndoActionStack::UndoActionStack(maximumSize)`, `UndoActionStack.cpp:9`. -/
def World.init {π S} (maxSize : Nat) (d : Int → S) : World π S :=
  { stack := ⟨[], [], maxSize⟩, data := d }

end Verif.Undo

namespace Verif.Undo

/-- `CompoundUndoAction::DoCommit`, `CompoundUndoAction.cpp:26-32`: commit the children in
the order in which they were added. -/
def commitAll {π S} (sem : Sem π S) : List (Action π) → S → List (Action π) × S
  | [], s => ([], s)
  | a :: as, s =>
    let r := a.commit sem s
    let rs := commitAll sem as r.2
    (r.1 :: rs.1, rs.2)

/-- `CompoundUndoAction::DoRestore`, `CompoundUndoAction.cpp:34-40`: restore the children
in reverse order (the tail of the list first, then the head). -/
def restoreAll {π S} (sem : Sem π S) : List (Action π) → S → List (Action π) × S
  | [], s => ([], s)
  | a :: as, s =>
    let rs := restoreAll sem as s
    let r := a.restore sem rs.2
    (r.1 :: rs.1, r.2)

/-- `CompoundUndoAction` as an undo action whose private data is the list of children. -/
def compoundSem {π S} (sem : Sem π S) : Sem (List (Action π)) S where
  doRestore := restoreAll sem
  doCommit := commitAll sem

/-- `CompoundUndoAction::Add`, `CompoundUndoAction.cpp:13-24`: null pointers are ignored,
restored actions are rejected with an exception (`none`). -/
def compoundAdd {π} (as : List (Action π)) : Option (Action π) → Option (List (Action π))
  | none => some as
  | some a => if a.state = .restored then none else some (as ++ [a])

end Verif.Undo
