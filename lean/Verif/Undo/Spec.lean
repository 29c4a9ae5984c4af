import Verif.Undo.Model
/-!
# Specification: a snapshot history

The abstract machine a user has in mind.  It stores whole snapshots of the contents
of a kernel; it knows nothing about undo actions.
-/
namespace Verif.Undo

/-- Snapshot machine.  `past` holds, newest edit first, the kernel and its contents
before the edit; `future` holds, most recently undone first, the kernel and its
contents after the undone edit. -/
structure Snap (S : Type) where
  world : Int → S
  past : List (Int × S)
  future : List (Int × S)
  bound : Nat

namespace Snap
variable {S : Type}

/-- An edit of kernel `k` to the new contents `s`; `recorded` tells whether the call
produced something to undo.  Only the newest `bound` snapshots are kept and undone
edits of the same kernel can no longer be redone. -/
def edit (m : Snap S) (k : Int) (s : S) (recorded : Bool) : Snap S :=
  if recorded && decide (0 < m.bound) then
    { m with
      world := upd m.world k s
      past := ((k, m.world k) :: m.past).take m.bound
      future := m.future.filter (fun p => p.1 ≠ k) }
  else { m with world := upd m.world k s }

/-- Go back to the newest snapshot. -/
def undo (m : Snap S) : Snap S × Option Int :=
  match m.past with
  | [] => (m, none)
  | (k, s) :: p =>
    ({ m with world := upd m.world k s, past := p, future := (k, m.world k) :: m.future }, some k)

/-- Go forward to the most recently left snapshot. -/
def redo (m : Snap S) : Snap S × Option Int :=
  match m.future with
  | [] => (m, none)
  | (k, s) :: f =>
    ({ m with world := upd m.world k s, past := ((k, m.world k) :: m.past).take m.bound,
              future := f }, some k)

def setBound (m : Snap S) (n : Nat) : Snap S :=
  { m with past := m.past.take n, future := if n = 0 then [] else m.future, bound := n }

def clear (m : Snap S) : Snap S := { m with past := [], future := [] }

/-- Forget everything recorded for kernel `k`. -/
def remove (m : Snap S) (k : Int) : Snap S :=
  { m with past := m.past.filter (fun p => p.1 ≠ k), future := m.future.filter (fun p => p.1 ≠ k) }

def step {π : Type} (m : Snap S) : Op π S → Snap S × Option Int
  | .edit k e => (m.edit k (e.run (m.world k)).1 (e.run (m.world k)).2.isSome, none)
  | .undo => m.undo
  | .redo => m.redo
  | .setMaximumSize n => (m.setBound n, none)
  | .clear => (m.clear, none)
  | .remove k => (m.remove k, none)

def run {π : Type} (m : Snap S) : List (Op π S) → Snap S × List (Option Int)
  | [] => (m, [])
  | o :: os =>
    let r := m.step o
    let rs := run r.1 os
    (rs.1, r.2 :: rs.2)

end Snap

/-- Contract of an undo action: `a` records the change from `s` to `s'`.
Restoring in `s'` gives back `s`, and committing again in `s` gives `s'` and the same
action. -/
def Records {π S : Type} (sem : Sem π S) (a : π) (s s' : S) : Prop :=
  ∃ b, sem.doRestore a s' = (b, s) ∧ sem.doCommit b s = (a, s')

/-- An edit is lawful if the action it returns records its change; an edit that returns
no action changes nothing. -/
def Edit.Lawful {π S : Type} (sem : Sem π S) (e : Edit π S) : Prop :=
  ∀ s, match (e.run s).2 with
    | none => (e.run s).1 = s
    | some a => Records sem a s (e.run s).1

def Op.Lawful {π S : Type} (sem : Sem π S) : Op π S → Prop
  | .edit _ e => e.Lawful sem
  | _ => True

variable {π S : Type}

/-- A state reached by a lawful history. -/
def Reachable (sem : Sem π S) (w : World π S) : Prop :=
  ∃ n d os, (∀ o ∈ os, Op.Lawful sem o) ∧ w = ((World.init n d : World π S).run sem os).1

/-- Repeated undo (`n` times). -/
def undoN (sem : Sem π S) : Nat → World π S → World π S
  | 0, w => w
  | n + 1, w => undoN sem n (w.undo sem).1

/-- Repeated redo (`n` times). -/
def redoN (sem : Sem π S) : Nat → World π S → World π S
  | 0, w => w
  | n + 1, w => redoN sem n (w.redo sem).1

/-- Perform a list of edits of various kernels. -/
def edits (w : World π S) (es : List (Int × Edit π S)) : World π S :=
  es.foldl (fun w e => w.edit e.1 e.2) w

/-- The edits all record something, at the states at which they are performed. -/
def AllRecorded (d : Int → S) : List (Int × Edit π S) → Prop
  | [] => True
  | e :: es => (e.2.run (d e.1)).2.isSome ∧ AllRecorded (upd d e.1 (e.2.run (d e.1)).1) es


end Verif.Undo
