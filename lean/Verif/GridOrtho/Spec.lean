import Verif.GridOrtho.Model
/-!
# Specification: what orthogonalisation may move
-/
namespace Verif.GridOrtho
open Verif.Smooth (NodeType)
variable {K : Type} [Field K] [DecidableEq K]

/-- The node lies in the block, its corners included. -/
def InBlock (s : Setup K) (n m : Nat) : Prop := s.lo.1 ≤ n ∧ n ≤ s.up.1 ∧ s.lo.2 ≤ m ∧ m ≤ s.up.2

/-- The node lies on a grid line between a left corner and a right corner, with no other left corner between them. -/
def BetweenH (s : Setup K) (n m : Nat) : Prop :=
  ∃ st e, st < n ∧ n < e ∧ e < s.numN ∧ (s.types st m = .bottomLeft ∨ s.types st m = .upperLeft) ∧ (s.types e m = .bottomRight ∨ s.types e m = .upperRight) ∧
    ∀ i, st < i → i < e → s.types i m ≠ .bottomLeft ∧ s.types i m ≠ .upperLeft

/-- The node lies on a grid line between a lower corner and an upper corner, with no other lower corner between them. -/
def BetweenV (s : Setup K) (n m : Nat) : Prop :=
  ∃ st e, st < m ∧ m < e ∧ e < s.numM ∧ (s.types n st = .bottomLeft ∨ s.types n st = .bottomRight) ∧ (s.types n e = .upperLeft ∨ s.types n e = .upperRight) ∧
    ∀ i, st < i → i < e → s.types n i ≠ .bottomLeft ∧ s.types n i ≠ .bottomRight

/-- The types of the nodes of a grid without missing nodes. -/
def fullTypes (N M n m : Nat) : NodeType :=
  if m = 0 then (if n = 0 then .bottomLeft else if n = N - 1 then .bottomRight else .bottom)
  else if m = M - 1 then (if n = 0 then .upperLeft else if n = N - 1 then .upperRight else .up)
  else if n = 0 then .left else if n = N - 1 then .right else .internal

/-- A grid without missing nodes that is orthogonalised as a whole. -/
structure Whole (s : Setup K) : Prop where
  wide : 2 ≤ s.numN
  high : 2 ≤ s.numM
  lo : s.lo = (0, 0)
  up : s.up = (s.numN - 1, s.numM - 1)
  types : ∀ n m, n < s.numN → m < s.numM → s.types n m = fullTypes s.numN s.numM n m
  mask : ∀ n m, s.mask n m = true

/-- The nodes of a rectangular grid with cells of `h` by `k`. -/
def rectangle (h k : K) : Nodes K := fun n m => some (h * n, k * m)

end Verif.GridOrtho
