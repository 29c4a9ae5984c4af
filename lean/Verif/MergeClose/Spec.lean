import Verif.MergeClose.Model
import Verif.Mesh.UndoLemmas
import Mathlib.Logic.Relation
import Mathlib.Algebra.BigOperators.Group.Finset.Basic
import Mathlib.Data.Finset.Range
/-!
# Specification: merging the nodes that lie close together

Independent of the tree and of the order in which nodes are merged.
-/
namespace Verif.MergeClose
open Verif.Mesh
variable {P : Type}

/-- Node `i` is selected and lies at `p`. -/
def Chosen (polygons : List (P → Bool)) (m : Mesh P) (i : Nat) (p : P) : Prop := (m.nodes[i]?).join = some p ∧ inFirst polygons (some p) = true

/-- Two different selected nodes that lie close together. -/
def Near (close : P → P → Bool) (polygons : List (P → Bool)) (m : Mesh P) (i j : Nat) : Prop :=
  i ≠ j ∧ ∃ p q, Chosen polygons m i p ∧ Chosen polygons m j q ∧ close p q = true

/-- `j` is reached from `i` by steps between selected nodes that lie close together. -/
def Chain (close : P → P → Bool) (polygons : List (P → Bool)) (m : Mesh P) : Nat → Nat → Prop :=
  Relation.ReflTransGen (Near close polygons m)

/-- The mesh has a drawn edge between the nodes `x` and `y`. -/
def Drawn (m : Mesh P) (x y : Nat) : Prop := ∃ e ∈ m.edges, (seg m.nodes e).isSome ∧ joins e x y

/-- The number of drawn edges at node `n`. -/
def degree (m : Mesh P) (n : Nat) : Nat :=
  (List.range m.edges.length).countP (fun i => (seg m.nodes (edgeAt m i)).isSome && (decide ((edgeAt m i).1 = n) || decide ((edgeAt m i).2 = n)))

open Classical in
/-- The number of drawn edges at the nodes that reach `n` by short steps, all together. -/
noncomputable def clusterDegree (close : P → P → Bool) (polygons : List (P → Bool)) (m : Mesh P) (n : Nat) : Nat :=
  ∑ i ∈ (Finset.range m.nodes.length).filter (fun i => Chain close polygons m i n), degree m i

/-- The mesh `m'` is `m` with every node `i` pulled onto the node `rep i`:
* `rep i` is reached from `i` by steps between selected nodes that lie close together, so nodes that are not selected stay, and does not come
  before `i`;
* the nodes onto which others are pulled stay themselves, and no two selected nodes that stay lie close together;
* two nodes are joined by a drawn edge exactly if they differ and edges between nodes pulled onto them were drawn before;
* a node keeps its position if it stays and has an edge left, and is gone otherwise. -/
structure Pulled (close : P → P → Bool) (polygons : List (P → Bool)) (m m' : Mesh P) (rep : Nat → Nat) : Prop where
  chain : ∀ i, Chain close polygons m i (rep i)
  later : ∀ i, i ≤ rep i
  stays : ∀ i, rep (rep i) = rep i
  apart : ∀ i j, rep i = i → rep j = j → ¬ Near close polygons m i j
  drawn : ∀ x y, Drawn m' x y ↔ x ≠ y ∧ ∃ u v, Drawn m u v ∧ rep u = x ∧ rep v = y
  numNodes : m'.nodes.length = m.nodes.length
  kept : ∀ i : Nat, rep i = i → (∃ y, Drawn m' i y) → (m'.nodes[i]?).join = (m.nodes[i]?).join
  gone : ∀ i : Nat, rep i ≠ i ∨ (¬ ∃ y, Drawn m' i y) → (m'.nodes[i]?).join = none

end Verif.MergeClose
