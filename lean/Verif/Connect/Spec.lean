import Verif.Connect.Model

/-!
# What merging nodes has to respect
-/
namespace Verif.Connect

/-- The boundary edges are different edges of the mesh, whose number fits in 32 bits. -/
structure Proper (p : Input) : Prop where
  nodup : p.boundary.Nodup
  inside : ∀ b ∈ p.boundary, b < p.edges.length
  fits : p.edges.length ≤ missing

/-- Two different boundary edges that the test takes for close, with what it reports. -/
def CloseEdges (p : Input) (b c : Nat) (r : Nat × Nat) : Prop :=
  b ∈ p.boundary ∧ c ∈ p.boundary ∧ b ≠ c ∧ p.adj b c = some r

/-- Node `n` is an end of a boundary edge, and `t` is the node of a close edge reported for it. -/
def CloseNodes (p : Input) (n t : Nat) : Prop :=
  ∃ b c r e, CloseEdges p b c r ∧ p.edges[b]? = some e ∧
    ((n = e.1 ∧ t = r.1) ∨ (n = e.2 ∧ t = r.2))

end Verif.Connect
