import Verif.InsertEdge.Props
/-!
# C75: where inserting an edge between two points fails
-/
namespace Verif.InsertEdge
open Verif.Mesh Verif.Cache
variable {P B K : Type} [Field K] [LinearOrder K] [IsStrictOrderedRing K]

/-- The same call twice. -/
def twice (s : Cached (ℚ × ℚ) (Option (ℚ × ℚ))) (p q : ℚ × ℚ) : Res (Out (ℚ × ℚ) (Option (ℚ × ℚ))) := do
  let o ← insertEdge flat none closeBy walk ([] : List ℚ) s p q
  insertEdge flat none closeBy walk [] o.state p q

/-- Negation of C75: an edge inserted by the call is not in the lists of its ends, so the same call draws it again. -/
theorem edge_drawn_twice :
    shown (twice (fresh three none) (0, 0) (0, 10)) = some ⟨0, 2, 2, three.nodes, [(0, 1), (0, 2), (0, 2)]⟩ := by
  decide +kernel

omit [LinearOrder K] [IsStrictOrderedRing K] in
theorem computeLengths_deleted (dist : Option P → Option P → K) (nodes : List (Option P)) (old : List K) :
    ∀ (es : List Edge) (k i : Nat) (ls : List K), computeLengths dist nodes old k es = .ok ls → es[i]? = some noEdge →
      old.length ≤ k + i → (-999 : K) ∈ ls := by
  intro es
  induction es with
  | nil => intro k i ls _ hi; simp at hi
  | cons e es ih =>
    intro k i ls h hi ho
    simp only [computeLengths, Res.bind_eq_ok] at h
    obtain ⟨l, hl, ls', hls, h⟩ := h
    simp only [Res.ok.injEq] at h
    subst h
    match i with
    | 0 =>
      have : e = noEdge := by simpa using hi
      subst this
      have hk : old[k]? = none := List.getElem?_eq_none (by omega)
      simp [lengthOf, noEdge, hk] at hl
      simp [hl]
    | i + 1 =>
      exact List.mem_cons_of_mem _ (ih (k + 1) i ls' hls (by simpa using hi) (by omega))

/-- Negation of C75: when the lengths of the edges are computed while there is a deleted edge, its length is taken to be
`-999`, and every later call is refused: "the first and the second node are coinciding", however far the points are
apart. -/
theorem deleted_edge_blocks_insertion (g : Geo P B) (whole : B) (close : List (P × Nat) → P → K → Option Nat) (dist : P → P → K)
    (dist' : Option P → Option P → K) (s : Cached P B) (lengths : List K) (i : Nat) (hi : s.mesh.edges[i]? = some noEdge)
    (h : computeLengths dist' s.mesh.nodes [] 0 s.mesh.edges = .ok lengths) (p q : P) :
    insertEdge g whole close dist lengths s p q = .throw := by
  have hm := computeLengths_deleted dist' s.mesh.nodes [] s.mesh.edges 0 i lengths h hi (by simp)
  have := (radius_exact dist lengths p q).2.1 _ hm
  unfold insertEdge
  rw [if_pos (by linarith)]

/-- A mesh with a deleted edge. -/
example : computeLengths (fun a b => walk (a.getD (0, 0)) (b.getD (0, 0)))
    [some (0, 0), some (10, 0), some (0, 10)] [] 0 [(0, 1), noEdge] = .ok [10, (-999 : ℚ)] := by
  decide +kernel

/-- The state after a query for nodes in a box and one for edges in the default box. -/
def mixed : Res (Cached (ℚ × ℚ) (Option (ℚ × ℚ))) :=
  run flat (fresh three none) [.query .nodes (some (-1, 1)), .query .edges none]

/-- Negation of C75: all trees share the memory of the last box.  Query nodes in a box, then edges in the default box, and
insert an edge that begins at an existing node outside of the box: the node is not found and gets a double. -/
theorem node_doubled :
    shown (mixed.bind fun s => insertEdge flat none closeBy walk ([] : List ℚ) s (10, 0) (0, 0)) =
      some ⟨3, 0, 1, [some (0, 0), some (10, 0), some (0, 10), some (10, 0)], [(0, 1), (3, 0)]⟩ := by
  decide +kernel

/-- Negation of C75: an edge can be inserted into an empty mesh, but not into one whose nodes have all been deleted. -/
theorem deleted_nodes_block_insertion :
    shown (insertEdge flat none closeBy walk ([] : List ℚ) (fresh ⟨[], [], [], []⟩ none) (0, 0) (1, 0)) =
      some ⟨0, 1, 0, [some (0, 0), some (1, 0)], [(0, 1)]⟩ ∧
    insertEdge flat none closeBy walk ([] : List ℚ) (fresh ⟨[none], [], [[]], [0]⟩ none) (0, 0) (1, 0) = .throw := by
  refine ⟨by decide +kernel, ?_⟩
  refine (refused_iff flat_whole closeBy_ok (fun h => by cases h) ?_ (by decide) (by decide) _ _ _).2 (Or.inr (Or.inr ?_))
  · refine ⟨by decide, by decide, fun i => Or.inl rfl, rfl, rfl, ?_⟩
    intro n i hi
    match n with
    | 0 => exact absurd hi (by simp [listAt, fresh])
    | n + 1 => exact absurd hi (by simp [listAt, fresh])
  · refine ⟨by simp [fresh], ?_⟩
    intro i x hx
    match i with
    | 0 => simp [NodeIs, fresh] at hx
    | i + 1 => simp [NodeIs, fresh] at hx

end Verif.InsertEdge
