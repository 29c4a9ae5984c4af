import Verif.EdgePick.Model
import Verif.Cache.Props
import Mathlib.Data.List.Nodup
/-!
# C82: an edge found at a point, and deleted
-/
namespace Verif.EdgePick
open Verif.Mesh Verif.Cache
variable {P B : Type}

/-- The states in which the edges tree is known to follow the mesh: reached from a mesh that was just stored by edits, undos,
redos and queries under the restrictions of C15, with the midpoints of all edges defined. -/
def Reached (g : Geo P B) (b : B) (s : Cached P B) : Prop :=
  (∃ (m : Mesh P) (b0 : B) (ops : List (Op P B)), Calm g (CalmE g b) (fresh m b0) ops ∧ run g (fresh m b0) ops = .ok s) ∧
    ∃ c, edgeCentres g s.mesh.nodes s.mesh.edges = .ok c

theorem calm_append {g : Geo P B} {c : Cached P B → Op P B → Prop} (o : Op P B) : ∀ (ops : List (Op P B)) (s t : Cached P B),
    Calm g c s ops → run g s ops = .ok t → c t o → Calm g c s (ops ++ [o])
  | [], s, t, _, h2, h3 => by
    rw [run] at h2
    cases h2
    exact ⟨h3, fun _ _ => trivial⟩
  | q :: ops, s, t, h1, h2, h3 => by
    rw [run] at h2
    obtain ⟨s1, e1, e2⟩ := Res.bind_eq_ok.1 h2
    refine ⟨h1.1, fun s2 e3 => ?_⟩
    rw [e1] at e3
    cases e3
    exact calm_append o ops s1 t (h1.2 s1 e1) e2 h3

theorem run_append {g : Geo P B} (o : Op P B) : ∀ (ops : List (Op P B)) (s t : Cached P B), run g s ops = .ok t → run g s (ops ++ [o]) = step g t o
  | [], s, t, h => by
    rw [run] at h
    cases h
    show run g s [o] = _
    rw [run]
    cases step g s o <;> rfl
  | q :: ops, s, t, h => by
    rw [run] at h
    obtain ⟨s1, e1, e2⟩ := Res.bind_eq_ok.1 h
    rw [List.cons_append, run, e1, Res.ok_bind]
    exact run_append o ops s1 t e2

theorem edgeCentres_set {g : Geo P B} {ns : List (Option P)} : ∀ {es : List Edge} {c : List (Option P)} (i : Nat), edgeCentres g ns es = .ok c →
    ∃ c', edgeCentres g ns (es.set i noEdge) = .ok c'
  | [], c, i, h => ⟨c, h⟩
  | e :: es, c, i, h => by
    rw [edgeCentres] at h
    obtain ⟨a, h1, h2⟩ := Res.bind_eq_ok.1 h
    obtain ⟨b, h3, -⟩ := Res.bind_eq_ok.1 h2
    cases i with
    | zero =>
      rw [List.set_cons_zero, edgeCentres]
      have : edgeCentre g ns noEdge = .ok none := by unfold edgeCentre noEdge; rw [if_pos (.inl rfl)]
      rw [this, Res.ok_bind, h3, Res.ok_bind]
      exact ⟨_, rfl⟩
    | succ i =>
      obtain ⟨c', h4⟩ := edgeCentres_set i h3
      rw [List.set_cons_succ, edgeCentres, h1, Res.ok_bind, h4, Res.ok_bind]
      exact ⟨_, rfl⟩

theorem buildTree_mesh {g : Geo P B} {s t : Cached P B} {b : B} (h : buildTree g s .edges b = .ok t) : t.mesh = s.mesh := by
  simp only [buildTree] at h
  split at h
  · obtain ⟨c, -, h⟩ := Res.bind_eq_ok.1 h
    cases h
    rfl
  · cases h
    rfl

theorem find_mesh {g : Geo P B} {s : Cached P B} {p : P} {b : B} {r : Nat × Cached P B} (h : findLocationIndex g s p .edges [] b = .ok r) :
    r.2.mesh = s.mesh ∧ buildTree g s .edges b = .ok r.2 := by
  unfold findLocationIndex at h
  obtain ⟨s1, h1, h2⟩ := Res.bind_eq_ok.1 h
  obtain ⟨i, -, h4⟩ := Res.bind_eq_ok.1 h2
  cases h4
  exact ⟨buildTree_mesh h1, h1⟩

theorem reached_query {g : Geo P B} {b : B} {s t : Cached P B} (h : Reached g b s) (hb : buildTree g s .edges b = .ok t) : Reached g b t := by
  obtain ⟨⟨m, b0, ops, h1, h2⟩, h3⟩ := h
  have hm := buildTree_mesh hb
  refine ⟨⟨m, b0, ops ++ [.query .edges b], calm_append (.query .edges b) ops _ s h1 h2 ⟨rfl, fun c => by cases c⟩, ?_⟩, by rw [hm]; exact h3⟩
  rw [run_append _ ops _ s h2]
  exact hb

theorem reached_delete {g : Geo P B} {b : B} {s t : Cached P B} {i : Nat} (h : Reached g b s) (he : edit s (.deleteEdge i) = .ok t)
    (hm : t.mesh.nodes = s.mesh.nodes ∧ t.mesh.edges = s.mesh.edges.set i noEdge) : Reached g b t := by
  obtain ⟨⟨m, b0, ops, h1, h2⟩, c, h3⟩ := h
  refine ⟨⟨m, b0, ops ++ [.edit (.deleteEdge i)], calm_append (.edit (.deleteEdge i)) ops _ s h1 h2 trivial, ?_⟩, ?_⟩
  · rw [run_append _ ops _ s h2]
    exact he
  · rw [hm.1, hm.2]
    exact edgeCentres_set i h3

/-- Deleting an edge that is there. -/
theorem delete_index {s : Cached P B} {i : Nat} (hi : i < s.mesh.edges.length) (hf : s.mesh.edges.length ≤ missing) :
    deleteEdgeU s.mesh i = .ok ([.deleteEdge i s.mesh.edges[i]], { s.mesh with edges := s.mesh.edges.set i noEdge }) ∧
      edit s (.deleteEdge i) = .ok { s with mesh := { s.mesh with edges := s.mesh.edges.set i noEdge }, edgesDirty := true } := by
  have h1 : deleteEdgeU s.mesh i = .ok ([.deleteEdge i s.mesh.edges[i]], { s.mesh with edges := s.mesh.edges.set i noEdge }) := by
    unfold deleteEdgeU resetEdge
    rw [if_neg (by omega), vget_ok hi, Res.ok_bind, vset_ok _ hi]
    rfl
  refine ⟨h1, ?_⟩
  unfold edit
  simp only [runOp]
  rw [h1]
  simp [setsBoth, setsNodes, setsEdges, Res.ok_bind]

theorem edgeIs_valid {g : Geo P B} {m : Mesh P} {i : Nat} {q : P} (h : EdgeIs g m i q) :
    i < m.edges.length ∧ (edgeAt m i).1 ≠ missing ∧ (edgeAt m i).2 ≠ missing := by
  unfold EdgeIs centreAt at h
  split at h
  · cases h
  · rename_i c
    refine ⟨?_, fun e => c (.inl e), fun e => c (.inr e)⟩
    by_contra hn
    apply c
    left
    unfold edgeAt
    rw [List.getElem?_eq_none (by omega)]
    rfl

/-- **C82, partial.** The edge found at a point is one whose midpoint lies in the box, and no edge with its midpoint in the box
is closer; the call is refused exactly when there is none. The mesh is not changed. Restrictions as for C15. -/
theorem edge_found_partial {g : Geo P B} {dist : P → P → ℚ} (hs : SearchOk g dist) {b : B} {s : Cached P B} (h : Reached g b s) (p : P) :
    (∃ i t, getEdge g s p b = .ok (i, t) ∧ t.mesh = s.mesh ∧ Nearest g dist (EdgeIs g s.mesh) b p i) ∨
      (getEdge g s p b = .throw ∧ NoneIn g (EdgeIs g s.mesh) b) := by
  obtain ⟨⟨m, b0, ops, h1, h2⟩, h3⟩ := h
  rcases edge_queries_follow_edits_partial hs h1 h2 h3 p with ⟨i, t, e1, e2⟩ | e
  · exact .inl ⟨i, t, e1, (find_mesh e1).1, e2⟩
  · exact .inr e

/-- **C82, partial.** Deleting the edge at a point: it is refused exactly when no edge has its midpoint in the box; otherwise the
edge is one with its midpoint in the box such that no other is closer, precisely this edge becomes empty, nodes and other
edges stay, and undo gives the mesh back as it was. The state afterwards is again one to which the theorem applies. -/
theorem edge_deleted_partial {g : Geo P B} {dist : P → P → ℚ} (hs : SearchOk g dist) {b : B} {s : Cached P B} (h : Reached g b s)
    (hf : s.mesh.edges.length ≤ missing) (p : P) :
    (∃ i as t, deleteEdgeAt g s p b = .ok (i, as, t) ∧ Nearest g dist (EdgeIs g s.mesh) b p i ∧
        t.mesh = { s.mesh with edges := s.mesh.edges.set i noEdge } ∧ (∃ u, undoActs as t = .ok u ∧ u.mesh = s.mesh) ∧ Reached g b t) ∨
      (deleteEdgeAt g s p b = .throw ∧ NoneIn g (EdgeIs g s.mesh) b) := by
  rcases edge_found_partial hs h p with ⟨i, t, e1, e2, e3⟩ | ⟨e1, e2⟩
  · left
    obtain ⟨q, q1, -⟩ := id e3
    have hi := (edgeIs_valid q1).1
    rw [← e2] at hi hf
    obtain ⟨d1, d2⟩ := delete_index (s := t) hi hf
    have hr := reached_query h (find_mesh e1).2
    refine ⟨i, [.deleteEdge i t.mesh.edges[i]], _, ?_, e3, ?_, ?_, reached_delete hr d2 ⟨rfl, rfl⟩⟩
    · unfold deleteEdgeAt
      unfold getEdge at e1
      rw [e1, Res.ok_bind]
      simp only
      rw [d1, Res.ok_bind, d2]
      rfl
    · simp only [e2]
    · refine ⟨{ t with mesh := s.mesh, edgesDirty := true }, ?_, rfl⟩
      simp only [undoActs]
      rw [Res.ok_bind]
      unfold restore
      simp only [restoreC, resetEdge]
      rw [vset_ok _ (by simpa using hi), Res.ok_bind, Res.ok_bind, Res.ok_bind]
      simp only [setsNodes, setsEdges, Bool.or_false, Bool.or_true, List.set_set, List.set_getElem_self, e2]
  · right
    refine ⟨?_, e2⟩
    unfold deleteEdgeAt
    unfold getEdge at e1
    rw [e1]
    rfl

theorem deleteEdgesAt_spec {g : Geo P B} {dist : P → P → ℚ} (hs : SearchOk g dist) {b : B} : ∀ (ps : List P) {s : Cached P B}, Reached g b s →
    s.mesh.edges.length ≤ missing → ∀ {is : List Nat} {t : Cached P B}, deleteEdgesAt g b ps s = .ok (is, t) →
    is.Nodup ∧ (∀ i ∈ is, i < s.mesh.edges.length ∧ (edgeAt s.mesh i).1 ≠ missing) ∧ t.mesh.nodes = s.mesh.nodes ∧
      ∀ i, edgeAt t.mesh i = if i ∈ is then noEdge else edgeAt s.mesh i := by
  intro ps
  induction ps with
  | nil =>
    intro s h hf is t hd
    rw [deleteEdgesAt] at hd
    cases hd
    simp
  | cons p ps ih =>
    intro s h hf is t hd
    rw [deleteEdgesAt] at hd
    obtain ⟨r, h1, h2⟩ := Res.bind_eq_ok.1 hd
    obtain ⟨u, h3, h4⟩ := Res.bind_eq_ok.1 h2
    cases h4
    rcases edge_deleted_partial hs h hf p with ⟨i, as, v, e1, e2, e3, -, e5⟩ | ⟨e1, -⟩
    · rw [h1] at e1
      cases e1
      obtain ⟨q, q1, -⟩ := e2
      obtain ⟨hi, hv, -⟩ := edgeIs_valid q1
      obtain ⟨g1, g2, g3, g4⟩ := ih e5 (by rw [e3]; simpa using hf) h3
      have hset : ∀ j, edgeAt v.mesh j = if j = i then noEdge else edgeAt s.mesh j := by
        intro j
        rw [e3]
        unfold edgeAt
        simp only
        rw [List.getElem?_set]
        by_cases c : i = j
        · subst c
          rw [if_pos rfl, if_pos hi, if_pos rfl]
          rfl
        · rw [if_neg c, if_neg (Ne.symm c)]
      refine ⟨List.nodup_cons.2 ⟨fun hm => ?_, g1⟩, ?_, by rw [g3, e3], ?_⟩
      · have := (g2 i hm).2
        rw [hset, if_pos rfl] at this
        exact this rfl
      · intro j hj
        rcases List.mem_cons.1 hj with rfl | hj
        · exact ⟨hi, hv⟩
        · obtain ⟨k1, k2⟩ := g2 j hj
          rw [hset] at k2
          rw [e3] at k1
          refine ⟨by simpa using k1, ?_⟩
          intro c
          apply k2
          split
          · rfl
          · exact c
      · intro j
        rw [g4, hset]
        by_cases c1 : j ∈ u.1
        · rw [if_pos c1, if_pos (List.mem_cons_of_mem _ c1)]
        · rw [if_neg c1]
          by_cases c2 : j = i
          · rw [if_pos c2, if_pos (by rw [c2]; exact List.mem_cons_self)]
          · rw [if_neg c2, if_neg]
            intro c
            rcases List.mem_cons.1 c with c | c
            · exact c2 c
            · exact c1 c
    · rw [h1] at e1
      cases e1

/-- **C82, partial.** Any number of deletions one after the other with the same box: every call deletes another edge, all of them
were edges of the mesh, and precisely these are gone at the end. -/
theorem edges_deleted_partial {g : Geo P B} {dist : P → P → ℚ} (hs : SearchOk g dist) {b : B} (ps : List P) {s : Cached P B} (h : Reached g b s)
    (hf : s.mesh.edges.length ≤ missing) {is : List Nat} {t : Cached P B} (hd : deleteEdgesAt g b ps s = .ok (is, t)) :
    is.Nodup ∧ (∀ i ∈ is, i < s.mesh.edges.length ∧ (edgeAt s.mesh i).1 ≠ missing) ∧ t.mesh.nodes = s.mesh.nodes ∧
      ∀ i, edgeAt t.mesh i = if i ∈ is then noEdge else edgeAt s.mesh i := deleteEdgesAt_spec hs ps h hf hd

/-- Deleting by index: for an index of the mesh precisely that edge is deleted, and undo gives the mesh back. -/
theorem index_deleted (s : Cached P B) {i : Nat} (hi : i < s.mesh.edges.length) (hf : s.mesh.edges.length ≤ missing) :
    ∃ as t, deleteEdgeByIndex s (i : Int) = .ok (as, t) ∧ t.mesh = { s.mesh with edges := s.mesh.edges.set i noEdge } ∧
      ∃ u, undoActs as t = .ok u ∧ u.mesh = s.mesh := by
  have hm : missing = 4294967295 := rfl
  have e : toUInt (i : Int) = i := by
    unfold toUInt
    omega
  obtain ⟨d1, d2⟩ := delete_index hi hf
  refine ⟨[.deleteEdge i s.mesh.edges[i]], { s with mesh := { s.mesh with edges := s.mesh.edges.set i noEdge }, edgesDirty := true }, ?_, rfl, { s with edgesDirty := true }, ?_, rfl⟩
  · unfold deleteEdgeByIndex
    rw [e, d1, Res.ok_bind, d2]
    rfl
  · simp only [undoActs]
    rw [Res.ok_bind]
    unfold restore
    simp only [restoreC, resetEdge]
    rw [vset_ok _ (by simpa using hi), Res.ok_bind, Res.ok_bind, Res.ok_bind]
    simp only [setsNodes, setsEdges, Bool.or_false, Bool.or_true, List.set_set, List.set_getElem_self]

/-- **C82, negation.** Every other index but minus one leads to a read behind the end of the list of edges; minus one is
refused. -/
theorem index_not_checked (s : Cached P B) (i : Int) (h1 : -4294967296 < i) (h2 : i < 4294967296) :
    (i = -1 → deleteEdgeByIndex s i = .throw) ∧
      (s.mesh.edges.length ≤ toUInt i → i ≠ -1 → i ≠ 4294967295 → deleteEdgeByIndex s i = .ub) := by
  have hm : missing = 4294967295 := rfl
  constructor
  · rintro rfl
    rfl
  · intro hl hn hn'
    unfold deleteEdgeByIndex deleteEdgeU
    rw [if_neg (by unfold toUInt; omega)]
    unfold vget
    rw [List.getElem?_eq_none hl]
    rfl

/-! ## Examples -/

/-- Three nodes in a row. -/
def row : Mesh (ℚ × ℚ) := ⟨[some (0, 0), some (10, 0), some (30, 0)], [(0, 1), (1, 2)], [[0], [0, 1], [1]], [1, 2, 1]⟩

theorem row_reached : Reached (plane fun _ => []) none (fresh row none) :=
  ⟨⟨row, none, [], trivial, rfl⟩, _, by rfl⟩

example : ∃ t, deleteEdgesAt (plane fun _ => []) none [(6, 0), (6, 0)] (fresh row none) = .ok ([0, 1], t) ∧ ([0, 1] : List Nat).Nodup := by
  refine ⟨⟨⟨row.nodes, [noEdge, noEdge], row.nodesEdges, row.numEdges⟩, true, true, true, [], [((20, 0), 1)], [], none⟩, by decide +kernel, ?_⟩
  exact (edges_deleted_partial (plane_search fun _ => []) [(6, 0), (6, 0)] row_reached (by decide)
    (t := ⟨⟨row.nodes, [noEdge, noEdge], row.nodesEdges, row.numEdges⟩, true, true, true, [], [((20, 0), 1)], [], none⟩) (by decide +kernel)).1

/-- **C82, negation.** After a node was moved and moved back by undo, the trees are those of the moved mesh: the edge deleted at
a point is not the nearest one. -/
theorem undo_of_move_deletes_other_edge : ∃ s, run (plane fun _ => []) (fresh row none)
      [.edit (.moveNodes [(0, some (100, 0))]), .query .edges none, .restore (.translate [(0, some (0, 0))])] = .ok s ∧
    s.mesh = row ∧ (∃ t, deleteEdgeAt (plane fun _ => []) s (5, 0) none = .ok (1, [.deleteEdge 1 (1, 2)], t)) ∧
    EdgeIs (plane fun _ => []) row 0 (5, 0) := by
  refine ⟨⟨row, true, false, true, [], [((55, 0), 0), ((20, 0), 1)], [], none⟩, by decide +kernel, rfl, ?_,
    by show centreAt _ _ _ = _; decide +kernel⟩
  have h : findLocationIndex (plane fun _ => []) ⟨row, true, false, true, [], [((55, 0), 0), ((20, 0), 1)], [], none⟩ (5, 0) .edges [] none
      = .ok (1, ⟨row, true, false, true, [], [((55, 0), 0), ((20, 0), 1)], [], none⟩) := by decide +kernel
  unfold deleteEdgeAt
  rw [h, Res.ok_bind]
  exact ⟨_, rfl⟩

/-- **C82, negation.** The box is remembered for all trees together: a query for an edge in one box, one for a node in a second
box, and then the deletion with the second box deletes an edge that is not in it. -/
theorem box_of_other_query_deletes_outside : ∃ s, run (plane fun _ => []) (fresh row none)
      [.query .edges (some (0, 9)), .query .nodes (some (15, 40))] = .ok s ∧
    (∃ t, deleteEdgeAt (plane fun _ => []) s (20, 0) (some (15, 40)) = .ok (0, [.deleteEdge 0 (0, 1)], t)) ∧
    EdgeIs (plane fun _ => []) row 0 (5, 0) ∧ EdgeIs (plane fun _ => []) row 1 (20, 0) := by
  refine ⟨⟨row, false, false, true, [((30, 0), 2)], [((5, 0), 0)], [], some (15, 40)⟩, by decide +kernel, ?_,
    by show centreAt _ _ _ = _; decide +kernel, by show centreAt _ _ _ = _; decide +kernel⟩
  have h : findLocationIndex (plane fun _ => []) ⟨row, false, false, true, [((30, 0), 2)], [((5, 0), 0)], [], some (15, 40)⟩ (20, 0) .edges [] (some (15, 40))
      = .ok (0, ⟨row, false, false, true, [((30, 0), 2)], [((5, 0), 0)], [], some (15, 40)⟩) := by decide +kernel
  unfold deleteEdgeAt
  rw [h, Res.ok_bind]
  exact ⟨_, rfl⟩

end Verif.EdgePick
