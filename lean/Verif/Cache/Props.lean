import Verif.Cache.Lemmas
import Mathlib.Tactic.NormNum
import Mathlib.Tactic.Linarith
/-!
# C15: location queries answer from the current mesh
-/
namespace Verif.Cache
open Verif.Mesh
variable {P B : Type}

/-! ### A concrete plane -/

/-- Squared distance. -/
def dist2 (p q : ℚ × ℚ) : ℚ := (p.1 - q.1) * (p.1 - q.1) + (p.2 - q.2) * (p.2 - q.2)

/-- The closest entry, the first of equally close ones. -/
def closest (p : ℚ × ℚ) : List ((ℚ × ℚ) × Nat) → Option ((ℚ × ℚ) × Nat)
  | [] => none
  | v :: t => match closest p t with
    | none => some v
    | some w => if dist2 p v.1 ≤ dist2 p w.1 then some v else some w

/-- The plane; a box is a range of x-coordinates, `none` the whole plane.  The faces are given by `faces`. -/
def plane (faces : Mesh (ℚ × ℚ) → List (Option (ℚ × ℚ))) : Geo (ℚ × ℚ) (Option (ℚ × ℚ)) where
  contains b p := match b with
    | none => true
    | some (lo, hi) => decide (lo ≤ p.1) && decide (p.1 ≤ hi)
  mid a b := match a, b with
    | some p, some q => some ((p.1 + q.1) / 2, (p.2 + q.2) / 2)
    | _, _ => none
  faces := faces
  order _ l := l
  nearest t p := (closest p t).map Prod.snd
  sameBox a b := decide (a = b)

theorem closest_spec (p : ℚ × ℚ) : ∀ t : List ((ℚ × ℚ) × Nat), t ≠ [] →
    ∃ v ∈ t, closest p t = some v ∧ ∀ w ∈ t, dist2 p v.1 ≤ dist2 p w.1 := by
  intro t
  induction t with
  | nil => intro h; exact absurd rfl h
  | cons v t ih =>
    intro _
    cases t with
    | nil => exact ⟨v, by simp, by simp [closest], by simp⟩
    | cons u t =>
      obtain ⟨w, hw, h1, h2⟩ := ih (by simp)
      by_cases hc : dist2 p v.1 ≤ dist2 p w.1
      · refine ⟨v, by simp, by rw [closest, h1]; simp [hc], ?_⟩
        intro x hx
        rcases List.mem_cons.1 hx with rfl | hx
        · exact le_refl _
        · exact le_trans hc (h2 x hx)
      · refine ⟨w, List.mem_cons_of_mem _ hw, by rw [closest, h1]; simp [hc], ?_⟩
        intro x hx
        rcases List.mem_cons.1 hx with rfl | hx
        · exact le_of_lt (not_le.1 hc)
        · exact h2 x hx

theorem plane_search (faces : Mesh (ℚ × ℚ) → List (Option (ℚ × ℚ))) : SearchOk (plane faces) dist2 := by
  intro t p ht
  obtain ⟨⟨q, i⟩, h1, h2, h3⟩ := closest_spec p t ht
  exact ⟨i, q, by simp [plane, h2], h1, h3⟩

/-- Two nodes and the edge between them, administrated. -/
def twoNodes : Mesh (ℚ × ℚ) := ⟨[some (0, 0), some (10, 0)], [(0, 1)], [[0], [0]], [1, 1]⟩

/-! ### What holds -/

/-- Partial C15, nodes: whatever edits, undos, redos and queries have happened to a mesh since it was created, a query
for the nearest node answers with the nearest valid node in the box according to the current coordinates, and
throws only if there is none - provided that all queries used that box, no movement of nodes was undone or
redone and no query for faces invalidated nodes.  Full statement: without the provisos.  It is false, see
below. -/
theorem node_queries_follow_edits_partial {g : Geo P B} {dist : P → P → ℚ} (hs : SearchOk g dist) {m : Mesh P} {b0 b : B}
    {ops : List (Op P B)} {s : Cached P B} (hc : Calm g (CalmN g b) (fresh m b0) ops) (h : run g (fresh m b0) ops = .ok s)
    (p : P) :
    (∃ i s', findLocationIndex g s p .nodes [] b = .ok (i, s') ∧ Nearest g dist (NodeIs s.mesh) b p i) ∨
    (findLocationIndex g s p .nodes [] b = .throw ∧ NoneIn g (NodeIs s.mesh) b) := by
  have hi : InvN g b s := run_inv (I := InvN g b) step_invN (.inl rfl) hc h
  obtain ⟨s1, h1, hsh⟩ : ∃ s1, buildTree g s .nodes b = .ok s1 ∧ Shows g s1.nodesTree (NodeIs s.mesh) b := by
    simp only [buildTree]
    split
    · exact ⟨_, rfl, shows_nodes g _ b⟩
    · next hf =>
      simp only [Bool.or_eq_true, not_or, Bool.not_eq_true] at hf
      exact ⟨s, rfl, hi.resolve_left (by rw [hf.1]; simp)⟩
  unfold findLocationIndex
  rw [h1, Res.ok_bind]
  rcases choose_spec hs hsh p with ⟨i, h2, h3⟩ | ⟨h2, h3⟩
  · left; exact ⟨i, s1, by simp only [Cached.tree]; rw [h2, Res.ok_bind], h3⟩
  · right; exact ⟨by simp only [Cached.tree]; rw [h2]; rfl, h3⟩

/-- An insertion, its undo, its redo, deletions and a merge with queries in between. -/
def calmOps : List (Op (ℚ × ℚ) (Option (ℚ × ℚ))) :=
  [.query .nodes none, .edit (.insertNode (some (3, 0))), .query .edges none, .query .nodes none,
   .restore (.addNode 2 (some (3, 0))), .query .nodes none, .commit (.addNode 2 (some (3, 0))),
   .edit (.moveNodes [(0, some (5, 5))]), .query .nodes none, .edit (.deleteNode 1)]

example : ∃ s, run (plane fun _ => []) (fresh twoNodes none) calmOps = .ok s ∧
    Calm (plane fun _ => []) (CalmN (plane fun _ => []) none) (fresh twoNodes none) calmOps ∧
    findLocationIndex (plane fun _ => []) s (9, 0) .nodes [] none = .ok (2, { s with nodesTree := [((5, 5), 0), ((3, 0), 2)], nodesDirty := false }) := by
  refine ⟨_, by rfl, ?_, by decide +kernel⟩
  simp [calmOps, Calm, CalmN]

/-- Partial C15, edges: the same for the nearest edge (by its midpoint), when nodes that come and go have no edges
other than those `DeleteNode` deletes with them, and the midpoints can be computed.  Full statement: without the
provisos.  -/
theorem edge_queries_follow_edits_partial {g : Geo P B} {dist : P → P → ℚ} (hs : SearchOk g dist) {m : Mesh P} {b0 b : B}
    {ops : List (Op P B)} {s : Cached P B} (hc : Calm g (CalmE g b) (fresh m b0) ops) (h : run g (fresh m b0) ops = .ok s)
    (hd : ∃ c, edgeCentres g s.mesh.nodes s.mesh.edges = .ok c) (p : P) :
    (∃ i s', findLocationIndex g s p .edges [] b = .ok (i, s') ∧ Nearest g dist (EdgeIs g s.mesh) b p i) ∨
    (findLocationIndex g s p .edges [] b = .throw ∧ NoneIn g (EdgeIs g s.mesh) b) := by
  have hi : InvE g b s := run_inv (I := InvE g b) step_invE (.inl rfl) hc h
  obtain ⟨c, hd⟩ := hd
  obtain ⟨s1, h1, hsh⟩ : ∃ s1, buildTree g s .edges b = .ok s1 ∧ Shows g s1.edgesTree (EdgeIs g s.mesh) b := by
    simp only [buildTree]
    split
    · rw [hd]; exact ⟨_, rfl, shows_edges hd b⟩
    · next hf =>
      simp only [Bool.or_eq_true, not_or, Bool.not_eq_true] at hf
      exact ⟨s, rfl, hi.resolve_left (by rw [hf.1]; simp)⟩
  unfold findLocationIndex
  rw [h1, Res.ok_bind]
  rcases choose_spec hs hsh p with ⟨i, h2, h3⟩ | ⟨h2, h3⟩
  · left; exact ⟨i, s1, by simp only [Cached.tree]; rw [h2, Res.ok_bind], h3⟩
  · right; exact ⟨by simp only [Cached.tree]; rw [h2]; rfl, h3⟩

/-- Edits of edges with queries in between. -/
def calmEdgeOps : List (Op (ℚ × ℚ) (Option (ℚ × ℚ))) :=
  [.query .edges none, .edit (.insertNode (some (3, 8))), .query .edges none, .edit (.connectNodes 0 1),
   .query .nodes none, .edit (.resetEdge 0 (0, 2)), .query .edges none]

theorem edgeAt_one {e : Edge} {ns : List (Option P)} {l : List (List Nat)} {k : List Nat} (i : Nat) :
    edgeAt ⟨ns, [e], l, k⟩ i = if i = 0 then e else noEdge := by
  cases i <;> simp [edgeAt]

example : ∃ s, run (plane fun _ => []) (fresh twoNodes none) calmEdgeOps = .ok s ∧
    Calm (plane fun _ => []) (CalmE (plane fun _ => []) none) (fresh twoNodes none) calmEdgeOps ∧
    findLocationIndex (plane fun _ => []) s (9, 0) .edges [] none = .ok (0, s) ∧ s.edgesTree = [((3 / 2, 4), 0)] := by
  refine ⟨_, by rfl, ?_, by decide +kernel, by decide +kernel⟩
  simp only [calmEdgeOps, Calm, CalmE]
  simp only [true_and, and_true, implies_true, reduceCtorEq, false_implies]
  intro s1 h
  simp only [step] at h
  have : s1 = _ := (Res.ok.inj (h.symm.trans (show buildTree (plane fun _ => []) (fresh twoNodes none) .edges none = .ok _ from rfl)))
  subst this
  intro i
  show ¬ touches (edgeAt twoNodes i) 2
  unfold twoNodes
  rw [edgeAt_one]
  split <;> simp [touches, noEdge, missing]

/-- A query for a box that differs from the one of the query before it always answers from the current nodes,
whatever the history. -/
theorem other_box_answers_current {g : Geo P B} {dist : P → P → ℚ} (hs : SearchOk g dist) (s : Cached P B) (b : B)
    (hb : g.sameBox s.box b = false) (p : P) :
    (∃ i s', findLocationIndex g s p .nodes [] b = .ok (i, s') ∧ Nearest g dist (NodeIs s.mesh) b p i) ∨
    (findLocationIndex g s p .nodes [] b = .throw ∧ NoneIn g (NodeIs s.mesh) b) := by
  unfold findLocationIndex
  simp only [buildTree, hb, Bool.not_false, Bool.or_true, if_true, Res.ok_bind, Cached.tree]
  rcases choose_spec hs (shows_nodes g s.mesh b) p with ⟨i, h2, h3⟩ | ⟨h2, h3⟩
  · left; exact ⟨i, _, by rw [h2, Res.ok_bind], h3⟩
  · right; exact ⟨by rw [h2]; rfl, h3⟩

example : (plane fun _ => []).sameBox (fresh twoNodes none).box (some (1, 2)) = false := by decide +kernel

/-! ### What does not hold -/

/-- Negation of C15: after a node was moved and the movement undone, a query for the nearest node answers from the
coordinates before the undo: asked at the very position of node 0, it answers node 1. -/
theorem undo_of_move_leaves_stale_answer : ∃ s,
    run (plane fun _ => []) (fresh twoNodes none)
      [.edit (.moveNodes [(0, some (20, 0))]), .query .nodes none, .restore (.translate [(0, some (0, 0))])] = .ok s ∧
    s.mesh.nodes = twoNodes.nodes ∧
    findLocationIndex (plane fun _ => []) s (0, 0) .nodes [] none = .ok (1, s) ∧
    ¬ Nearest (plane fun _ => []) dist2 (NodeIs s.mesh) none (0, 0) 1 := by
  refine ⟨⟨twoNodes, false, true, true, [((20, 0), 0), ((10, 0), 1)], [], [], none⟩, by decide +kernel, rfl,
    by decide +kernel, ?_⟩
  rintro ⟨q, hq, _, h⟩
  have h1 := h 0 (0, 0) rfl rfl
  have h2 : q = (10, 0) := by
    have : some (some (10, 0)) = some (some q) := hq
    simpa using this.symm
  subst h2
  norm_num [dist2] at h1

/-- Negation of C15: the tree of the faces is built once.  After a query for faces, any number of edits, undos,
redos and queries for the same box later, a query for the nearest face searches the same tree as before. -/
theorem faces_tree_is_never_updated {g : Geo P B} {b : B} (hb : g.sameBox b b = true) : ∀ {ops : List (Op P B)} {s s' : Cached P B},
    s.facesDirty = false → s.box = b → (∀ l b', Op.query l b' ∈ ops → b' = b) → run g s ops = .ok s' →
    ∀ p mask, findLocationIndex g s' p .faces mask b = (do let i ← choose g s.facesTree p mask; .ok (i, s')) := by
  have key : ∀ {ops : List (Op P B)} {s s' : Cached P B},
      s.facesDirty = false → s.box = b → (∀ l b', Op.query l b' ∈ ops → b' = b) → run g s ops = .ok s' →
      s'.facesDirty = false ∧ s'.box = b ∧ s'.facesTree = s.facesTree := by
    intro ops
    induction ops with
    | nil => intro s s' h1 h2 _ h; simp only [run] at h; rw [← Res.ok.inj h]; exact ⟨h1, h2, rfl⟩
    | cons o os ih =>
      intro s s' h1 h2 h3 h
      simp only [run] at h
      obtain ⟨s1, hs, h⟩ := Res.bind_eq_ok.1 h
      have q : s1.facesDirty = false ∧ s1.box = b ∧ s1.facesTree = s.facesTree := by
        cases o with
        | edit o =>
          simp only [step, edit] at hs
          obtain ⟨r, hr, hs⟩ := Res.bind_eq_ok.1 hs
          rw [← Res.ok.inj hs]; exact ⟨h1, h2, rfl⟩
        | commit a =>
          simp only [step, commit] at hs
          obtain ⟨r, hr, hs⟩ := Res.bind_eq_ok.1 hs
          rw [← Res.ok.inj hs]; exact ⟨h1, h2, rfl⟩
        | restore a =>
          simp only [step, restore] at hs
          obtain ⟨r, hr, hs⟩ := Res.bind_eq_ok.1 hs
          rw [← Res.ok.inj hs]; exact ⟨h1, h2, rfl⟩
        | query l b' =>
          have := h3 l b' (by simp)
          subst this
          cases l with
          | faces =>
            simp only [step, buildTree, h1, h2, hb] at hs
            rw [← Res.ok.inj hs]; exact ⟨h1, h2, rfl⟩
          | nodes =>
            simp only [step, buildTree] at hs
            split at hs <;> (rw [← Res.ok.inj hs]; simp [h1, h2])
          | edges =>
            simp only [step, buildTree] at hs
            split at hs
            · obtain ⟨c, _, hs⟩ := Res.bind_eq_ok.1 hs
              rw [← Res.ok.inj hs]; simp [h1]
            · rw [← Res.ok.inj hs]; simp [h1, h2]
      obtain ⟨k1, k2, k3⟩ := ih q.1 q.2.1 (fun l b' hm => h3 l b' (List.mem_cons_of_mem _ hm)) h
      exact ⟨k1, k2, k3.trans q.2.2⟩
  intro ops s s' h1 h2 h3 h p mask
  obtain ⟨k1, k2, k3⟩ := key h1 h2 h3 h
  unfold findLocationIndex
  simp only [buildTree, k1, k2, hb, Bool.not_true, Bool.or_false, Bool.false_eq_true, if_false, Res.ok_bind, Cached.tree, k3]

/-- One triangle with its centre, when it has its three edges. -/
def triangleFaces (m : Mesh (ℚ × ℚ)) : List (Option (ℚ × ℚ)) :=
  if m.edges.length = 3 ∧ (m.edges.all fun e => e ≠ noEdge) then [some (1, 1)] else []

def triangle : Mesh (ℚ × ℚ) :=
  ⟨[some (0, 0), some (3, 0), some (0, 3)], [(0, 1), (1, 2), (2, 0)], [[0, 2], [0, 1], [1, 2]], [2, 2, 2]⟩

/-- A face is found after one of its edges has been deleted and there is no face left. -/
theorem deleted_face_is_found : ∃ s,
    run (plane triangleFaces) (fresh triangle none) [.query .faces none, .edit (.deleteEdge 1)] = .ok s ∧
    triangleFaces s.mesh = [] ∧
    findLocationIndex (plane triangleFaces) s (1, 1) .faces [] none = .ok (0, s) := by
  refine ⟨⟨⟨triangle.nodes, [(0, 1), noEdge, (2, 0)], triangle.nodesEdges, triangle.numEdges⟩, true, true, false, [], [],
    [((1, 1), 0)], none⟩, by decide +kernel, by decide +kernel, by decide +kernel⟩

/-- Negation of C15: all trees share the memory of the last box.  Query nodes in one box, edges in another one, and then
nodes in that one: the answer lies outside of the box. -/
theorem boxes_are_mixed_up : ∃ s,
    run (plane fun _ => []) (fresh twoNodes none) [.query .nodes (some (-1, 1)), .query .edges (some (4, 6))] = .ok s ∧
    findLocationIndex (plane fun _ => []) s (0, 0) .nodes [] (some (4, 6)) = .ok (0, s) ∧
    NoneIn (plane fun _ => []) (NodeIs s.mesh) (some (4, 6)) := by
  refine ⟨⟨twoNodes, false, false, true, [((0, 0), 0)], [((5, 0), 0)], [], some (4, 6)⟩, by decide +kernel,
    by decide +kernel, ?_⟩
  intro j r hj
  match j with
  | 0 =>
    have : some (some (0, 0)) = some (some r) := hj
    simp only [Option.some.injEq] at this
    subst this
    rfl
  | 1 =>
    have : some (some (10, 0)) = some (some r) := hj
    simp only [Option.some.injEq] at this
    subst this
    decide +kernel
  | j + 2 =>
    have : none = some (some r) := hj
    cases this

/-- Negation of C15: a query for faces administrates the mesh, which invalidates nodes without edges; a query for nodes
still finds them. -/
theorem administrated_node_is_found : ∃ s,
    run (plane fun _ => []) (fresh twoNodes none)
      [.edit (.insertNode (some (3, 0))), .query .nodes none, .query .faces none] = .ok s ∧
    s.mesh.nodes[2]? = some none ∧
    findLocationIndex (plane fun _ => []) s (3, 0) .nodes [] none = .ok (2, s) := by
  refine ⟨⟨⟨[some (0, 0), some (10, 0), none], [(0, 1)], [[0], [0], []], [1, 1, 0]⟩, false, true, false,
    [((0, 0), 0), ((10, 0), 1), ((3, 0), 2)], [], [], none⟩, by decide +kernel, rfl,
    by decide +kernel⟩

/-- A query with a mask throws when the nearest location is masked out, although there is an allowed one: only one
candidate is searched for. -/
theorem masked_query_misses_allowed_node : ∃ mask : List Bool,
    findLocationIndex (plane fun _ => []) (fresh twoNodes none) (1, 0) .nodes mask none = .throw ∧
    mask[1]? = some true ∧ NodeIs twoNodes 1 (10, 0) := by
  exact ⟨[false, true], by decide +kernel, rfl, rfl⟩

/-- A query with a mask that answers gives the nearest of all locations, which is an allowed one. -/
theorem masked_query_partial {g : Geo P B} {t : List (P × Nat)} {p : P} {mask : List Bool} {i : Nat}
    (hm : mask ≠ []) (h : choose g t p mask = .ok i) : g.nearest t p = some i ∧ mask[i]? = some true := by
  unfold choose at h
  split at h
  · cases h
  · cases hn : g.nearest t p with
    | none => rw [hn] at h; cases h
    | some k =>
      rw [hn] at h
      simp only [List.isEmpty_iff, hm, if_false] at h
      obtain ⟨v, hv, h⟩ := Res.bind_eq_ok.1 h
      rw [vget_eq_ok] at hv
      split at h
      · next hb => rw [← Res.ok.inj h, hv, hb]; exact ⟨rfl, rfl⟩
      · cases h

example : choose (plane fun _ => []) [((0, 0), 0), ((10, 0), 1)] (8, 0) [false, true] = .ok 1 := by decide +kernel

/-- `mkernel_mesh2d_get_node_index` takes a box and does not look at it: asked for a node in a box that has none, it
answers with one outside. -/
theorem node_index_ignores_box : ∃ s,
    getNodeIndex (plane fun _ => []) none (fun t p => (closest p t).map Prod.snd) (fresh twoNodes none) (0, 0)
      (some (4, 6)) = .ok (0, s) ∧ NoneIn (plane fun _ => []) (NodeIs twoNodes) (some (4, 6)) := by
  refine ⟨⟨twoNodes, false, true, true, [((0, 0), 0), ((10, 0), 1)], [], [], none⟩, by decide +kernel, ?_⟩
  intro j r hj
  match j with
  | 0 =>
    have : some (some (0, 0)) = some (some r) := hj
    simp only [Option.some.injEq] at this
    subst this
    rfl
  | 1 =>
    have : some (some (10, 0)) = some (some r) := hj
    simp only [Option.some.injEq] at this
    subst this
    decide +kernel
  | j + 2 =>
    have : none = some (some r) := hj
    cases this

end Verif.Cache
