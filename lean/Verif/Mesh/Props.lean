import Verif.Mesh.PropsLemmas
/-!
# Properties of meshes

C08 (undo of mesh edits), C09 (delete node), C10 (compaction), C11 (administration), C12 (merging
nodes), C13 (joining meshes), C38 (queries).
-/
namespace Verif.Mesh
variable {P : Type}

open Undo (World Snap)

/-! ## Example meshes -/

/-- A square with a diagonal, administrated. -/
def square : Mesh (Int × Int) where
  nodes := [some (0, 0), some (1, 0), some (1, 1), some (0, 1)]
  edges := [(0, 1), (1, 2), (2, 3), (3, 0), (0, 2)]
  nodesEdges := [[0, 3, 4], [0, 1], [1, 2, 4], [2, 3]]
  numEdges := [3, 2, 3, 2]

theorem square_wf : WF square := wf_of_check (by decide)
theorem square_simple : Simple square := simple_of_check square_wf (by decide)

/-- Two points and a line between them. -/
def line : Mesh (Int × Int) where
  nodes := [some (0, 0), some (1, 0)]
  edges := [(0, 1)]
  nodesEdges := [[0], [0]]
  numEdges := [1, 1]

/-! ## C08: undo and redo of mesh edits -/

/-- Whatever edits of nodes and edges are made on any number of kernels, mixed with undo, redo,
resizing and clearing of the history: undo and redo never fail or touch memory out of range, and
the contents of every kernel (coordinates of all valid nodes and ends of all edges, by index) are
always those of the snapshot machine, in which undo puts back the snapshot taken before the edit
and redo the one taken after it. -/
theorem mesh_history_follows_snapshots (n : Nat) (d : Int → Mesh P)
    (hd : ∀ k, (d k).numEdges.length = (d k).nodes.length) (os : List (HOp P))
    (h : Defined (World.init n (fun k => .ok (d k))) os) :
    let r := lockstep (World.init n (fun k => .ok (d k))) ⟨fun k => some (content (d k)), [], [], n⟩ os
    (∀ k, ∃ m, r.1.1.data k = .ok m ∧ r.2.1.world k = some (content m)) ∧ r.1.2 = r.2.2 := by
  have hrel : Rel (World.init n (fun k => .ok (d k)) : MWorld P)
      (World.init n (fun k => some (content (d k)))) :=
    ⟨rfl, fun k => ⟨d k, rfl, rfl, hd k⟩, by intro r hr; simp [World.init] at hr⟩
  obtain ⟨⟨a, h1, h2⟩, h3⟩ := lockstep_rel os hrel (Undo.sim_init (aSem P) n _) h
  refine ⟨?_, h3⟩
  intro k
  obtain ⟨m, hm1, hm2, _⟩ := h1.data k
  exact ⟨m, hm1, by rw [← h2.data]; exact hm2⟩

/-- The history used in the example: on kernel 7 delete a node, merge two nodes, insert and connect
a node, undo twice, redo, and edit again; undo all. -/
def sampleHistory : List (HOp (Int × Int)) :=
  [.edit 7 (.deleteNode 1), .edit 7 (.mergeTwoNodes 0 2), .edit 7 (.insertNode (some (5, 5))), .undo, .undo, .redo,
   .edit 7 (.connectNodes 4 2), .undo, .undo, .undo]

/-- The hypotheses hold for the sample history, and at its end the square is back. -/
example : Defined (World.init 10 (fun _ => .ok square)) sampleHistory ∧
    ∃ m, ((lockstep (World.init 10 (fun _ => .ok square)) ⟨fun _ => some (content square), [], [], 10⟩
      sampleHistory).1.1.data 7) = .ok m ∧ segments m = segments square ∧ m.nodes = square.nodes ++ [none] := by
  constructor
  · unfold sampleHistory Defined
    refine ⟨⟨trivial, by decide⟩, ⟨trivial, by decide⟩, ⟨trivial, by decide⟩, trivial, trivial, trivial,
      ⟨trivial, by decide⟩, trivial, trivial, trivial, trivial⟩
  · exact ⟨_, rfl, by decide, by decide⟩

/-- One edit, undone and redone: undoing gives back the contents, redoing the edited contents. -/
theorem undo_redo_of_edit (m m' : Mesh P) (o : MeshOp P) (as : List (Act P)) (ho : o.Proper)
    (hc : m.numEdges.length = m.nodes.length) (h : runOp m o = .ok (as, m')) :
    ∃ bs m1, Undo.restoreAll (meshSem P) (committed as) (.ok m') = (bs, .ok m1) ∧ content m1 = content m ∧
      ∃ cs m2, Undo.commitAll (meshSem P) bs (.ok m1) = (cs, .ok m2) ∧ content m2 = content m' := by
  exact (runOp_good ho h).undo_redo hc

example : ∃ as m', runOp square (.mergeTwoNodes 0 2) = .ok (as, m') ∧ as.length = 6 ∧ m' ≠ square := by
  refine ⟨_, _, rfl, by decide, by decide⟩

/-- Equal contents are drawn equally: undo restores the drawing. -/
theorem equal_contents_equal_drawing (m m' : Mesh P) (h : content m = content m')
    (hn : m.nodes.length ≤ missing) (hn' : m'.nodes.length ≤ missing) : segments m = segments m' :=
  segments_content h hn hn'

/-- The edits whose undo is treated above are the ones described by the other theorems. -/
theorem edits_with_undo_agree (m : Mesh P) :
    (∀ n, meshOf (deleteNodeU m n) = deleteNode m n) ∧ (∀ a b, meshOf (mergeTwoNodesU m a b) = mergeTwoNodes m a b) ∧
    (∀ e, meshOf (deleteEdgeU m e) = deleteEdge m e) ∧ (∀ n v, meshOf (resetNodeU m n v) = resetNode m n v) ∧
    (∀ a b, meshOf (connectNodesU m a b) = meshOf (connectNodes m a b)) :=
  ⟨deleteNode_agree m, mergeTwoNodes_agree m, deleteEdge_agree m, resetNode_agree m, connectNodes_agree m⟩

/-! ### Undo by saving the whole mesh -/

/-- `FullUnstructuredGridUndo::Swap` and the calls of `Administrate` in `CommitAction` and
`RestoreAction`, `Mesh.cpp:1238-1242` and `1292-1296`: exchange the saved nodes and edges with the
current ones and administrate.  Used by join, derefinement and connect meshes. -/
def fullSwap (order : Nat → List Nat → List Nat) (saved : List (Option P) × List Edge) (m : Mesh P) :
    Res ((List (Option P) × List Edge) × Mesh P) :=
  match administrate order { m with nodes := saved.1, edges := saved.2 } with
  | .ok m' => .ok ((m.nodes, m.edges), m')
  | .throw => .throw
  | .ub => .ub

/-- Every valid node is in use and every edge is valid or marked as deleted. -/
def Clean (m : Mesh P) : Prop :=
  (∀ n : Nat, ((m.nodes[n]?).join).isSome → Used m n) ∧ ∀ i, edgeAt m i = noEdge ∨ (seg m.nodes (edgeAt m i)).isSome

/-- Whatever was done to the mesh, restoring the saved mesh `m` brings back its drawing, and all
its contents if it had no unused nodes. -/
theorem full_undo_restores_partial (order : Nat → List Nat → List Nat) (ho : ∀ n l, (order n l).Perm l)
    (m now : Mesh P) (h : Manageable m) (hn : m.nodes ≠ []) (he : m.edges ≠ []) :
    ∃ m1, fullSwap order (m.nodes, m.edges) now = .ok ((now.nodes, now.edges), m1) ∧ segments m1 = segments m ∧
      (Clean m → content m1 = content m) := by
  have hM : Manageable { now with nodes := m.nodes, edges := m.edges } :=
    ⟨h.nodesFit, h.edgesFit, h.bounds, h.noLoop, h.noDup, h.degree⟩
  obtain ⟨m1, h1, a⟩ := administrate_ok hM hn he order ho
  refine ⟨m1, by simp [fullSwap, h1], (a.segments hM :), ?_⟩
  rintro ⟨c1, c2⟩
  have hE : ∀ i, edgeAt ({ now with nodes := m.nodes, edges := m.edges } : Mesh P) i = edgeAt m i := fun _ => rfl
  unfold content
  congr 1
  · funext n
    rw [a.nodes]
    split
    · rfl
    · rename_i hc
      by_cases hs : ((m.nodes[n]?).join).isSome
      · have hu : Used ({ now with nodes := m.nodes, edges := m.edges } : Mesh P) n := c1 n hs
        exact absurd ((connected_iff hM.nodesFit n).2 hu) hc
      · cases hv : (m.nodes[n]?).join with
        | none => rfl
        | some v => rw [hv] at hs; simp at hs
  · funext i
    rw [a.edges, hE]
    rcases c2 i with h0 | h0
    · simp only [h0, ite_self]
    · exact if_pos h0

/-- What is missing: unused nodes are not restored.  Insert a node, join another mesh, undo: the
node is gone. -/
theorem full_undo_loses_node :
    ∃ m1 m2 s m3, insertNode line (some (5, 5)) = (2, m1) ∧
      administrate (fun _ l => l) (joinRaw m1 square) = .ok m2 ∧
      fullSwap (fun _ l => l) (m1.nodes, m1.edges) m2 = .ok (s, m3) ∧
      m1.nodes[2]? = some (some (5, 5)) ∧ m3.nodes[2]? = some none :=
  ⟨_, _, _, _, rfl, rfl, rfl, by decide, by decide⟩

/-! ## C09: delete node -/

/-- Deleting a node of an administrated mesh succeeds, makes the node invalid, deletes exactly the
edges that touch it, keeps everything else, and keeps the administration consistent. -/
theorem delete_node_exact (m : Mesh P) (w : WF m) (n : Nat) (hn : n < m.nodes.length) :
    ∃ m', deleteNode m n = .ok m' ∧ m'.nodes = m.nodes.set n none ∧ m'.edges.length = m.edges.length ∧
      (∀ i, edgeAt m' i = if (edgeAt m i).1 = n ∨ (edgeAt m i).2 = n then noEdge else edgeAt m i) ∧ WF m' := by
  obtain ⟨m1, h1, e⟩ := deleteEdges_ok (listAt m n) (m := m) (fun i hi => (w.listed n i hi).1) w.edgesFit
  have hnm := not_missing w hn
  have hE : ∀ i, edgeAt m1 i = if (edgeAt m i).1 = n ∨ (edgeAt m i).2 = n then noEdge else edgeAt m i := by
    intro i
    by_cases hi : i ∈ listAt m n
    · rw [e.gone i hi]
      rcases (w.listed n i hi).2 with h | h
      · rw [h]; simp
      · exact (if_pos h).symm
    · rw [e.kept i hi]
      by_cases ht : touches (edgeAt m i) n
      · exfalso
        apply hi
        apply w.complete i n _ ht
        intro h0
        rw [h0] at ht
        rcases ht with h | h <;> exact hnm h.symm
      · exact (if_neg ht).symm
  refine ⟨{ m1 with nodes := m1.nodes.set n none }, ?_, by rw [e.nodes], e.len, hE, ?_⟩
  · unfold deleteNode
    rw [if_neg (by omega), vget_listAt w hn]
    simp [h1, vset, e.nodes, hn]
  · have w1 := w.erased e
    exact ⟨by simpa using w1.nodesFit, w1.edgesFit, by intro i; have := w1.bounds i; simpa [edgeAt] using this, by simpa using w1.lists, w1.counts,
      w1.listed, w1.nodup, w1.complete⟩

example : WF square ∧ 2 < square.nodes.length := ⟨square_wf, by decide⟩

/-- Invalid indices are rejected. -/
theorem delete_node_rejects (m : Mesh P) (n : Nat) (hn : m.nodes.length ≤ n) : deleteNode m n = .throw := by
  unfold deleteNode; rw [if_pos hn]

/-- Without up-to-date administration the property fails: insert a node, connect it with node 0,
delete node 0; the new edge is not deleted and refers to the deleted node.  (Neither
`mkernel_mesh2d_insert_node` nor `mkernel_mesh2d_insert_edge` updates the administration.) -/
theorem delete_node_misses_new_edge :
    ∃ m1 e m2 m3, insertNode line (some (0, 1)) = (2, m1) ∧ connectNodes m1 2 0 = .ok (e, m2) ∧
      deleteNode m2 0 = .ok m3 ∧ m3.nodes[0]? = some none ∧ m3.edges[e]? = some (2, 0) :=
  ⟨_, _, _, _, rfl, rfl, rfl, by decide, by decide⟩

/-! ## C10: compaction -/

/-- Compaction succeeds on every mesh whose edges refer to nodes, keeps the drawing, the order of
the drawn edges and the order of the nodes in use; afterwards all nodes are valid and in use, and
all edges are valid. -/
theorem compaction_keeps_drawing (m : Mesh P) (hn : m.nodes.length ≤ missing)
    (hb : ∀ e ∈ m.edges, e.1 = missing ∨ e.2 = missing ∨ (e.1 < m.nodes.length ∧ e.2 < m.nodes.length)) :
    ∃ m', deleteInvalid m = .ok m' ∧ segments m' = segments m ∧
      (∀ e ∈ m'.edges, (seg m'.nodes e).isSome) ∧
      (∃ keep : Nat → Bool, (∀ i, keep i = true ↔ Used m i) ∧
        m'.nodes = ((m.nodes.zipIdx.filter (fun p => keep p.2)).map Prod.fst).filter (·.isSome)) ∧
      (∀ v ∈ m'.nodes, v.isSome) := by
  have hok : ∃ m', deleteInvalid m = .ok m' := by
    unfold deleteInvalid
    rw [inBounds_of hb]
    simp only [Bool.not_true, Bool.false_eq_true, if_false]
    split
    · exact ⟨_, rfl⟩
    · exact ⟨_, rfl⟩
  obtain ⟨m', h⟩ := hok
  have hc := deleteInvalid_eq hn h
  subst hc
  have hs := compacted_segments hn
  have hall := compacted_edge_valid hn
  refine ⟨compacted m, h, ?_, hall, ⟨fun i => connected m i, fun i => connected_iff hn i, ?_⟩, ?_⟩
  · unfold segments
    have q1 : (compacted m).edges.filterMap (seg (compacted m).nodes) =
        ((compacted m).edges.map (seg (compacted m).nodes)).filterMap id := by
      rw [List.filterMap_map]; rfl
    have q2 : m.edges.filterMap (seg m.nodes) =
        ((m.edges.filter (fun e => (seg m.nodes e).isSome)).map (seg m.nodes)).filterMap id := by
      rw [List.filterMap_map, List.filterMap_filter]
      congr 1
      funext e
      cases h : seg m.nodes e <;> simp [h]
    rw [q1, q2, hs]
  · show (connectedNodes m).filter (·.isSome) = _
    unfold connectedNodes
    rw [List.mapIdx_eq_zipIdx_map]
    generalize m.nodes.zipIdx = l
    induction l with
    | nil => rfl
    | cons p l ih =>
      by_cases hp : connected m p.2
      · simp [hp, ih, List.filter_cons]
      · simp [hp, ih]
  · intro v hv
    exact (List.mem_filter.1 hv).2

/-- Compacting twice is compacting once. -/
theorem compaction_idempotent (m m' : Mesh P) (hn : m.nodes.length ≤ missing)
    (h : deleteInvalid m = .ok m') : deleteInvalid m' = .ok m' := by
  rw [deleteInvalid_eq hn h]
  exact compacted_fixed hn

/-- A mesh with a hole in the numbering. -/
def holed : Mesh (Int × Int) where
  nodes := [some (0, 0), none, some (1, 1), some (9, 9), some (0, 1)]
  edges := [(0, 2), noEdge, (2, 4), (1, 4), (4, 0)]
  nodesEdges := []
  numEdges := []

example : deleteInvalid holed = .ok { holed with
    nodes := [some (0, 0), some (1, 1), some (0, 1)]
    edges := [(0, 1), (1, 2), (2, 0)] } := by decide

/-! ## C11: administration -/

/-- Administration of a mesh lists for every node exactly the valid edges ending there, once each,
with the right count; it keeps valid edges and the nodes in use where they are and marks all others
as deleted.  The drawing does not change, and the result satisfies the representation invariant
used by the editing functions. -/
theorem administration_exact (m : Mesh P) (h : Manageable m) (hn : m.nodes ≠ []) (he : m.edges ≠ [])
    (order : Nat → List Nat → List Nat) (ho : ∀ n l, (order n l).Perm l) :
    ∃ m', administrate order m = .ok m' ∧
      (∀ n i, i ∈ listAt m' n ↔ (seg m.nodes (edgeAt m i)).isSome ∧ ((edgeAt m i).1 = n ∨ (edgeAt m i).2 = n)) ∧
      (∀ n, (listAt m' n).Nodup) ∧ m'.numEdges = m'.nodesEdges.map List.length ∧
      m'.nodesEdges.length = m.nodes.length ∧
      (∀ i, edgeAt m' i = if (seg m.nodes (edgeAt m i)).isSome then edgeAt m i else noEdge) ∧
      (∀ n, Used m n → m'.nodes[n]? = m.nodes[n]?) ∧ (∀ n : Nat, ¬ Used m n → (m'.nodes[n]?).join = none) ∧
      segments m' = segments m ∧ WF m' ∧ Simple m' := by
  obtain ⟨m', h1, a⟩ := administrate_ok h hn he order ho
  refine ⟨m', h1, a.mem, a.nodup, a.counts, a.lists, a.edges, ?_, ?_, a.segments h, a.wf h, a.simple h⟩
  · intro n hu
    have := a.nodes n
    rw [if_pos ((connected_iff h.nodesFit n).2 hu)] at this
    by_cases hlt : n < m.nodes.length
    · rw [List.getElem?_eq_getElem hlt, List.getElem?_eq_getElem (by rw [a.nodesLen]; exact hlt)] at this ⊢
      simpa using this
    · rw [List.getElem?_eq_none (by rw [a.nodesLen]; omega : m'.nodes.length ≤ n), List.getElem?_eq_none (by omega)]
  · intro n hu
    have := a.nodes n
    rw [if_neg (fun hc => hu ((connected_iff h.nodesFit n).1 hc))] at this
    exact this

/-- Executable check of `Manageable` for the example. -/
example : Manageable square := by
  refine ⟨by decide, by decide, by decide, ?_, ?_, by decide⟩
  · intro i hi
    apply square_simple.noLoop i
    intro h0; rw [h0] at hi; revert hi; decide
  · intro i j hij hi _
    apply square_simple.noDup i j hij
    intro h0; rw [h0] at hi; revert hi; decide

/-- A star of 17 edges: the last edge is not listed for its two nodes, although it is valid. -/
def star : Mesh (Int × Int) where
  nodes := (List.range 18).map (fun i : Nat => some ((i : Int), 0))
  edges := (List.range 17).map (fun i => (0, i + 1))
  nodesEdges := []
  numEdges := []

set_option maxRecDepth 4000 in
theorem administration_drops_17th_edge :
    ∃ m', administrate (fun _ l => l) star = .ok m' ∧ (seg m'.nodes (edgeAt m' 16)).isSome = true ∧
      listAt m' 0 = List.range 16 ∧ listAt m' 17 = [] :=
  ⟨_, rfl, by decide, by decide, by decide⟩

/-! ## C12: merging nodes -/

/-- Merging node `a` into node `b` makes `a` invalid and moves no other node; afterwards two nodes
are joined by an edge exactly if neither is `a`, they differ, and they were joined before or one of
them is `b` and the other was joined with `a`.  No edge becomes a loop or a duplicate, and the
administration stays consistent. -/
theorem merge_two_nodes_exact (m : Mesh P) (w : WF m) (s : Simple m) (a b : Nat) (ha : a < m.nodes.length)
    (hb : b < m.nodes.length) (hab : a ≠ b) (hcap : (listAt m a).length + (listAt m b).length ≤ 16) :
    ∃ m', mergeTwoNodes m a b = .ok m' ∧ m'.nodes = m.nodes.set a none ∧
      (∀ x y, Adj m' x y ↔ x ≠ a ∧ y ≠ a ∧ x ≠ y ∧ (Adj m x y ∨ (x = b ∧ Adj m a y) ∨ (y = b ∧ Adj m x a))) ∧
      (∀ i, (edgeAt m i).1 ≠ a → (edgeAt m i).2 ≠ a → (edgeAt m i).1 ≠ b → (edgeAt m i).2 ≠ b →
        edgeAt m' i = edgeAt m i) ∧
      WF m' ∧ Simple m' := by
  obtain ⟨m', h1, hm⟩ := mergeTwoNodes_merged w s ha hb hab hcap
  refine ⟨m', h1, hm.nodes, hm.adj w s ha hb hab, ?_, hm.wf w s ha hb hab, hm.simple w s ha hab⟩
  intro i h1 h2 h3 h4
  have hng : ¬ MergeGone m a b i := by
    rintro (h | ⟨o, _, _, _, h⟩)
    · rcases (joins_touches h).1 with h | h
      · exact h1 h
      · exact h2 h
    · rcases (joins_touches h).2 with h | h
      · exact h3 h
      · exact h4 h
  rw [hm.kept i hng]
  unfold replaceNode
  rw [if_neg h1, if_neg h2]

example : WF square ∧ Simple square ∧ (listAt square 0).length + (listAt square 2).length ≤ 16 :=
  ⟨square_wf, square_simple, by decide⟩

/-- Merging several pairs, one after the other (as `MergeNodesInPolygon`, `Mesh.cpp:408-466`, does
for the pairs it finds). -/
def mergeAll (m : Mesh P) : List (Nat × Nat) → Res (Mesh P)
  | [] => .ok m
  | p :: ps => do
    let m1 ← mergeTwoNodes m p.1 p.2
    mergeAll m1 ps

/-- Merging any list of pairs that does not exceed the capacity keeps the mesh consistent and
simple: no loops, no duplicate edges. -/
theorem merge_all_keeps_invariant (ps : List (Nat × Nat)) (m m' : Mesh P) (w : WF m) (s : Simple m)
    (hp : ∀ p ∈ ps, p.1 < m.nodes.length ∧ p.2 < m.nodes.length)
    (hcap : ∀ (qs rs : List (Nat × Nat)) p x, ps = qs ++ p :: rs → mergeAll m qs = .ok x →
      (listAt x p.1).length + (listAt x p.2).length ≤ 16)
    (h : mergeAll m ps = .ok m') : WF m' ∧ Simple m' ∧ m'.nodes.length = m.nodes.length := by
  induction ps generalizing m with
  | nil => simp [mergeAll] at h; subst h; exact ⟨w, s, rfl⟩
  | cons p ps ih =>
    simp only [mergeAll, Res.bind_eq_ok] at h
    obtain ⟨m1, h1, h2⟩ := h
    obtain ⟨hp1, hp2⟩ := hp p (by simp)
    have hm1 : WF m1 ∧ Simple m1 ∧ m1.nodes.length = m.nodes.length := by
      by_cases hab : p.1 = p.2
      · unfold mergeTwoNodes at h1
        rw [if_neg (by have := not_missing w hp1; have := not_missing w hp2; omega), if_neg (by omega), if_pos hab] at h1
        simp at h1; subst h1; exact ⟨w, s, rfl⟩
      · obtain ⟨x, q1, q2, _, _, q5, q6⟩ := merge_two_nodes_exact m w s p.1 p.2 hp1 hp2 hab
          (hcap [] ps p m rfl rfl)
        rw [h1] at q1
        simp at q1; subst q1
        exact ⟨q5, q6, by rw [q2]; simp⟩
    obtain ⟨r1, r2, r3⟩ := ih m1 hm1.1 hm1.2.1 (by intro q hq; rw [hm1.2.2]; exact hp q (by simp [hq]))
      (by
        intro qs rs q x hx hq
        exact hcap (p :: qs) rs q x (by rw [hx]; rfl) (by simp [mergeAll, h1, hq])) h2
    exact ⟨r1, r2, r3.trans hm1.2.2⟩

example : ∃ m', mergeAll square [(0, 2), (3, 1)] = .ok m' := ⟨_, rfl⟩

/-- When more than 16 edges would meet in the merged node, the code writes beyond the end of its
16-element array: merging the centres of two stars of 9 edges. -/
theorem merge_overruns_16_edges :
    mergeTwoNodes (P := Int × Int)
      { nodes := (List.range 20).map (fun i : Nat => some ((i : Int), 0))
        edges := (List.range 9).map (fun i => (0, i + 2)) ++ (List.range 9).map (fun i => (1, i + 11))
        nodesEdges := [List.range 9, (List.range 9).map (· + 9)] ++ (List.range 18).map (fun i => [i])
        numEdges := [9, 9] ++ List.replicate 18 1 } 0 1 = .ub := by decide

/-! ## C13: joining meshes -/

/-- Adding mesh `b` to mesh `a`: the nodes and edges of `a` keep their indices, those of `b` follow
with shifted indices, and the drawing is the union of the drawings. -/
theorem join_is_disjoint_union (a b : Mesh P) (hb : b.edges ≠ []) (hl : a.nodes.length + b.nodes.length ≤ missing)
    (ha : ∀ e ∈ a.edges, e = noEdge ∨ (e.1 < a.nodes.length ∧ e.2 < a.nodes.length))
    (hbe : ∀ e ∈ b.edges, e.1 < b.nodes.length ∧ e.2 < b.nodes.length) :
    (joinRaw a b).nodes = a.nodes ++ b.nodes ∧
    (∀ i < a.edges.length, edgeAt (joinRaw a b) i = edgeAt a i) ∧
    (∀ i < b.edges.length, edgeAt (joinRaw a b) (a.edges.length + i) =
      ((edgeAt b i).1 + a.nodes.length, (edgeAt b i).2 + a.nodes.length)) ∧
    segments (joinRaw a b) = segments a ++ segments b := by
  have hbn : b.nodes.length ≠ 0 := by
    cases h : b.edges with
    | nil => exact absurd h hb
    | cons e es => have := hbe e (by simp [h]); omega
  have hbl : b.edges.length ≠ 0 := by simpa using hb
  have hmap : b.edges.map (fun e => ((e.1 + a.nodes.length) % 2 ^ 32, (e.2 + a.nodes.length) % 2 ^ 32)) =
      b.edges.map (fun e => (e.1 + a.nodes.length, e.2 + a.nodes.length)) := by
    apply List.map_congr_left
    intro e he
    have := hbe e he
    have hm : missing < 2 ^ 32 := by decide
    rw [Nat.mod_eq_of_lt (by omega), Nat.mod_eq_of_lt (by omega)]
  have hj : joinRaw a b = { a with
      nodes := a.nodes ++ b.nodes
      edges := a.edges ++ b.edges.map (fun e => (e.1 + a.nodes.length, e.2 + a.nodes.length)) } := by
    unfold joinRaw
    rw [if_neg (by omega)]
    simp only [hmap]
  rw [hj]
  refine ⟨rfl, ?_, ?_, ?_⟩
  · intro i hi
    simp [edgeAt, List.getElem?_append_left hi]
  · intro i hi
    simp [edgeAt, hi]
  · unfold segments
    simp only [List.filterMap_append, List.filterMap_map]
    congr 1
    · exact filterMap_congr' _ _ _ (fun e he => seg_append_left (ha e he) hl)
    · exact filterMap_congr' _ _ _ (fun e _ => seg_append_right)

example : segments (joinRaw square line) = segments square ++ segments line :=
  (join_is_disjoint_union square line (by decide) (by decide) (by decide) (by decide)).2.2.2

/-- A deleted edge of the added mesh does not stay deleted: the missing index plus the number of
nodes wraps around and gives an edge from the last node of the first mesh to itself. -/
theorem join_revives_deleted_edge :
    let b := { line with edges := [(0, 1), noEdge] }
    edgeAt b 1 = noEdge ∧ edgeAt (joinRaw square b) 6 = (3, 3) ∧
      (seg (joinRaw square b).nodes (edgeAt (joinRaw square b) 6)).isSome = true := by
  decide

/-! ## C38: queries -/

/-- `mkernel_mesh2d_get_dimensions` (`MeshKernel.cpp:741-759`): administrates, then reports. -/
def getDimensions (order : Nat → List Nat → List Nat) (m : Mesh P) : Res ((Nat × Nat) × Mesh P) :=
  match administrate order m with
  | .ok m' => .ok ((m'.nodes.length, m'.edges.length), m')
  | .throw => .throw
  | .ub => .ub

/-- The sizes are reported and the drawing is not changed, and repeating the query changes
nothing more. -/
theorem get_dimensions_keeps_drawing_partial (m : Mesh P) (h : Manageable m) (hn : m.nodes ≠ []) (he : m.edges ≠ [])
    (order : Nat → List Nat → List Nat) (ho : ∀ n l, (order n l).Perm l) :
    ∃ m', getDimensions order m = .ok ((m.nodes.length, m.edges.length), m') ∧ segments m' = segments m := by
  obtain ⟨m', h1, a⟩ := administrate_ok h hn he order ho
  exact ⟨m', by simp [getDimensions, h1, a.nodesLen, a.edgesLen], a.segments h⟩

/-- But the query does change the kernel: a node inserted and not yet connected is destroyed by
asking for the dimensions of the mesh. -/
theorem get_dimensions_destroys_node :
    ∃ m1 d m2, insertNode line (some (5, 5)) = (2, m1) ∧ m1.nodes[2]? = some (some (5, 5)) ∧
      getDimensions (fun _ l => l) m1 = .ok (d, m2) ∧ m2.nodes[2]? = some none :=
  ⟨_, _, _, rfl, by decide, rfl, by decide⟩

/-- And it breaks undo: delete the only edge, ask for the dimensions, undo: the edge is back but
its two nodes are gone, so nothing is drawn. -/
theorem get_dimensions_breaks_undo :
    ∃ as m1 d m2 bs m3, runOp line (.deleteEdge 0) = .ok (as, m1) ∧ getDimensions (fun _ l => l) m1 = .ok (d, m2) ∧
      Undo.restoreAll (meshSem _) (committed as) (.ok m2) = (bs, .ok m3) ∧
      segments line = [((0, 0), (1, 0))] ∧ segments m3 = [] ∧ edgeAt m3 0 = (0, 1) :=
  ⟨_, _, _, _, _, _, rfl, rfl, rfl, by decide, by decide, by decide⟩

end Verif.Mesh
