import Verif.Cache.Spec
import Verif.Mesh.UndoLemmas
/-!
# Lemmas about the cached search trees
-/
namespace Verif.Cache
open Verif.Mesh
variable {P B : Type}

/-! ### Trees -/

theorem mem_buildPoints {g : Geo P B} {l : List (Option P)} {b : B} {q : P} {i : Nat} :
    (q, i) ∈ buildPoints g l b ↔ l[i]? = some (some q) ∧ g.contains b q = true := by
  unfold buildPoints
  rw [List.mem_filterMap]
  constructor
  · rintro ⟨⟨v, j⟩, hm, h⟩
    cases v with
    | none => simp at h
    | some p =>
      simp only at h
      split at h
      · next hc =>
        simp only [Option.some.injEq, Prod.mk.injEq] at h
        obtain ⟨rfl, rfl⟩ := h
        exact ⟨by simpa [List.mem_zipIdx_iff_getElem?] using hm, hc⟩
      · simp at h
  · rintro ⟨h1, h2⟩
    exact ⟨(some q, i), by simpa [List.mem_zipIdx_iff_getElem?] using h1, by simp [h2]⟩

theorem edgeCentre_eq {g : Geo P B} {ns : List (Option P)} {e : Edge} {c : Option P} (h : edgeCentre g ns e = .ok c) :
    c = if e.1 = missing ∨ e.2 = missing then none else g.mid ns[e.1]?.join ns[e.2]?.join := by
  unfold edgeCentre at h
  split at h
  · next hm => rw [if_pos hm]; exact (Res.ok.inj h).symm
  · next hm =>
    rw [if_neg hm]
    obtain ⟨a, ha, h⟩ := Res.bind_eq_ok.1 h
    obtain ⟨b, hb, h⟩ := Res.bind_eq_ok.1 h
    rw [vget_eq_ok] at ha hb
    rw [ha, hb]
    exact (Res.ok.inj h).symm

theorem edgeCentres_get {g : Geo P B} {ns : List (Option P)} : ∀ {es : List Edge} {cs : List (Option P)},
    edgeCentres g ns es = .ok cs → ∀ i : Nat, cs[i]? = (es[i]?).map (fun e : Edge =>
      if e.1 = missing ∨ e.2 = missing then none else g.mid ns[e.1]?.join ns[e.2]?.join) := by
  intro es
  induction es with
  | nil => intro cs h i; simp only [edgeCentres] at h; rw [← Res.ok.inj h]; simp
  | cons e es ih =>
    intro cs h i
    simp only [edgeCentres] at h
    obtain ⟨c, hc, h⟩ := Res.bind_eq_ok.1 h
    obtain ⟨cs', hcs, h⟩ := Res.bind_eq_ok.1 h
    rw [← Res.ok.inj h]
    cases i with
    | zero => simp [edgeCentre_eq hc]
    | succ i => simpa using ih hcs i

theorem edgeCentres_spec {g : Geo P B} {m : Mesh P} {cs : List (Option P)} (h : edgeCentres g m.nodes m.edges = .ok cs)
    (i : Nat) (q : P) : cs[i]? = some (some q) ↔ EdgeIs g m i q := by
  rw [edgeCentres_get h i]
  unfold EdgeIs centreAt edgeAt
  cases he : m.edges[i]? with
  | none => simp [noEdge]
  | some e => simp

/-- The tree holds exactly the locations in the box. -/
def Shows (g : Geo P B) (t : List (P × Nat)) (at' : Nat → P → Prop) (b : B) : Prop :=
  ∀ q i, (q, i) ∈ t ↔ at' i q ∧ g.contains b q = true

theorem shows_nodes (g : Geo P B) (m : Mesh P) (b : B) : Shows g (buildPoints g m.nodes b) (NodeIs m) b :=
  fun _ _ => mem_buildPoints

theorem shows_edges {g : Geo P B} {m : Mesh P} {cs : List (Option P)} (h : edgeCentres g m.nodes m.edges = .ok cs) (b : B) :
    Shows g (buildPoints g cs b) (EdgeIs g m) b := by
  intro q i
  rw [mem_buildPoints, edgeCentres_spec h]

theorem choose_spec {g : Geo P B} {dist : P → P → ℚ} (hs : SearchOk g dist) {t : List (P × Nat)} {at' : Nat → P → Prop}
    {b : B} (h : Shows g t at' b) (p : P) :
    (∃ i, choose g t p [] = .ok i ∧ Nearest g dist at' b p i) ∨ (choose g t p [] = .throw ∧ NoneIn g at' b) := by
  cases t with
  | nil =>
    right
    refine ⟨by simp [choose], fun j r hj => ?_⟩
    cases hc : g.contains b r with
    | false => rfl
    | true => have := (h r j).2 ⟨hj, hc⟩; simp at this
  | cons v t =>
    left
    obtain ⟨i, q, h1, h2, h3⟩ := hs (v :: t) p (by simp)
    refine ⟨i, by simp [choose, h1], q, ((h q i).1 h2).1, ((h q i).1 h2).2, ?_⟩
    intro j r hj hc
    exact h3 (r, j) ((h r j).2 ⟨hj, hc⟩)

/-! ### Steps -/

theorem deleteEdgeU_nodes {m m' : Mesh P} {e : Nat} {as : List (Act P)} (h : deleteEdgeU m e = .ok (as, m')) :
    m'.nodes = m.nodes := by
  unfold deleteEdgeU at h
  split at h
  · cases h
  · obtain ⟨_, _, h⟩ := Res.bind_eq_ok.1 h
    obtain ⟨m1, h1, h⟩ := Res.bind_eq_ok.1 h
    have h2 := (Prod.mk.inj (Res.ok.inj h)).2
    rw [← h2, (resetEdge_eq h1).2]

theorem mergeTwoNodesU_sets {m m' : Mesh P} {a b : Nat} {as : List (Act P)} (h : mergeTwoNodesU m a b = .ok (as, m')) :
    m' = m ∨ (as.any setsNodes = true ∧ as.any setsEdges = true) := by
  unfold mergeTwoNodesU at h
  split at h
  · cases h
  split at h
  · cases h
  split at h
  · left; exact (Prod.mk.inj (Res.ok.inj h)).2.symm
  · right
    obtain ⟨_, _, h⟩ := Res.bind_eq_ok.1 h
    obtain ⟨r1, _, h⟩ := Res.bind_eq_ok.1 h
    obtain ⟨_, _, h⟩ := Res.bind_eq_ok.1 h
    obtain ⟨r2, _, h⟩ := Res.bind_eq_ok.1 h
    obtain ⟨_, _, h⟩ := Res.bind_eq_ok.1 h
    obtain ⟨_, _, h⟩ := Res.bind_eq_ok.1 h
    obtain ⟨r3, _, h⟩ := Res.bind_eq_ok.1 h
    simp only at h
    split at h
    · cases h
    · obtain ⟨_, _, h⟩ := Res.bind_eq_ok.1 h
      obtain ⟨_, _, h⟩ := Res.bind_eq_ok.1 h
      obtain ⟨_, _, h⟩ := Res.bind_eq_ok.1 h
      obtain ⟨_, _, h⟩ := Res.bind_eq_ok.1 h
      obtain ⟨r4, h4, h⟩ := Res.bind_eq_ok.1 h
      have h5 := (Prod.mk.inj (Res.ok.inj h)).1
      have h6 : ∃ o v, r4.1 = [.resetNode a o v] := by
        unfold resetNodeU at h4
        split at h4
        · cases h4
        · obtain ⟨o, _, h4⟩ := Res.bind_eq_ok.1 h4
          obtain ⟨_, _, h4⟩ := Res.bind_eq_ok.1 h4
          exact ⟨o, none, by rw [← Res.ok.inj h4]⟩
      obtain ⟨o, v, h6⟩ := h6
      rw [← h5, h6]
      simp [setsNodes, setsEdges]

theorem deleteNodeU_acts {m m' : Mesh P} {n : Nat} {as : List (Act P)} (h : deleteNodeU m n = .ok (as, m')) :
    ∃ l r old, vget m.nodesEdges n = .ok l ∧ deleteEdgesU m l = .ok r ∧ setNode r.2 n none = .ok m' ∧
      as = r.1 ++ [.deleteNode n old] := by
  unfold deleteNodeU at h
  split at h
  · cases h
  · obtain ⟨old, _, h⟩ := Res.bind_eq_ok.1 h
    obtain ⟨l, hl, h⟩ := Res.bind_eq_ok.1 h
    obtain ⟨r, hr, h⟩ := Res.bind_eq_ok.1 h
    obtain ⟨m1, h1, h⟩ := Res.bind_eq_ok.1 h
    have h2 := Prod.mk.inj (Res.ok.inj h)
    exact ⟨l, r, old, hl, hr, by rw [← h2.2]; exact h1, h2.1.symm⟩

theorem resetEdgeU_nodes {m m' : Mesh P} {e : Nat} {v : Edge} {as : List (Act P)} (h : resetEdgeU m e v = .ok (as, m')) :
    m'.nodes = m.nodes ∧ as.any setsEdges = true := by
  unfold resetEdgeU at h
  obtain ⟨_, _, h⟩ := Res.bind_eq_ok.1 h
  obtain ⟨m1, h1, h⟩ := Res.bind_eq_ok.1 h
  have h2 := Prod.mk.inj (Res.ok.inj h)
  exact ⟨by rw [← h2.2, (resetEdge_eq h1).2], by rw [← h2.1]; rfl⟩

/-- An edit that does not ask for a new nodes tree leaves the nodes as they are. -/
theorem edit_nodes {m m' : Mesh P} {o : MeshOp P} {as : List (Act P)} (h : runOp m o = .ok (as, m'))
    (hb : setsBoth o = false) (hf : as.any setsNodes = false) : m'.nodes = m.nodes := by
  cases o with
  | insertNode v =>
    simp only [runOp, insertNodeU, Res.ok.injEq, Prod.mk.injEq] at h
    rw [← h.1] at hf; simp [setsNodes] at hf
  | connectNodes s t =>
    simp only [runOp, connectNodesU] at h
    obtain ⟨_, _, h⟩ := Res.bind_eq_ok.1 h
    split at h <;> rw [← (Prod.mk.inj (Res.ok.inj h)).2]
  | deleteEdge e => exact deleteEdgeU_nodes h
  | deleteNode n =>
    obtain ⟨l, r, old, _, _, _, h4⟩ := deleteNodeU_acts h
    rw [h4] at hf; simp [setsNodes] at hf
  | resetNode n v =>
    simp only [runOp, resetNodeU] at h
    split at h
    · cases h
    · obtain ⟨_, _, h⟩ := Res.bind_eq_ok.1 h
      obtain ⟨_, _, h⟩ := Res.bind_eq_ok.1 h
      rw [← (Prod.mk.inj (Res.ok.inj h)).1] at hf; simp [setsNodes] at hf
  | resetEdge e v => exact (resetEdgeU_nodes h).1
  | moveNodes new => simp [setsBoth] at hb
  | mergeTwoNodes a b =>
    rcases mergeTwoNodesU_sets h with h | h
    · rw [h]
    · rw [h.1] at hf; cases hf

theorem centreAt_congr {g : Geo P B} {m m' : Mesh P} (hn : m'.nodes = m.nodes) (he : m'.edges = m.edges) (i : Nat) :
    centreAt g m' i = centreAt g m i := by
  have e : edgeAt m' i = edgeAt m i := by unfold edgeAt; rw [he]
  unfold centreAt
  rw [e, hn]

/-- A node that no edge names does not matter for the midpoints. -/
theorem centreAt_of_free {g : Geo P B} {m m' : Mesh P} {n : Nat} (he : ∀ i, edgeAt m' i = edgeAt m i)
    (hn : ∀ j, j ≠ n → m'.nodes[j]?.join = m.nodes[j]?.join) (hf : Free m n) (i : Nat) :
    centreAt g m' i = centreAt g m i := by
  unfold centreAt
  rw [he i]
  have h := hf i
  unfold touches at h
  rw [hn _ (fun c => h (.inl c)), hn _ (fun c => h (.inr c))]

theorem deleteEdgesU_sets {l : List Nat} {m : Mesh P} {r : List (Act P) × Mesh P} (h : deleteEdgesU m l = .ok r)
    (hf : r.1.any setsEdges = false) : l = [] ∧ r.2 = m := by
  cases l with
  | nil => simp only [deleteEdgesU] at h; rw [← Res.ok.inj h]; exact ⟨rfl, rfl⟩
  | cons e es =>
    exfalso
    simp only [deleteEdgesU] at h
    obtain ⟨r1, h1, h⟩ := Res.bind_eq_ok.1 h
    obtain ⟨rs, _, h⟩ := Res.bind_eq_ok.1 h
    rw [← Res.ok.inj h] at hf
    unfold deleteEdgeU at h1
    split at h1
    · cases h1
    · obtain ⟨_, _, h1⟩ := Res.bind_eq_ok.1 h1
      obtain ⟨_, _, h1⟩ := Res.bind_eq_ok.1 h1
      rw [← Res.ok.inj h1] at hf
      simp [setsEdges] at hf

theorem nodes_set_ne {l : List (Option P)} {n : Nat} {v : Option P} {j : Nat} (h : j ≠ n) :
    (l.set n v)[j]?.join = l[j]?.join := by
  rw [List.getElem?_set_ne (Ne.symm h)]

/-- An edit that does not ask for a new edges tree leaves the midpoints as they are. -/
theorem edit_edges {g : Geo P B} {b : B} {s : Cached P B} {m' : Mesh P} {o : MeshOp P} {as : List (Act P)}
    (h : runOp s.mesh o = .ok (as, m')) (hb : setsBoth o = false) (hf : as.any setsEdges = false)
    (hc : CalmE g b s (.edit o)) (i : Nat) : centreAt g m' i = centreAt g s.mesh i := by
  cases o with
  | insertNode v =>
    simp only [runOp, insertNodeU, Res.ok.injEq, Prod.mk.injEq] at h
    rw [← h.2]
    refine centreAt_of_free (n := s.mesh.nodes.length) ?_ ?_ hc i
    · intro k; rfl
    intro j hj
    show (s.mesh.nodes ++ [v])[j]?.join = _
    rcases Nat.lt_or_ge j s.mesh.nodes.length with h1 | h1
    · rw [List.getElem?_append_left h1]
    · rw [List.getElem?_eq_none (by simp; omega), List.getElem?_eq_none h1]
  | connectNodes s' t =>
    simp only [runOp, connectNodesU] at h
    obtain ⟨_, _, h⟩ := Res.bind_eq_ok.1 h
    split at h
    · rw [← (Prod.mk.inj (Res.ok.inj h)).2]
    · rw [← (Prod.mk.inj (Res.ok.inj h)).1] at hf; simp [setsEdges] at hf
  | deleteEdge e =>
    simp only [runOp, deleteEdgeU] at h
    split at h
    · cases h
    · obtain ⟨_, _, h⟩ := Res.bind_eq_ok.1 h
      obtain ⟨_, _, h⟩ := Res.bind_eq_ok.1 h
      rw [← (Prod.mk.inj (Res.ok.inj h)).1] at hf; simp [setsEdges] at hf
  | deleteNode n =>
    obtain ⟨l, r, old, h1, h2, h3, h4⟩ := deleteNodeU_acts h
    rw [h4, List.any_append, Bool.or_eq_false_iff] at hf
    obtain ⟨rfl, h5⟩ := deleteEdgesU_sets h2 hf.1
    rw [h5] at h3
    have h6 := (setNode_eq h3).2
    rw [h6]
    refine centreAt_of_free (n := n) ?_ (fun j hj => nodes_set_ne hj) ?_ i
    · intro k; rfl
    intro k hk
    have := hc k hk
    unfold listAt at this
    rw [vget_eq_ok] at h1
    simp [h1] at this
  | resetNode n v =>
    simp only [runOp, resetNodeU] at h
    split at h
    · cases h
    · obtain ⟨_, _, h⟩ := Res.bind_eq_ok.1 h
      obtain ⟨_, _, h⟩ := Res.bind_eq_ok.1 h
      rw [← (Prod.mk.inj (Res.ok.inj h)).1] at hf; simp [setsEdges] at hf
  | resetEdge e v => rw [(resetEdgeU_nodes h).2] at hf; cases hf
  | moveNodes new => simp [setsBoth] at hb
  | mergeTwoNodes a b' =>
    rcases mergeTwoNodesU_sets h with h | h
    · rw [h]
    · rw [h.2] at hf; cases hf

/-- The effect of a write of a node by an action. -/
theorem setNode_centre {g : Geo P B} {m m' : Mesh P} {n : Nat} {v : Option P} (h : setNode m n v = .ok m') (hf : Free m n)
    (i : Nat) : centreAt g m' i = centreAt g m i := by
  rw [(setNode_eq h).2]
  refine centreAt_of_free (n := n) ?_ (fun j hj => nodes_set_ne hj) hf i
  intro k; rfl

theorem setNodeCount_centre {g : Geo P B} {m m' : Mesh P} {n : Nat} {v : Option P} (h : setNodeCount m n v = .ok m')
    (hf : Free m n) (i : Nat) : centreAt g m' i = centreAt g m i := by
  rw [(setNodeCount_eq h).2.2]
  refine centreAt_of_free (n := n) ?_ (fun j hj => nodes_set_ne hj) hf i
  intro k; rfl

/-- Actions that change nodes ask for a new nodes tree, but for translations. -/
theorem commitC_nodes {m : Mesh P} {a : Act P} {r : Act P × Mesh P} (h : commitC a m = .ok r) (hf : setsNodes a = false)
    (ht : ∀ l, a ≠ .translate l) : r.2.nodes = m.nodes := by
  cases a with
  | translate l => exact absurd rfl (ht l)
  | addNode | resetNode | deleteNode => simp [setsNodes] at hf
  | addEdge | resetEdge | deleteEdge =>
    simp only [commitC] at h
    obtain ⟨m1, h1, h⟩ := Res.bind_eq_ok.1 h
    rw [← Res.ok.inj h, (resetEdge_eq h1).2]

theorem restoreC_nodes {m : Mesh P} {a : Act P} {r : Act P × Mesh P} (h : restoreC a m = .ok r) (hf : setsNodes a = false)
    (ht : ∀ l, a ≠ .translate l) : r.2.nodes = m.nodes := by
  cases a with
  | translate l => exact absurd rfl (ht l)
  | addNode | resetNode | deleteNode => simp [setsNodes] at hf
  | addEdge | resetEdge | deleteEdge =>
    simp only [restoreC] at h
    obtain ⟨m1, h1, h⟩ := Res.bind_eq_ok.1 h
    rw [← Res.ok.inj h, (resetEdge_eq h1).2]

theorem commitC_edges {g : Geo P B} {b : B} {s : Cached P B} {a : Act P} {r : Act P × Mesh P} (h : commitC a s.mesh = .ok r)
    (hf : setsEdges a = false) (hc : CalmE g b s (.commit a)) (i : Nat) : centreAt g r.2 i = centreAt g s.mesh i := by
  cases a with
  | translate l => exact absurd hc id
  | addEdge | resetEdge | deleteEdge | resetNode => simp [setsEdges] at hf
  | addNode =>
    simp only [commitC] at h
    obtain ⟨m1, h1, h⟩ := Res.bind_eq_ok.1 h
    rw [← Res.ok.inj h]
    exact setNodeCount_centre h1 hc i
  | deleteNode =>
    simp only [commitC] at h
    obtain ⟨m1, h1, h⟩ := Res.bind_eq_ok.1 h
    rw [← Res.ok.inj h]
    exact setNode_centre h1 hc i

theorem restoreC_edges {g : Geo P B} {b : B} {s : Cached P B} {a : Act P} {r : Act P × Mesh P} (h : restoreC a s.mesh = .ok r)
    (hf : setsEdges a = false) (hc : CalmE g b s (.restore a)) (i : Nat) : centreAt g r.2 i = centreAt g s.mesh i := by
  cases a with
  | translate l => exact absurd hc id
  | addEdge | resetEdge | deleteEdge | resetNode => simp [setsEdges] at hf
  | addNode =>
    simp only [restoreC] at h
    obtain ⟨m1, h1, h⟩ := Res.bind_eq_ok.1 h
    rw [← Res.ok.inj h]
    exact setNodeCount_centre h1 hc i
  | deleteNode =>
    simp only [restoreC] at h
    obtain ⟨m1, h1, h⟩ := Res.bind_eq_ok.1 h
    rw [← Res.ok.inj h]
    exact setNode_centre h1 hc i

/-! ### Runs -/

/-- The nodes tree is to be rebuilt, or shows the current nodes. -/
def InvN (g : Geo P B) (b : B) (s : Cached P B) : Prop :=
  s.nodesDirty = true ∨ Shows g s.nodesTree (NodeIs s.mesh) b

/-- The edges tree is to be rebuilt, or shows the current midpoints. -/
def InvE (g : Geo P B) (b : B) (s : Cached P B) : Prop :=
  s.edgesDirty = true ∨ Shows g s.edgesTree (EdgeIs g s.mesh) b

/-- What a query for box `b` does to the trees. -/
theorem buildTree_inv {g : Geo P B} {b : B} (s : Cached P B) (l : Loc) {s1 : Cached P B} (h : buildTree g s l b = .ok s1) :
    (l = .nodes → Shows g s1.nodesTree (NodeIs s1.mesh) b ∨ (s1 = s ∧ s.nodesDirty = false)) ∧
    (l = .edges → Shows g s1.edgesTree (EdgeIs g s1.mesh) b ∨ (s1 = s ∧ s.edgesDirty = false)) ∧
    (l ≠ .nodes → s1.nodesTree = s.nodesTree ∧ s1.nodesDirty = s.nodesDirty) ∧
    (l ≠ .edges → s1.edgesTree = s.edgesTree ∧ s1.edgesDirty = s.edgesDirty) ∧
    (l ≠ .faces → s1.mesh = s.mesh) ∧
    (l = .faces → s1.mesh = s.mesh ∨ administrate g.order s.mesh = .ok s1.mesh) := by
  cases l with
  | faces =>
    simp only [buildTree] at h
    split at h
    · obtain ⟨m, hm, h⟩ := Res.bind_eq_ok.1 h
      rw [← Res.ok.inj h]
      simp [hm]
    · rw [← Res.ok.inj h]
      simp
  | nodes =>
    simp only [buildTree] at h
    split at h
    · rw [← Res.ok.inj h]
      simp only [ne_eq, not_true_eq_false, false_implies, true_implies, reduceCtorEq, not_false_eq_true, and_self]
      exact ⟨.inl (shows_nodes g _ b), trivial⟩
    · next hc =>
      rw [← Res.ok.inj h]
      simp only [Bool.or_eq_true, not_or, Bool.not_eq_true] at hc
      simp [hc.1]
  | edges =>
    simp only [buildTree] at h
    split at h
    · obtain ⟨c, hm, h⟩ := Res.bind_eq_ok.1 h
      rw [← Res.ok.inj h]
      simp only [ne_eq, not_true_eq_false, false_implies, true_implies, reduceCtorEq, not_false_eq_true, and_self, true_and]
      exact ⟨.inl (shows_edges hm b), trivial⟩
    · next hc =>
      rw [← Res.ok.inj h]
      simp only [Bool.or_eq_true, not_or, Bool.not_eq_true] at hc
      simp [hc.1]

theorem nodeIs_congr {m m' : Mesh P} (h : m'.nodes = m.nodes) : NodeIs m' = NodeIs m := by
  funext i q; simp [NodeIs, h]

theorem edgeIs_congr {g : Geo P B} {m m' : Mesh P} (h : ∀ i, centreAt g m' i = centreAt g m i) : EdgeIs g m' = EdgeIs g m := by
  funext i q; simp [EdgeIs, h]

theorem step_invN {g : Geo P B} {b : B} {s s1 : Cached P B} {o : Op P B} (hi : InvN g b s) (hc : CalmN g b s o)
    (h : step g s o = .ok s1) : InvN g b s1 := by
  cases o with
  | edit o =>
    simp only [step, edit] at h
    obtain ⟨r, hr, h⟩ := Res.bind_eq_ok.1 h
    rw [← Res.ok.inj h]
    cases hd : s.nodesDirty <;> cases hb : setsBoth o <;> cases hf : r.1.any setsNodes
    case false.false.false =>
      right
      show Shows g s.nodesTree (NodeIs r.2) b
      rw [nodeIs_congr (edit_nodes hr hb hf)]
      exact hi.resolve_left (by rw [hd]; simp)
    all_goals left; simp
  | commit a =>
    simp only [step, commit] at h
    obtain ⟨r, hr, h⟩ := Res.bind_eq_ok.1 h
    rw [← Res.ok.inj h]
    cases hd : s.nodesDirty <;> cases hf : setsNodes a
    case false.false =>
      right
      show Shows g s.nodesTree (NodeIs r.2) b
      rw [nodeIs_congr (commitC_nodes hr hf hc)]
      exact hi.resolve_left (by rw [hd]; simp)
    all_goals left; simp
  | restore a =>
    simp only [step, restore] at h
    obtain ⟨r, hr, h⟩ := Res.bind_eq_ok.1 h
    rw [← Res.ok.inj h]
    cases hd : s.nodesDirty <;> cases hf : setsNodes a
    case false.false =>
      right
      show Shows g s.nodesTree (NodeIs r.2) b
      rw [nodeIs_congr (restoreC_nodes hr hf hc)]
      exact hi.resolve_left (by rw [hd]; simp)
    all_goals left; simp
  | query l b' =>
    obtain ⟨rfl, hc⟩ := hc
    obtain ⟨q1, q2, q3, q4, q5, q6⟩ := buildTree_inv s l h
    unfold InvN
    cases l with
    | nodes =>
      rcases q1 rfl with q | q
      · exact .inr q
      · rw [q.1]; exact hi
    | edges =>
      rw [(q3 (by simp)).1, (q3 (by simp)).2, q5 (by simp)]; exact hi
    | faces =>
      have hn : s1.mesh.nodes = s.mesh.nodes := by
        rcases q6 rfl with q | q
        · rw [q]
        · exact hc rfl _ q
      rw [(q3 (by simp)).1, (q3 (by simp)).2, nodeIs_congr hn]; exact hi

theorem step_invE {g : Geo P B} {b : B} {s s1 : Cached P B} {o : Op P B} (hi : InvE g b s) (hc : CalmE g b s o)
    (h : step g s o = .ok s1) : InvE g b s1 := by
  cases o with
  | edit o =>
    simp only [step, edit] at h
    obtain ⟨r, hr, h⟩ := Res.bind_eq_ok.1 h
    rw [← Res.ok.inj h]
    cases hd : s.edgesDirty <;> cases hb : setsBoth o <;> cases hf : r.1.any setsEdges
    case false.false.false =>
      right
      show Shows g s.edgesTree (EdgeIs g r.2) b
      rw [edgeIs_congr (edit_edges hr hb hf hc)]
      exact hi.resolve_left (by rw [hd]; simp)
    all_goals left; simp
  | commit a =>
    simp only [step, commit] at h
    obtain ⟨r, hr, h⟩ := Res.bind_eq_ok.1 h
    rw [← Res.ok.inj h]
    cases hd : s.edgesDirty <;> cases hf : setsEdges a
    case false.false =>
      right
      show Shows g s.edgesTree (EdgeIs g r.2) b
      rw [edgeIs_congr (commitC_edges hr hf hc)]
      exact hi.resolve_left (by rw [hd]; simp)
    all_goals left; simp
  | restore a =>
    simp only [step, restore] at h
    obtain ⟨r, hr, h⟩ := Res.bind_eq_ok.1 h
    rw [← Res.ok.inj h]
    cases hd : s.edgesDirty <;> cases hf : setsEdges a
    case false.false =>
      right
      show Shows g s.edgesTree (EdgeIs g r.2) b
      rw [edgeIs_congr (restoreC_edges hr hf hc)]
      exact hi.resolve_left (by rw [hd]; simp)
    all_goals left; simp
  | query l b' =>
    obtain ⟨rfl, hc⟩ := hc
    obtain ⟨q1, q2, q3, q4, q5, q6⟩ := buildTree_inv s l h
    unfold InvE
    cases l with
    | edges =>
      rcases q2 rfl with q | q
      · exact .inr q
      · rw [q.1]; exact hi
    | nodes =>
      rw [(q4 (by simp)).1, (q4 (by simp)).2, q5 (by simp)]; exact hi
    | faces =>
      have hn : ∀ i, centreAt g s1.mesh i = centreAt g s.mesh i := by
        rcases q6 rfl with q | q
        · rw [q]; exact fun _ => rfl
        · exact fun i => centreAt_congr (hc rfl _ q).1 (hc rfl _ q).2 i
      rw [(q4 (by simp)).1, (q4 (by simp)).2, edgeIs_congr hn]; exact hi

theorem run_inv {g : Geo P B} {c : Cached P B → Op P B → Prop} {I : Cached P B → Prop}
    (hstep : ∀ {s s1 o}, I s → c s o → step g s o = .ok s1 → I s1) : ∀ {ops : List (Op P B)} {s s' : Cached P B},
    I s → Calm g c s ops → run g s ops = .ok s' → I s' := by
  intro ops
  induction ops with
  | nil => intro s s' hi _ h; simp only [run] at h; rw [← Res.ok.inj h]; exact hi
  | cons o os ih =>
    intro s s' hi hc h
    simp only [run] at h
    obtain ⟨s1, h1, h⟩ := Res.bind_eq_ok.1 h
    simp only [Calm] at hc
    exact ih (hstep hi hc.1 h1) (hc.2 s1 h1) h

end Verif.Cache
