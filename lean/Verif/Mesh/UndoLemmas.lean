import Verif.Mesh.Spec
import Verif.Mesh.UndoModel
import Verif.Undo.Props
/-!
# Lemmas about undo actions of meshes
-/
namespace Verif.Mesh
variable {P : Type}

open Undo (Sem Records Action)

/-- What a mesh contains: the valid node at each index and the edge at each index.  Entries beyond
the end of the vectors count as invalid, like deleted ones. -/
@[ext] structure Content (P : Type) where
  node : Nat → Option P
  edge : Nat → Edge

/-- Contents of a mesh. -/
def content (m : Mesh P) : Content P := ⟨fun i => (m.nodes[i]?).join, edgeAt m⟩

/-- Replace one value of a function. -/
def updN {α : Type} (f : Nat → α) (i : Nat) (v : α) : Nat → α := fun j => if j = i then v else f j

@[simp] theorem updN_same {α : Type} (f : Nat → α) (i : Nat) (v : α) : updN f i v i = v := by simp [updN]

theorem updN_updN {α : Type} (f : Nat → α) (i : Nat) (v w : α) : updN (updN f i v) i w = updN f i w := by
  funext j; simp only [updN]; split <;> rfl

theorem updN_self {α : Type} (f : Nat → α) (i : Nat) (v : α) (h : f i = v) : updN f i v = f := by
  funext j
  simp only [updN]
  split
  · rename_i hj; rw [hj, h]
  · rfl

theorem updN_comm {α : Type} (f : Nat → α) {i j : Nat} (v w : α) (h : i ≠ j) :
    updN (updN f i v) j w = updN (updN f j w) i v := by
  funext k; simp only [updN]; split <;> split <;> simp_all

/-- Exchange saved values with those of a function. -/
def swapFn : List (Nat × Option P) → (Nat → Option P) → List (Nat × Option P) × (Nat → Option P)
  | [], f => ([], f)
  | (i, v) :: r, f =>
    let rs := swapFn r (updN f i v)
    ((i, f i) :: rs.1, rs.2)

/-- The actions on contents. -/
def contentSem (P : Type) : Sem (Act P) (Content P) where
  doCommit a s := match a with
    | .addNode i v => (a, { s with node := updN s.node i v })
    | .addEdge i e => (a, { s with edge := updN s.edge i e })
    | .resetNode i _ u => (a, { s with node := updN s.node i u })
    | .resetEdge i _ u => (a, { s with edge := updN s.edge i u })
    | .deleteEdge i _ => (a, { s with edge := updN s.edge i noEdge })
    | .deleteNode i _ => (a, { s with node := updN s.node i none })
    | .translate l => (.translate (swapFn l s.node).1, { s with node := (swapFn l s.node).2 })
  doRestore a s := match a with
    | .addNode i _ => (a, { s with node := updN s.node i none })
    | .addEdge i _ => (a, { s with edge := updN s.edge i noEdge })
    | .resetNode i o _ => (a, { s with node := updN s.node i o })
    | .resetEdge i o _ => (a, { s with edge := updN s.edge i o })
    | .deleteEdge i e => (a, { s with edge := updN s.edge i e })
    | .deleteNode i v => (a, { s with node := updN s.node i v })
    | .translate l => (.translate (swapFn l s.node).1, { s with node := (swapFn l s.node).2 })

theorem swapFn_keys (l : List (Nat × Option P)) (f : Nat → Option P) :
    (swapFn l f).1.map Prod.fst = l.map Prod.fst := by
  induction l generalizing f with
  | nil => rfl
  | cons p l ih => simp [swapFn, ih]

theorem swapFn_other (l : List (Nat × Option P)) (f : Nat → Option P) (i : Nat)
    (h : i ∉ l.map Prod.fst) : (swapFn l f).2 i = f i := by
  induction l generalizing f with
  | nil => rfl
  | cons p l ih =>
    simp at h
    simp only [swapFn]
    rw [ih _ (by simpa using h.2)]
    simp [updN, h.1]

theorem swapFn_updN (l : List (Nat × Option P)) (f : Nat → Option P) (i : Nat) (v : Option P)
    (h : i ∉ l.map Prod.fst) :
    swapFn l (updN f i v) = ((swapFn l f).1, updN (swapFn l f).2 i v) := by
  induction l generalizing f with
  | nil => rfl
  | cons p l ih =>
    have hi : i ≠ p.1 ∧ i ∉ l.map Prod.fst := by
      rw [List.map_cons, List.mem_cons] at h
      exact ⟨fun q => h (Or.inl q), fun q => h (Or.inr q)⟩
    simp only [swapFn]
    rw [updN_comm _ _ _ hi.1, ih _ hi.2]
    simp [updN, Ne.symm hi.1]

theorem swapFn_swapFn (l : List (Nat × Option P)) (f : Nat → Option P) (h : (l.map Prod.fst).Nodup) :
    swapFn (swapFn l f).1 (swapFn l f).2 = (l, f) := by
  induction l generalizing f with
  | nil => rfl
  | cons p l ih =>
    obtain ⟨i, v⟩ := p
    rw [List.map_cons, List.nodup_cons] at h
    simp only [swapFn]
    have hk : i ∉ ((swapFn l (updN f i v)).1).map Prod.fst := by rw [swapFn_keys]; exact h.1
    rw [swapFn_updN _ _ _ _ hk, ih _ h.2, swapFn_other _ _ _ h.1]
    simp only [updN_same]
    rw [updN_updN, updN_self _ _ _ rfl]

/-! ### Records on contents -/

theorem rec_addNode (s : Content P) (i : Nat) (v : Option P) (h : s.node i = none) :
    Records (contentSem P) (.addNode i v) s { s with node := updN s.node i v } :=
  ⟨.addNode i v, by simp [contentSem, updN_updN, updN_self _ _ _ h], rfl⟩

theorem rec_addEdge (s : Content P) (i : Nat) (e : Edge) (h : s.edge i = noEdge) :
    Records (contentSem P) (.addEdge i e) s { s with edge := updN s.edge i e } :=
  ⟨.addEdge i e, by simp [contentSem, updN_updN, updN_self _ _ _ h], rfl⟩

theorem rec_resetNode (s : Content P) (i : Nat) (o v : Option P) (h : s.node i = o) :
    Records (contentSem P) (.resetNode i o v) s { s with node := updN s.node i v } :=
  ⟨.resetNode i o v, by simp [contentSem, updN_updN, updN_self _ _ _ h], rfl⟩

theorem rec_resetEdge (s : Content P) (i : Nat) (o e : Edge) (h : s.edge i = o) :
    Records (contentSem P) (.resetEdge i o e) s { s with edge := updN s.edge i e } :=
  ⟨.resetEdge i o e, by simp [contentSem, updN_updN, updN_self _ _ _ h], rfl⟩

theorem rec_deleteEdge (s : Content P) (i : Nat) (e : Edge) (h : s.edge i = e) :
    Records (contentSem P) (.deleteEdge i e) s { s with edge := updN s.edge i noEdge } :=
  ⟨.deleteEdge i e, by simp [contentSem, updN_updN, updN_self _ _ _ h], rfl⟩

theorem rec_deleteNode (s : Content P) (i : Nat) (v : Option P) (h : s.node i = v) :
    Records (contentSem P) (.deleteNode i v) s { s with node := updN s.node i none } :=
  ⟨.deleteNode i v, by simp [contentSem, updN_updN, updN_self _ _ _ h], rfl⟩

theorem rec_translate (s : Content P) (l : List (Nat × Option P)) (h : (l.map Prod.fst).Nodup) :
    Records (contentSem P) (.translate (swapFn l s.node).1) s { s with node := (swapFn l s.node).2 } := by
  refine ⟨.translate l, ?_, ?_⟩
  · simp [contentSem, swapFn_swapFn l s.node h]
  · rfl

/-! ### Concrete operations and contents -/

theorem content_setNode {m : Mesh P} {i : Nat} (v : Option P) (h : i < m.nodes.length) :
    (fun j => ((m.nodes.set i v)[j]?).join) = updN (content m).node i v := by
  funext j
  simp only [updN, content]
  by_cases hj : j = i
  · subst hj; simp [h]
  · simp [Ne.symm hj, hj]

theorem edgeAt_set' {m : Mesh P} {i : Nat} (e : Edge) (h : i < m.edges.length) :
    (fun j => ((m.edges.set i e)[j]?).getD noEdge) = updN (content m).edge i e := by
  funext j
  simp only [updN, content, edgeAt]
  by_cases hj : j = i
  · subst hj; simp [h]
  · simp [Ne.symm hj, hj]

theorem setNode_eq {m m' : Mesh P} {i : Nat} {v : Option P} (h : setNode m i v = .ok m') :
    i < m.nodes.length ∧ m' = { m with nodes := m.nodes.set i v } := by
  unfold setNode at h
  simp only [Res.bind_eq_ok, vset_eq_ok] at h
  obtain ⟨ns, ⟨h1, h2⟩, h3⟩ := h
  subst h2
  simp at h3
  exact ⟨h1, h3.symm⟩

theorem resetEdge_eq {m m' : Mesh P} {i : Nat} {e : Edge} (h : resetEdge m i e = .ok m') :
    i < m.edges.length ∧ m' = { m with edges := m.edges.set i e } := by
  unfold resetEdge at h
  simp only [Res.bind_eq_ok, vset_eq_ok] at h
  obtain ⟨ns, ⟨h1, h2⟩, h3⟩ := h
  subst h2
  simp at h3
  exact ⟨h1, h3.symm⟩

theorem setNodeCount_eq {m m' : Mesh P} {i : Nat} {v : Option P} (h : setNodeCount m i v = .ok m') :
    i < m.nodes.length ∧ i < m.numEdges.length ∧
      m' = { m with nodes := m.nodes.set i v, numEdges := m.numEdges.set i 0 } := by
  unfold setNodeCount at h
  simp only [Res.bind_eq_ok, vset_eq_ok] at h
  obtain ⟨ns, ⟨h1, h2⟩, nu, ⟨h4, h5⟩, h3⟩ := h
  subst h2 h5
  simp at h3
  exact ⟨h1, h4, h3.symm⟩

theorem swapNodes_eq (l : List (Nat × Option P)) (ns : List (Option P)) {r : List (Nat × Option P) × List (Option P)}
    (h : swapNodes l ns = .ok r) :
    r.1 = (swapFn l (fun i => (ns[i]?).join)).1 ∧ (fun i => (r.2[i]?).join) = (swapFn l (fun i => (ns[i]?).join)).2 ∧
      r.2.length = ns.length ∧ ∀ p ∈ l, p.1 < ns.length := by
  induction l generalizing ns r with
  | nil =>
    simp [swapNodes] at h
    subst h
    simp [swapFn]
  | cons p l ih =>
    obtain ⟨i, v⟩ := p
    simp only [swapNodes, Res.bind_eq_ok, vget_eq_ok, vset_eq_ok] at h
    obtain ⟨old, h1, ns1, ⟨h2, h3⟩, rs, h4, h5⟩ := h
    subst h3
    simp at h5
    obtain ⟨i1, i2, i3, i4⟩ := ih _ h4
    have hf : (fun j => ((ns.set i v)[j]?).join) = updN (fun j => (ns[j]?).join) i v := by
      funext j
      simp only [updN]
      by_cases hj : j = i
      · subst hj; simp [h2]
      · simp [Ne.symm hj, hj]
    rw [hf] at i1 i2
    subst h5
    refine ⟨?_, ?_, ?_, ?_⟩
    · simp only [swapFn, i1, h1, Option.join_some]
    · simp only [swapFn, i2]
    · simpa using i3
    · intro q hq
      simp at hq
      rcases hq with rfl | hq
      · exact h2
      · have := i4 q hq; simpa using this

theorem swapNodes_ok (l : List (Nat × Option P)) (ns : List (Option P)) (h : ∀ p ∈ l, p.1 < ns.length) :
    ∃ r, swapNodes l ns = .ok r := by
  induction l generalizing ns with
  | nil => exact ⟨_, rfl⟩
  | cons p l ih =>
    obtain ⟨i, v⟩ := p
    have hi : i < ns.length := h (i, v) (by simp)
    obtain ⟨r, hr⟩ := ih (ns.set i v) (by intro q hq; simpa using h q (by simp [hq]))
    exact ⟨((i, ns[i]) :: r.1, r.2), by simp [swapNodes, vget_ok hi, vset_ok _ hi, hr]⟩

/-- The indices in an action are valid for vectors of these sizes. -/
def Act.Fits (nN nE : Nat) : Act P → Prop
  | .addNode i _ => i < nN
  | .addEdge i _ => i < nE
  | .resetNode i _ _ => i < nN
  | .resetEdge i _ _ => i < nE
  | .deleteEdge i _ => i < nE
  | .deleteNode i _ => i < nN
  | .translate l => (∀ p ∈ l, p.1 < nN) ∧ l.length ≤ nN

theorem Act.Fits.mono {nN nE nN' nE' : Nat} {a : Act P} (h : a.Fits nN nE) (h1 : nN ≤ nN') (h2 : nE ≤ nE') :
    a.Fits nN' nE' := by
  cases a <;> simp only [Act.Fits] at * <;> try omega
  exact ⟨fun p hp => by have := h.1 p hp; omega, by omega⟩

/-- Vector sizes. -/
structure SameSize (m m' : Mesh P) : Prop where
  nodes : m'.nodes.length = m.nodes.length
  edges : m'.edges.length = m.edges.length
  counts : m'.numEdges.length = m.numEdges.length

theorem translateC_sim {m : Mesh P} {l : List (Nat × Option P)} (h : (Act.translate l).Fits m.nodes.length m.edges.length) :
    ∃ b m', translateC m l = .ok (b, m') ∧
      b = .translate (swapFn l (content m).node).1 ∧ content m' = { content m with node := (swapFn l (content m).node).2 } ∧
      SameSize m m' ∧ b.Fits m.nodes.length m.edges.length := by
  obtain ⟨h1, h2⟩ := h
  obtain ⟨r, hr⟩ := swapNodes_ok l m.nodes h1
  obtain ⟨e1, e2, e3, _⟩ := swapNodes_eq _ _ hr
  refine ⟨.translate r.1, { m with nodes := r.2 }, ?_, ?_, ?_, ⟨e3, rfl, rfl⟩, ?_⟩
  · unfold translateC; rw [if_neg (by omega)]; simp [hr]
  · rw [e1]; rfl
  · simp only [content] at e2 ⊢
    rw [e2]
    rfl
  · have hk := swapFn_keys l (fun i => (m.nodes[i]?).join)
    rw [← e1] at hk
    refine ⟨?_, ?_⟩
    · intro p hp
      have : p.1 ∈ l.map Prod.fst := by rw [← hk]; exact List.mem_map_of_mem hp
      rw [List.mem_map] at this
      obtain ⟨q, hq, hqp⟩ := this
      rw [← hqp]; exact h1 q hq
    · have := congrArg List.length hk
      simp at this
      rw [this]; exact h2

/-- A fitting action can be restored; the contents change as specified. -/
theorem restoreC_sim {m : Mesh P} {a : Act P} (h : a.Fits m.nodes.length m.edges.length)
    (hc : m.numEdges.length = m.nodes.length) :
    ∃ b m', restoreC a m = .ok (b, m') ∧ (contentSem P).doRestore a (content m) = (b, content m') ∧
      SameSize m m' ∧ b.Fits m.nodes.length m.edges.length := by
  cases a with
  | addNode i v =>
    have h : i < m.nodes.length := h
    refine ⟨.addNode i v, { m with nodes := m.nodes.set i none, numEdges := m.numEdges.set i 0 }, by simp [restoreC, setNodeCount, vset_ok _ h, vset_ok _ (hc ▸ h : i < m.numEdges.length)], ?_, ?_, h⟩
    · simp only [contentSem, Prod.mk.injEq, true_and]
      rw [← content_setNode none h]; rfl
    · exact ⟨by simp, rfl, by simp⟩
  | addEdge i e =>
    have h : i < m.edges.length := h
    refine ⟨.addEdge i e, { m with edges := m.edges.set i noEdge }, by simp [restoreC, resetEdge, vset_ok _ h], ?_, ⟨rfl, by simp, rfl⟩, h⟩
    simp only [contentSem, Prod.mk.injEq, true_and]
    rw [← edgeAt_set' noEdge h]; rfl
  | resetNode i o u =>
    have h : i < m.nodes.length := h
    refine ⟨.resetNode i o u, { m with nodes := m.nodes.set i o }, by simp [restoreC, setNode, vset_ok _ h], ?_, ⟨by simp, rfl, rfl⟩, h⟩
    simp only [contentSem, Prod.mk.injEq, true_and]
    rw [← content_setNode o h]; rfl
  | resetEdge i o u =>
    have h : i < m.edges.length := h
    refine ⟨.resetEdge i o u, { m with edges := m.edges.set i o }, by simp [restoreC, resetEdge, vset_ok _ h], ?_, ⟨rfl, by simp, rfl⟩, h⟩
    simp only [contentSem, Prod.mk.injEq, true_and]
    rw [← edgeAt_set' o h]; rfl
  | deleteEdge i e =>
    have h : i < m.edges.length := h
    refine ⟨.deleteEdge i e, { m with edges := m.edges.set i e }, by simp [restoreC, resetEdge, vset_ok _ h], ?_, ⟨rfl, by simp, rfl⟩, h⟩
    simp only [contentSem, Prod.mk.injEq, true_and]
    rw [← edgeAt_set' e h]; rfl
  | deleteNode i v =>
    have h : i < m.nodes.length := h
    refine ⟨.deleteNode i v, { m with nodes := m.nodes.set i v }, by simp [restoreC, setNode, vset_ok _ h], ?_, ⟨by simp, rfl, rfl⟩, h⟩
    simp only [contentSem, Prod.mk.injEq, true_and]
    rw [← content_setNode v h]; rfl
  | translate l =>
    obtain ⟨b, m', h1, h2, h3, h4, h5⟩ := translateC_sim h
    exact ⟨b, m', h1, by simp [contentSem, h2, h3], h4, h5⟩

theorem commitC_sim {m : Mesh P} {a : Act P} (h : a.Fits m.nodes.length m.edges.length)
    (hc : m.numEdges.length = m.nodes.length) :
    ∃ b m', commitC a m = .ok (b, m') ∧ (contentSem P).doCommit a (content m) = (b, content m') ∧
      SameSize m m' ∧ b.Fits m.nodes.length m.edges.length := by
  cases a with
  | addNode i v =>
    have h : i < m.nodes.length := h
    refine ⟨.addNode i v, { m with nodes := m.nodes.set i v, numEdges := m.numEdges.set i 0 }, by simp [commitC, setNodeCount, vset_ok _ h, vset_ok _ (hc ▸ h : i < m.numEdges.length)], ?_, ?_, h⟩
    · simp only [contentSem, Prod.mk.injEq, true_and]
      rw [← content_setNode v h]; rfl
    · exact ⟨by simp, rfl, by simp⟩
  | addEdge i e =>
    have h : i < m.edges.length := h
    refine ⟨.addEdge i e, { m with edges := m.edges.set i e }, by simp [commitC, resetEdge, vset_ok _ h], ?_, ⟨rfl, by simp, rfl⟩, h⟩
    simp only [contentSem, Prod.mk.injEq, true_and]
    rw [← edgeAt_set' e h]; rfl
  | resetNode i o u =>
    have h : i < m.nodes.length := h
    refine ⟨.resetNode i o u, { m with nodes := m.nodes.set i u }, by simp [commitC, setNode, vset_ok _ h], ?_, ⟨by simp, rfl, rfl⟩, h⟩
    simp only [contentSem, Prod.mk.injEq, true_and]
    rw [← content_setNode u h]; rfl
  | resetEdge i o u =>
    have h : i < m.edges.length := h
    refine ⟨.resetEdge i o u, { m with edges := m.edges.set i u }, by simp [commitC, resetEdge, vset_ok _ h], ?_, ⟨rfl, by simp, rfl⟩, h⟩
    simp only [contentSem, Prod.mk.injEq, true_and]
    rw [← edgeAt_set' u h]; rfl
  | deleteEdge i e =>
    have h : i < m.edges.length := h
    refine ⟨.deleteEdge i e, { m with edges := m.edges.set i noEdge }, by simp [commitC, resetEdge, vset_ok _ h], ?_, ⟨rfl, by simp, rfl⟩, h⟩
    simp only [contentSem, Prod.mk.injEq, true_and]
    rw [← edgeAt_set' noEdge h]; rfl
  | deleteNode i v =>
    have h : i < m.nodes.length := h
    refine ⟨.deleteNode i v, { m with nodes := m.nodes.set i none }, by simp [commitC, setNode, vset_ok _ h], ?_, ⟨by simp, rfl, rfl⟩, h⟩
    simp only [contentSem, Prod.mk.injEq, true_and]
    rw [← content_setNode none h]; rfl
  | translate l =>
    obtain ⟨b, m', h1, h2, h3, h4, h5⟩ := translateC_sim h
    exact ⟨b, m', h1, by simp [contentSem, h2, h3], h4, h5⟩

/-! ### The editing functions record their changes -/

/-- A chain of actions recording consecutive steps. -/
inductive AChain : Content P → List (Act P) → Content P → Prop
  | nil (s) : AChain s [] s
  | cons {s t u a as} : Records (contentSem P) a s t → AChain t as u → AChain s (a :: as) u

theorem AChain.append {s t u : Content P} {as bs : List (Act P)} (h1 : AChain s as t) (h2 : AChain t bs u) :
    AChain s (as ++ bs) u := by
  induction h1 with
  | nil => exact h2
  | cons hr _ ih => exact .cons hr (ih h2)

theorem AChain.single {s t : Content P} {a : Act P} (h : Records (contentSem P) a s t) : AChain s [a] t :=
  .cons h (.nil _)

/-- Wrap actions as committed children of a compound. -/
def committed (as : List (Act P)) : List (Action (Act P)) := as.map (fun a => ⟨.committed, a⟩)

theorem AChain.chain {s t : Content P} {as : List (Act P)} (h : AChain s as t) :
    Undo.Chain (contentSem P) s (committed as) t := by
  induction h with
  | nil s => exact .nil s
  | cons hr _ ih => exact .cons rfl hr ih

/-- An edit from `m` to `m'` with actions `as` is recorded. -/
structure Good (m : Mesh P) (as : List (Act P)) (m' : Mesh P) : Prop where
  chain : AChain (content m) as (content m')
  nodes : m.nodes.length ≤ m'.nodes.length
  edges : m.edges.length ≤ m'.edges.length
  fits : ∀ a ∈ as, a.Fits m'.nodes.length m'.edges.length
  counts : m.numEdges.length = m.nodes.length → m'.numEdges.length = m'.nodes.length

theorem Good.refl (m : Mesh P) : Good m [] m := ⟨.nil _, Nat.le_refl _, Nat.le_refl _, by simp, id⟩

theorem Good.trans {m m1 m2 : Mesh P} {as bs : List (Act P)} (h1 : Good m as m1) (h2 : Good m1 bs m2) :
    Good m (as ++ bs) m2 := by
  refine ⟨h1.chain.append h2.chain, Nat.le_trans h1.nodes h2.nodes, Nat.le_trans h1.edges h2.edges, ?_,
    fun h => h2.counts (h1.counts h)⟩
  intro a ha
  rw [List.mem_append] at ha
  cases ha with
  | inl h => exact (h1.fits a h).mono h2.nodes h2.edges
  | inr h => exact h2.fits a h

/-- Changing only the administration keeps the contents. -/
theorem Good.admin {m m' : Mesh P} {as : List (Act P)} (h : Good m as m') (ne : List (List Nat)) (nu : List Nat)
    (hl : nu.length = m'.numEdges.length) : Good m as { m' with nodesEdges := ne, numEdges := nu } :=
  ⟨h.chain, h.nodes, h.edges, h.fits, fun q => by show nu.length = _; rw [hl]; exact h.counts q⟩

theorem edgeAt_of_vget {m : Mesh P} {i : Nat} {e : Edge} (h : vget m.edges i = .ok e) : edgeAt m i = e := by
  rw [vget_eq_ok] at h; simp [edgeAt, h]

theorem deleteEdgeU_good {m m' : Mesh P} {e : Nat} {as : List (Act P)} (h : deleteEdgeU m e = .ok (as, m')) :
    Good m as m' := by
  unfold deleteEdgeU at h
  split at h
  · simp at h
  · simp only [Res.bind_eq_ok] at h
    obtain ⟨old, h1, m1, h2, h3⟩ := h
    obtain ⟨h4, h5⟩ := resetEdge_eq h2
    simp at h3
    obtain ⟨h6, h7⟩ := h3
    subst h6 h7 h5
    refine ⟨.single ?_, Nat.le_refl _, by simp, ?_, id⟩
    · have := rec_deleteEdge (content m) e old (edgeAt_of_vget h1)
      rw [← edgeAt_set' noEdge h4] at this
      exact this
    · simp [Act.Fits, h4]

theorem resetEdgeU_good {m m' : Mesh P} {e : Nat} {v : Edge} {as : List (Act P)} (h : resetEdgeU m e v = .ok (as, m')) :
    Good m as m' := by
  unfold resetEdgeU at h
  simp only [Res.bind_eq_ok] at h
  obtain ⟨old, h1, m1, h2, h3⟩ := h
  obtain ⟨h4, h5⟩ := resetEdge_eq h2
  simp at h3
  obtain ⟨h6, h7⟩ := h3
  subst h6 h7 h5
  refine ⟨.single ?_, Nat.le_refl _, by simp, ?_, id⟩
  · have := rec_resetEdge (content m) e old v (edgeAt_of_vget h1)
    rw [← edgeAt_set' v h4] at this
    exact this
  · simp [Act.Fits, h4]

theorem setNode_good {m m' : Mesh P} {n : Nat} {old v : Option P} (h1 : vget m.nodes n = .ok old)
    (h2 : setNode m n v = .ok m') : Good m [.resetNode n old v] m' := by
  obtain ⟨h4, h5⟩ := setNode_eq h2
  subst h5
  refine ⟨.single ?_, by simp, Nat.le_refl _, by simp [Act.Fits, h4], fun q => by simpa using q⟩
  have hold : (content m).node n = old := by
    rw [vget_eq_ok] at h1; simp [content, h1]
  have := rec_resetNode (content m) n old v hold
  rw [← content_setNode v h4] at this
  exact this

theorem resetNodeU_good {m m' : Mesh P} {n : Nat} {v : Option P} {as : List (Act P)}
    (h : resetNodeU m n v = .ok (as, m')) : Good m as m' := by
  unfold resetNodeU at h
  split at h
  · simp at h
  · simp only [Res.bind_eq_ok] at h
    obtain ⟨old, h1, m1, h2, h3⟩ := h
    simp at h3
    obtain ⟨h6, h7⟩ := h3
    subst h6 h7
    exact setNode_good h1 h2

theorem deleteEdgesU_good (l : List Nat) {m m' : Mesh P} {as : List (Act P)} (h : deleteEdgesU m l = .ok (as, m')) :
    Good m as m' := by
  induction l generalizing m as with
  | nil =>
    simp [deleteEdgesU] at h
    obtain ⟨h1, h2⟩ := h
    subst h1 h2
    exact Good.refl m
  | cons e es ih =>
    simp only [deleteEdgesU, Res.bind_eq_ok] at h
    obtain ⟨r, h1, rs, h2, h3⟩ := h
    simp at h3
    obtain ⟨h4, h5⟩ := h3
    subst h4 h5
    exact (deleteEdgeU_good h1).trans (ih h2)

theorem deleteEdgesU_nodes (l : List Nat) {m m' : Mesh P} {as : List (Act P)} (h : deleteEdgesU m l = .ok (as, m')) :
    m'.nodes = m.nodes := by
  induction l generalizing m as with
  | nil =>
    simp [deleteEdgesU] at h
    rw [h.2]
  | cons e es ih =>
    simp only [deleteEdgesU, Res.bind_eq_ok] at h
    obtain ⟨r, h1, rs, h2, h3⟩ := h
    simp at h3
    obtain ⟨h4, h5⟩ := h3
    subst h5
    rw [ih h2]
    unfold deleteEdgeU at h1
    split at h1
    · simp at h1
    · simp only [Res.bind_eq_ok] at h1
      obtain ⟨old, _, m1, g2, g3⟩ := h1
      obtain ⟨_, g5⟩ := resetEdge_eq g2
      simp at g3
      subst g3 g5
      rfl

theorem deleteNodeU_good {m m' : Mesh P} {n : Nat} {as : List (Act P)} (h : deleteNodeU m n = .ok (as, m')) :
    Good m as m' := by
  unfold deleteNodeU at h
  split at h
  · simp at h
  · simp only [Res.bind_eq_ok] at h
    obtain ⟨old, h1, l, h2, r, h3, m1, h4, h5⟩ := h
    simp at h5
    obtain ⟨h6, h7⟩ := h5
    subst h6 h7
    have g1 := deleteEdgesU_good l h3
    obtain ⟨k1, k2⟩ := setNode_eq h4
    subst k2
    refine g1.trans ⟨.single ?_, by simp, Nat.le_refl _, by simp [Act.Fits, k1], fun q => by simpa using q⟩
    have hold : (content r.2).node n = old := by
      rw [vget_eq_ok] at h1
      simp [content, deleteEdgesU_nodes l h3, h1]
    have := rec_deleteNode (content r.2) n old hold
    rw [← content_setNode none k1] at this
    exact this

theorem insertNodeU_good {m m' : Mesh P} {v : Option P} {as : List (Act P)} (h : insertNodeU m v = .ok (as, m')) :
    Good m as m' := by
  simp [insertNodeU] at h
  obtain ⟨h1, h2⟩ := h
  subst h1 h2
  refine ⟨.single ?_, by simp [insertNode], by simp [insertNode], by simp [Act.Fits, insertNode], ?_⟩
  · have h0 : (content m).node m.nodes.length = none := by simp [content]
    have := rec_addNode (content m) m.nodes.length v h0
    have hc : content (insertNode m v).2 = { content m with node := updN (content m).node m.nodes.length v } := by
      apply Content.ext
      · funext j
        simp only [content, insertNode, updN]
        by_cases hj : j = m.nodes.length
        · subst hj; simp
        · by_cases hl : j < m.nodes.length
          · simp [hj, List.getElem?_append_left hl]
          · have : m.nodes[j]? = none := by simp; omega
            have h2 : (m.nodes ++ [v])[j]? = none := by simp; omega
            rw [if_neg hj, this, h2]
      · rfl
    rw [hc]
    exact this
  · intro h
    simp [insertNode]
    omega

theorem connectNodesU_good {m m' : Mesh P} {s t : Nat} {as : List (Act P)} (h : connectNodesU m s t = .ok (as, m')) :
    Good m as m' := by
  simp only [connectNodesU, Res.bind_eq_ok] at h
  obtain ⟨f, _, h⟩ := h
  split at h
  · simp at h
    obtain ⟨h1, h2⟩ := h
    subst h1 h2
    exact Good.refl m
  · simp at h
    obtain ⟨h1, h2⟩ := h
    subst h1 h2
    refine ⟨.single ?_, Nat.le_refl _, by simp, by simp [Act.Fits], id⟩
    have h0 : (content m).edge m.edges.length = noEdge := by simp [content, edgeAt]
    have := rec_addEdge (content m) m.edges.length (s, t) h0
    have hc : content { m with edges := m.edges ++ [(s, t)] } =
        { content m with edge := updN (content m).edge m.edges.length (s, t) } := by
      apply Content.ext
      · rfl
      · funext j
        simp only [content, edgeAt, updN]
        by_cases hj : j = m.edges.length
        · subst hj; simp
        · by_cases hl : j < m.edges.length
          · simp [hj, List.getElem?_append_left hl]
          · have : m.edges[j]? = none := by simp; omega
            have h2 : (m.edges ++ [(s, t)])[j]? = none := by simp; omega
            rw [if_neg hj, this, h2]
    rw [hc]
    exact this

theorem moveNodesU_good {m m' : Mesh P} {l : List (Nat × Option P)} {as : List (Act P)}
    (hnd : (l.map Prod.fst).Nodup) (h : moveNodesU m l = .ok (as, m')) : Good m as m' := by
  simp only [moveNodesU, Res.bind_eq_ok] at h
  obtain ⟨r, h1, h2⟩ := h
  simp at h2
  obtain ⟨h3, h4⟩ := h2
  subst h3 h4
  obtain ⟨e1, e2, e3, e4⟩ := swapNodes_eq _ _ h1
  refine ⟨.single ?_, by simp [e3], Nat.le_refl _, ?_, fun q => by simp [e3, q]⟩
  · have := rec_translate (content m) l hnd
    rw [e1]
    have hc : content { m with nodes := r.2 } = { content m with node := (swapFn l (content m).node).2 } := by
      apply Content.ext
      · exact e2
      · rfl
    rw [hc]
    exact this
  · intro a ha
    simp at ha
    subst ha
    simp only [Act.Fits, e3]
    have hk := swapFn_keys l (fun i => (m.nodes[i]?).join)
    rw [← e1] at hk
    refine ⟨?_, ?_⟩
    · intro p hp
      have : p.1 ∈ l.map Prod.fst := by rw [← hk]; exact List.mem_map_of_mem hp
      rw [List.mem_map] at this
      obtain ⟨q, hq, hqp⟩ := this
      rw [← hqp]; exact e4 q hq
    · have hlen := congrArg List.length hk
      simp at hlen
      rw [hlen]
      have hsub : ∀ i ∈ l.map Prod.fst, i ∈ List.range m.nodes.length := by
        intro i hi
        rw [List.mem_map] at hi
        obtain ⟨q, hq, hqp⟩ := hi
        rw [← hqp]; simpa using e4 q hq
      have := hnd.length_le_of_subset hsub
      simpa using this

theorem mergeInnerU_good (s o : Nat) (l : List Nat) {m m' : Mesh P} {as : List (Act P)}
    (h : mergeInnerU s o l m = .ok (as, m')) : Good m as m' := by
  induction l generalizing m as with
  | nil =>
    simp [mergeInnerU] at h
    obtain ⟨h1, h2⟩ := h
    subst h1 h2
    exact Good.refl m
  | cons i is ih =>
    simp only [mergeInnerU, Res.bind_eq_ok] at h
    obtain ⟨e, _, h⟩ := h
    split at h
    · simp only [Res.bind_eq_ok] at h
      obtain ⟨r, h1, rs, h2, h3⟩ := h
      simp at h3
      obtain ⟨h4, h5⟩ := h3
      subst h4 h5
      exact (deleteEdgeU_good h1).trans (ih h2)
    · exact ih h

theorem mergeOuterU_good (a b : Nat) (l : List Nat) {m m' : Mesh P} {as : List (Act P)}
    (h : mergeOuterU a b l m = .ok (as, m')) : Good m as m' := by
  induction l generalizing m as with
  | nil =>
    simp [mergeOuterU] at h
    obtain ⟨h1, h2⟩ := h
    subst h1 h2
    exact Good.refl m
  | cons i is ih =>
    simp only [mergeOuterU, Res.bind_eq_ok] at h
    obtain ⟨e, _, h⟩ := h
    split at h
    · simp only [Res.bind_eq_ok] at h
      obtain ⟨lo, _, r, h1, rs, h2, h3⟩ := h
      simp at h3
      obtain ⟨h4, h5⟩ := h3
      subst h4 h5
      exact (mergeInnerU_good _ _ _ h1).trans (ih h2)
    · exact ih h

theorem redirectU_good (a b : Nat) (l : List Nat) {m m' : Mesh P} {as : List (Act P)} {c : List Nat}
    (h : redirectU a b l m = .ok (as, c, m')) : Good m as m' := by
  induction l generalizing m as c with
  | nil =>
    simp [redirectU] at h
    obtain ⟨h1, _, h2⟩ := h
    subst h1 h2
    exact Good.refl m
  | cons i is ih =>
    simp only [redirectU, Res.bind_eq_ok] at h
    obtain ⟨e, _, h⟩ := h
    split at h
    · simp only [Res.bind_eq_ok] at h
      obtain ⟨r, h1, rs, h2, h3⟩ := h
      simp at h3
      obtain ⟨h4, _, h5⟩ := h3
      subst h4 h5
      have g1 : Good m r.1 r.2 := by
        unfold redirectOneU at h1
        split at h1
        · exact resetEdgeU_good h1
        · split at h1
          · exact resetEdgeU_good h1
          · simp at h1
            rw [← h1]
            exact Good.refl m
      exact g1.trans (ih (c := rs.2.1) h2)
    · exact ih h

theorem mergeTwoNodesU_good {m m' : Mesh P} {a b : Nat} {as : List (Act P)}
    (h : mergeTwoNodesU m a b = .ok (as, m')) : Good m as m' := by
  unfold mergeTwoNodesU at h
  split at h
  · simp at h
  · split at h
    · simp at h
    · split at h
      · simp at h
        obtain ⟨h1, h2⟩ := h
        subst h1 h2
        exact Good.refl m
      · simp only [Res.bind_eq_ok] at h
        obtain ⟨ei, _, r1, h1, lf, _, r2, h2, ls, _, c2, _, r3, h3, h⟩ := h
        split at h
        · simp at h
        · simp only [Res.bind_eq_ok, vset_eq_ok] at h
          obtain ⟨ne1, ⟨_, k1⟩, nu1, ⟨_, k2⟩, ne2, ⟨_, k3⟩, nu2, ⟨_, k4⟩, r4, h4, h5⟩ := h
          simp at h5
          obtain ⟨h6, h7⟩ := h5
          subst h6 h7
          have g1 : Good m r1.1 r1.2 := by
            unfold deleteIfFoundU at h1
            split at h1
            · exact deleteEdgeU_good h1
            · simp at h1
              rw [← h1]
              exact Good.refl m
          have g2 := mergeOuterU_good _ _ _ h2
          have g3 := redirectU_good _ _ _ (c := r3.2.1) h3
          have g3' := g3.admin ne2 nu2 (by subst k4 k2; simp)
          have g4 := resetNodeU_good h4
          exact g1.trans (g2.trans (g3'.trans g4))

/-- Well-formed edits: a move names each node once. -/
def MeshOp.Proper : MeshOp P → Prop
  | .moveNodes l => (l.map Prod.fst).Nodup
  | _ => True

theorem runOp_good {m m' : Mesh P} {o : MeshOp P} {as : List (Act P)} (ho : o.Proper)
    (h : runOp m o = .ok (as, m')) : Good m as m' := by
  cases o with
  | insertNode v => exact insertNodeU_good h
  | connectNodes s t => exact connectNodesU_good h
  | deleteEdge e => exact deleteEdgeU_good h
  | deleteNode n => exact deleteNodeU_good h
  | resetNode n v => exact resetNodeU_good h
  | resetEdge e v => exact resetEdgeU_good h
  | moveNodes l => exact moveNodesU_good ho h
  | mergeTwoNodes a b => exact mergeTwoNodesU_good h

end Verif.Mesh
