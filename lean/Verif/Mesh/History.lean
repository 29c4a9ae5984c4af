import Verif.Mesh.UndoLemmas
/-!
# Histories of mesh edits, undo and redo

Connects the editing functions and undo actions of meshes with the undo stack of `Verif.Undo`.
-/
namespace Verif.Mesh
variable {P : Type}

open Undo (Sem Records Action World Stack Snap Edit upd)

/-- Private data of the actions on the stack: the children of a compound action. -/
abbrev Acts (P : Type) := List (Action (Act P))

/-- A call of an editing function through the API: the mesh is edited and the returned action is
added to the undo stack; when the function throws nothing happens (C07 proves that it throws
before its first write). -/
def opEdit (o : MeshOp P) : Edit (Acts P) (Res (Mesh P)) where
  run s := match s with
    | .ok m => (match runOp m o with
      | .ok (as, m') => (.ok m', if as.isEmpty then none else some (committed as))
      | .throw => (.ok m, none)
      | .ub => (.ub, none))
    | .throw => (.throw, none)
    | .ub => (.ub, none)

/-- What a user does. -/
inductive HOp (P : Type) where
  | edit (k : Int) (o : MeshOp P)
  | undo
  | redo
  | setMaximumSize (n : Nat)
  | clear
  | remove (k : Int)

/-- The corresponding operation on the undo stack. -/
def HOp.toOp : HOp P → Undo.Op (Acts P) (Res (Mesh P))
  | .edit k o => .edit k (opEdit o)
  | .undo => .undo
  | .redo => .redo
  | .setMaximumSize n => .setMaximumSize n
  | .clear => .clear
  | .remove k => .remove k

/-- The kernels and the stack. -/
abbrev MWorld (P : Type) := World (Acts P) (Res (Mesh P))

def mSem (P : Type) : Sem (Acts P) (Res (Mesh P)) := Undo.compoundSem (meshSem P)

/-- One step of the implementation. -/
def hStep (w : MWorld P) (o : HOp P) : MWorld P × Option Int := w.step (mSem P) o.toOp

/-- Contents of a kernel, if the program has not crashed. -/
def contentR : Res (Mesh P) → Option (Content P)
  | .ok m => some (content m)
  | _ => none

/-- One step of the snapshot machine (`Verif.Undo.Spec`) following the implementation from `w`: an
edit stores a snapshot of the contents before the edit, provided the call returned something to
undo. -/
def snapStep (w : MWorld P) (t : Snap (Option (Content P))) : HOp P → Snap (Option (Content P)) × Option Int
  | .edit k o =>
    (t.edit k (contentR ((opEdit o).run (w.data k)).1) ((opEdit o).run (w.data k)).2.isSome, none)
  | .undo => t.undo
  | .redo => t.redo
  | .setMaximumSize n => (t.setBound n, none)
  | .clear => (t.clear, none)
  | .remove k => (t.remove k, none)

/-- Run the implementation and the snapshot machine side by side, collecting what undo and redo
report. -/
def lockstep (w : MWorld P) (t : Snap (Option (Content P))) :
    List (HOp P) → (MWorld P × List (Option Int)) × (Snap (Option (Content P)) × List (Option Int))
  | [] => ((w, []), (t, []))
  | o :: os =>
    let r := lockstep (hStep w o).1 (snapStep w t o).1 os
    ((r.1.1, (hStep w o).2 :: r.1.2), (r.2.1, (snapStep w t o).2 :: r.2.2))

/-- The edits do not run into undefined behaviour at the states where they are performed. -/
def Defined (w : MWorld P) : List (HOp P) → Prop
  | [] => True
  | o :: os =>
    (match o with
     | .edit k o' => o'.Proper ∧ ((opEdit o').run (w.data k)).1 ≠ .ub
     | _ => True) ∧ Defined (hStep w o).1 os

/-! ## Proofs -/

/-- All children fit. -/
def FitsAll (nN nE : Nat) (as : Acts P) : Prop := ∀ a ∈ as, a.data.Fits nN nE

/-- Contents as an optional value, with the actions of `contentSem`. -/
def optSem (P : Type) : Sem (Act P) (Option (Content P)) where
  doRestore a s := match s with
    | some c => (((contentSem P).doRestore a c).1, some ((contentSem P).doRestore a c).2)
    | none => (a, none)
  doCommit a s := match s with
    | some c => (((contentSem P).doCommit a c).1, some ((contentSem P).doCommit a c).2)
    | none => (a, none)

theorem records_opt {a : Act P} {s t : Content P} (h : Records (contentSem P) a s t) :
    Records (optSem P) a (some s) (some t) := by
  obtain ⟨b, h1, h2⟩ := h
  exact ⟨b, by simp [optSem, h1], by simp [optSem, h2]⟩

theorem chain_opt {s t : Content P} {as : List (Act P)} (h : AChain s as t) :
    Undo.Chain (optSem P) (some s) (committed as) (some t) := by
  induction h with
  | nil s => exact .nil _
  | cons hr _ ih => exact .cons rfl (records_opt hr) ih

theorem meshSem_restore {a b : Act P} {m m' : Mesh P} (h : restoreC a m = .ok (b, m')) :
    (meshSem P).doRestore a (.ok m) = (b, .ok m') := by simp [meshSem, h]

theorem meshSem_commit {a b : Act P} {m m' : Mesh P} (h : commitC a m = .ok (b, m')) :
    (meshSem P).doCommit a (.ok m) = (b, .ok m') := by simp [meshSem, h]

theorem optSem_restore {a b : Act P} {m m' : Content P} (h : (contentSem P).doRestore a m = (b, m')) :
    (optSem P).doRestore a (some m) = (b, some m') := by simp [optSem, h]

theorem optSem_commit {a b : Act P} {m m' : Content P} (h : (contentSem P).doCommit a m = (b, m')) :
    (optSem P).doCommit a (some m) = (b, some m') := by simp [optSem, h]

theorem restoreAll_sim (as : Acts P) {m : Mesh P} (hf : FitsAll m.nodes.length m.edges.length as)
    (hc : m.numEdges.length = m.nodes.length) :
    ∃ bs m', Undo.restoreAll (meshSem P) as (.ok m) = (bs, .ok m') ∧
      Undo.restoreAll (optSem P) as (some (content m)) = (bs, some (content m')) ∧ SameSize m m' ∧
      FitsAll m.nodes.length m.edges.length bs := by
  induction as with
  | nil => exact ⟨[], m, rfl, rfl, ⟨rfl, rfl, rfl⟩, by simp [FitsAll]⟩
  | cons a as ih =>
    obtain ⟨bs, m1, h1, h2, h3, h4⟩ := ih (fun b hb => hf b (by simp [hb]))
    have hfa := hf a (by simp)
    obtain ⟨st, ad⟩ := a
    cases st with
    | restored =>
      refine ⟨⟨.restored, ad⟩ :: bs, m1, ?_, ?_, h3, ?_⟩
      · simp [Undo.restoreAll, h1, Action.restore]
      · simp [Undo.restoreAll, h2, Action.restore]
      · intro b hb
        simp at hb
        rcases hb with rfl | hb
        · exact hfa
        · exact h4 b hb
    | committed =>
      have hfa' : ad.Fits m1.nodes.length m1.edges.length := by rw [h3.nodes, h3.edges]; exact hfa
      obtain ⟨b, m2, k1, k2, k3, k4⟩ := restoreC_sim hfa' (by rw [h3.counts, h3.nodes, hc])
      refine ⟨⟨.restored, b⟩ :: bs, m2, ?_, ?_, ?_, ?_⟩
      · simp [Undo.restoreAll, h1, Action.restore, meshSem_restore k1]
      · simp [Undo.restoreAll, h2, Action.restore, optSem_restore k2]
      · exact ⟨k3.nodes.trans h3.nodes, k3.edges.trans h3.edges, k3.counts.trans h3.counts⟩
      · intro c hc'
        simp at hc'
        rcases hc' with rfl | hc'
        · rw [h3.nodes, h3.edges] at k4; exact k4
        · exact h4 c hc'

theorem commitAll_sim (as : Acts P) {m : Mesh P} (hf : FitsAll m.nodes.length m.edges.length as)
    (hc : m.numEdges.length = m.nodes.length) :
    ∃ bs m', Undo.commitAll (meshSem P) as (.ok m) = (bs, .ok m') ∧
      Undo.commitAll (optSem P) as (some (content m)) = (bs, some (content m')) ∧ SameSize m m' ∧
      FitsAll m.nodes.length m.edges.length bs := by
  induction as generalizing m with
  | nil => exact ⟨[], m, rfl, rfl, ⟨rfl, rfl, rfl⟩, by simp [FitsAll]⟩
  | cons a as ih =>
    have hfa := hf a (by simp)
    have hfr : FitsAll m.nodes.length m.edges.length as := fun b hb => hf b (by simp [hb])
    obtain ⟨st, ad⟩ := a
    cases st with
    | committed =>
      obtain ⟨bs, m1, h1, h2, h3, h4⟩ := ih hfr hc
      refine ⟨⟨.committed, ad⟩ :: bs, m1, ?_, ?_, h3, ?_⟩
      · simp [Undo.commitAll, h1, Action.commit]
      · simp [Undo.commitAll, h2, Action.commit]
      · intro b hb
        simp at hb
        rcases hb with rfl | hb
        · exact hfa
        · exact h4 b hb
    | restored =>
      obtain ⟨b, m1, k1, k2, k3, k4⟩ := commitC_sim hfa hc
      obtain ⟨bs, m2, h1, h2, h3, h4⟩ := ih (m := m1) (by rw [k3.nodes, k3.edges]; exact hfr)
        (by rw [k3.counts, k3.nodes, hc])
      refine ⟨⟨.committed, b⟩ :: bs, m2, ?_, ?_, ?_, ?_⟩
      · simp [Undo.commitAll, Action.commit, meshSem_commit k1, h1]
      · simp [Undo.commitAll, Action.commit, optSem_commit k2, h2]
      · exact ⟨h3.nodes.trans k3.nodes, h3.edges.trans k3.edges, h3.counts.trans k3.counts⟩
      · intro c hc'
        simp at hc'
        rcases hc' with rfl | hc'
        · exact k4
        · rw [k3.nodes, k3.edges] at h4; exact h4 c hc'

/-- Implementation state `c` and an abstract state `a` with the same stack and the same contents;
all recorded indices are valid. -/
structure Rel (c : MWorld P) (a : World (Acts P) (Option (Content P))) : Prop where
  stack : c.stack = a.stack
  data : ∀ k, ∃ m, c.data k = .ok m ∧ a.data k = some (content m) ∧ m.numEdges.length = m.nodes.length
  fits : ∀ r ∈ c.stack.committed ++ c.stack.restored, ∀ m, c.data r.target = .ok m →
    FitsAll m.nodes.length m.edges.length r.act.data

abbrev aSem (P : Type) : Sem (Acts P) (Option (Content P)) := Undo.compoundSem (optSem P)

theorem mem_trim {α : Type} {n : Nat} {x : α} {l : List α} (h : x ∈ Undo.trim n l) : x ∈ l := by
  unfold Undo.trim at h
  split at h
  · exact List.dropLast_subset _ h
  · exact h

theorem FitsAll.mono {nN nE nN' nE' : Nat} {as : Acts P} (h : FitsAll nN nE as) (h1 : nN ≤ nN') (h2 : nE ≤ nE') :
    FitsAll nN' nE' as := fun a ha => (h a ha).mono h1 h2

theorem rel_undo {c : MWorld P} {a : World (Acts P) (Option (Content P))} (h : Rel c a) :
    Rel (c.undo (mSem P)).1 (a.undo (aSem P)).1 ∧ (c.undo (mSem P)).2 = (a.undo (aSem P)).2 := by
  obtain ⟨cst, cd⟩ := c
  obtain ⟨ast, ad⟩ := a
  obtain ⟨hst, hd, hf⟩ := h
  simp only at hst hd hf
  subst hst
  obtain ⟨com, res, mx⟩ := cst
  cases com with
  | nil => exact ⟨⟨rfl, hd, hf⟩, rfl⟩
  | cons r rest =>
    obtain ⟨m, hm1, hm2, hm3⟩ := hd r.target
    have hfr := hf r (by simp) m hm1
    obtain ⟨⟨st, dat⟩, id, tgt⟩ := r
    simp only at hm1 hm2 hfr
    have key : ∃ act' m', (⟨st, dat⟩ : Action (Acts P)).restore (mSem P) (cd tgt) = (act', .ok m') ∧
        (⟨st, dat⟩ : Action (Acts P)).restore (aSem P) (ad tgt) = (act', some (content m')) ∧
        SameSize m m' ∧ FitsAll m.nodes.length m.edges.length act'.data := by
      cases st with
      | restored =>
        exact ⟨⟨.restored, dat⟩, m, by simp [Action.restore, hm1], by simp [Action.restore, hm2], ⟨rfl, rfl, rfl⟩, hfr⟩
      | committed =>
        obtain ⟨bs, m', k1, k2, k3, k4⟩ := restoreAll_sim dat hfr hm3
        refine ⟨⟨.restored, bs⟩, m', ?_, ?_, k3, k4⟩
        · simp [Action.restore, mSem, Undo.compoundSem, hm1, k1]
        · simp [Action.restore, aSem, Undo.compoundSem, hm2, k2]
    obtain ⟨act', m', k1, k2, k3, k4⟩ := key
    refine ⟨⟨?_, ?_, ?_⟩, rfl⟩
    · simp [World.undo, k1, k2]
    · intro k
      simp only [World.undo, k1, k2]
      by_cases hk : k = tgt
      · subst hk
        exact ⟨m', by simp [upd], by simp [upd], by rw [k3.counts, k3.nodes, hm3]⟩
      · obtain ⟨n, hn⟩ := hd k
        exact ⟨n, by simpa [upd, hk] using hn⟩
    · intro q hq mq hmq
      simp only [World.undo, k1] at hq hmq
      have base : ∀ q' ∈ (⟨⟨st, dat⟩, id, tgt⟩ : Undo.Record (Acts P)) :: rest ++ res, q'.target = q.target →
          q'.act.data = q.act.data → FitsAll mq.nodes.length mq.edges.length q.act.data := by
        intro q' hq' ht hda
        by_cases hk : q.target = tgt
        · rw [hk] at hmq
          simp [upd] at hmq
          subst hmq
          rw [k3.nodes, k3.edges, ← hda]
          exact hf q' hq' m (by rw [ht, hk]; exact hm1)
        · simp [upd, hk] at hmq
          rw [← hda]
          exact hf q' hq' mq (by rw [ht]; exact hmq)
      simp only [List.mem_append, List.mem_cons] at hq
      rcases hq with hq | hq | hq
      · exact base q (by simp [hq]) rfl rfl
      · subst hq
        simp [upd] at hmq
        subst hmq
        rw [k3.nodes, k3.edges]
        exact k4
      · exact base q (by simp [hq]) rfl rfl

theorem rel_redo {c : MWorld P} {a : World (Acts P) (Option (Content P))} (h : Rel c a) :
    Rel (c.redo (mSem P)).1 (a.redo (aSem P)).1 ∧ (c.redo (mSem P)).2 = (a.redo (aSem P)).2 := by
  obtain ⟨cst, cd⟩ := c
  obtain ⟨ast, ad⟩ := a
  obtain ⟨hst, hd, hf⟩ := h
  simp only at hst hd hf
  subst hst
  obtain ⟨com, res, mx⟩ := cst
  cases res with
  | nil => exact ⟨⟨rfl, hd, hf⟩, rfl⟩
  | cons r rest =>
    obtain ⟨m, hm1, hm2, hm3⟩ := hd r.target
    have hfr := hf r (by simp) m hm1
    obtain ⟨⟨st, dat⟩, id, tgt⟩ := r
    simp only at hm1 hm2 hfr
    have key : ∃ act' m', (⟨st, dat⟩ : Action (Acts P)).commit (mSem P) (cd tgt) = (act', .ok m') ∧
        (⟨st, dat⟩ : Action (Acts P)).commit (aSem P) (ad tgt) = (act', some (content m')) ∧
        SameSize m m' ∧ FitsAll m.nodes.length m.edges.length act'.data := by
      cases st with
      | committed =>
        exact ⟨⟨.committed, dat⟩, m, by simp [Action.commit, hm1], by simp [Action.commit, hm2], ⟨rfl, rfl, rfl⟩, hfr⟩
      | restored =>
        obtain ⟨bs, m', k1, k2, k3, k4⟩ := commitAll_sim dat hfr hm3
        refine ⟨⟨.committed, bs⟩, m', ?_, ?_, k3, k4⟩
        · simp [Action.commit, mSem, Undo.compoundSem, hm1, k1]
        · simp [Action.commit, aSem, Undo.compoundSem, hm2, k2]
    obtain ⟨act', m', k1, k2, k3, k4⟩ := key
    refine ⟨⟨?_, ?_, ?_⟩, rfl⟩
    · simp [World.redo, k1, k2]
    · intro k
      simp only [World.redo, k1, k2]
      by_cases hk : k = tgt
      · subst hk
        exact ⟨m', by simp [upd], by simp [upd], by rw [k3.counts, k3.nodes, hm3]⟩
      · obtain ⟨n, hn⟩ := hd k
        exact ⟨n, by simpa [upd, hk] using hn⟩
    · intro q hq mq hmq
      simp only [World.redo, k1] at hq hmq
      have base : ∀ q' ∈ com ++ (⟨⟨st, dat⟩, id, tgt⟩ : Undo.Record (Acts P)) :: rest, q'.target = q.target →
          q'.act.data = q.act.data → FitsAll mq.nodes.length mq.edges.length q.act.data := by
        intro q' hq' ht hda
        by_cases hk : q.target = tgt
        · rw [hk] at hmq
          simp [upd] at hmq
          subst hmq
          rw [k3.nodes, k3.edges, ← hda]
          exact hf q' hq' m (by rw [ht, hk]; exact hm1)
        · simp [upd, hk] at hmq
          rw [← hda]
          exact hf q' hq' mq (by rw [ht]; exact hmq)
      rw [List.mem_append] at hq
      rcases hq with hq | hq
      · have hq' := mem_trim hq
        simp only [List.mem_cons] at hq'
        rcases hq' with hq' | hq'
        · subst hq'
          simp [upd] at hmq
          subst hmq
          rw [k3.nodes, k3.edges]
          exact k4
        · exact base q (by simp [hq']) rfl rfl
      · exact base q (by simp [hq]) rfl rfl

theorem rel_sub {c : MWorld P} {a : World (Acts P) (Option (Content P))} (h : Rel c a)
    (st : Stack (Acts P)) (hs : ∀ r ∈ st.committed ++ st.restored, r ∈ c.stack.committed ++ c.stack.restored) :
    Rel { c with stack := st } { a with stack := st } :=
  ⟨rfl, h.data, fun r hr m hm => h.fits r (hs r hr) m hm⟩

/-- The abstract edit performed by one call at contents `s`. -/
noncomputable def traceEdit (s t : Content P) (as : List (Act P)) : Edit (Acts P) (Option (Content P)) :=
  open Classical in
  ⟨fun x => if x = some s then (some t, if as.isEmpty then none else some (committed as)) else (x, none)⟩

theorem traceEdit_lawful {s t : Content P} {as : List (Act P)} (h : AChain s as t) :
    (traceEdit s t as).Lawful (aSem P) := by
  intro x
  unfold traceEdit
  by_cases hx : x = some s
  · subst hx
    cases as with
    | nil =>
      cases h
      simp
    | cons b bs =>
      simp only [if_true, List.isEmpty_cons, Bool.false_eq_true, if_false]
      exact Undo.compound_records _ _ _ _ (chain_opt h)
  · simp [hx]

theorem rel_edit {c : MWorld P} {a : World (Acts P) (Option (Content P))} (h : Rel c a) (k : Int) (o : MeshOp P)
    (ho : o.Proper) (hu : ((opEdit o).run (c.data k)).1 ≠ .ub) :
    ∃ e : Edit (Acts P) (Option (Content P)), e.Lawful (aSem P) ∧ Rel (c.edit k (opEdit o)) (a.edit k e) ∧
      (e.run (a.data k)).1 = contentR ((opEdit o).run (c.data k)).1 ∧
      (e.run (a.data k)).2.isSome = ((opEdit o).run (c.data k)).2.isSome := by
  obtain ⟨m, hm1, hm2, hm3⟩ := h.data k
  cases hr : runOp m o with
  | ub => simp [opEdit, hm1, hr] at hu
  | throw =>
    refine ⟨⟨fun x => (x, none)⟩, fun s => rfl, ?_, ?_, ?_⟩
    · have e1 : c.edit k (opEdit o) = c := by
        simp only [World.edit, opEdit, hm1, hr, Option.map_none, Stack.add]
        cases c
        simp only [World.mk.injEq, true_and]
        funext j
        simp only [upd]
        split
        · rename_i hj; subst hj; exact hm1.symm
        · rfl
      have e2 : a.edit k ⟨fun x => (x, none)⟩ = a := by
        simp only [World.edit, Option.map_none, Stack.add]
        cases a
        simp
      rw [e1, e2]; exact h
    · simp [opEdit, hm1, hr, hm2, contentR]
    · simp [opEdit, hm1, hr]
  | ok r =>
    obtain ⟨as, m'⟩ := r
    have g := runOp_good ho hr
    refine ⟨traceEdit (content m) (content m') as, traceEdit_lawful g.chain, ?_, ?_, ?_⟩
    · have hrun : (opEdit o).run (c.data k) = (.ok m', if as.isEmpty then none else some (committed as)) := by
        simp [opEdit, hm1, hr]
      have hrun2 : (traceEdit (content m) (content m') as).run (a.data k) =
          (some (content m'), if as.isEmpty then none else some (committed as)) := by
        simp [traceEdit, hm2]
      have hdata : ∀ j, ∃ n, upd c.data k (.ok m') j = .ok n ∧ upd a.data k (some (content m')) j = some (content n) ∧
          n.numEdges.length = n.nodes.length := by
        intro j
        by_cases hj : j = k
        · subst hj; exact ⟨m', by simp [upd], by simp [upd], g.counts hm3⟩
        · obtain ⟨n, hn⟩ := h.data j
          exact ⟨n, by simpa [upd, hj] using hn⟩
      have hold : ∀ q ∈ c.stack.committed ++ c.stack.restored, ∀ n, upd c.data k (.ok m') q.target = .ok n →
          FitsAll n.nodes.length n.edges.length q.act.data := by
        intro q hq n hn
        by_cases hk : q.target = k
        · simp [upd, hk] at hn
          subst hn
          exact (h.fits q hq m (by rw [hk]; exact hm1)).mono g.nodes g.edges
        · simp [upd, hk] at hn
          exact h.fits q hq n hn
      have hcom : FitsAll m'.nodes.length m'.edges.length (committed as) := by
        intro x hx
        simp only [committed, List.mem_map] at hx
        obtain ⟨y, hy, rfl⟩ := hx
        exact g.fits y hy
      unfold World.edit
      rw [hrun, hrun2, h.stack]
      have hstk := h.stack
      cases as with
      | nil =>
        simp only [List.isEmpty_nil, if_true, Option.map_none, Stack.add]
        exact ⟨rfl, hdata, by rw [hstk] at hold; exact hold⟩
      | cons b bs =>
        simp only [List.isEmpty_cons, Bool.false_eq_true, if_false, Option.map_some, Stack.add]
        by_cases hmx : a.stack.maxSize > 0
        · simp only [hmx, if_true, ne_eq, not_true_eq_false, if_false]
          refine ⟨rfl, hdata, ?_⟩
          intro q hq n hn
          simp only [List.mem_append] at hq
          rcases hq with hq | hq
          · have hq' := mem_trim hq
            simp only [List.mem_cons] at hq'
            rcases hq' with hq' | hq'
            · subst hq'
              simp [upd] at hn
              subst hn
              exact hcom
            · exact hold q (by rw [hstk]; simp [hq']) n hn
          · exact hold q (by rw [hstk]; simp [(List.mem_filter.1 hq).1]) n hn
        · simp only [hmx, if_false]
          exact ⟨rfl, hdata, by rw [hstk] at hold; exact hold⟩
    · simp [traceEdit, hm2, opEdit, hm1, hr, contentR]
    · simp [traceEdit, hm2, opEdit, hm1, hr]

theorem rel_step {c : MWorld P} {a : World (Acts P) (Option (Content P))} {t : Snap (Option (Content P))}
    (h : Rel c a) (hs : Undo.Sim (aSem P) a t) (o : HOp P)
    (ho : match o with
     | .edit k o' => o'.Proper ∧ ((opEdit o').run (c.data k)).1 ≠ .ub
     | _ => True) :
    ∃ a', Rel (hStep c o).1 a' ∧ Undo.Sim (aSem P) a' (snapStep c t o).1 ∧ (hStep c o).2 = (snapStep c t o).2 := by
  cases o with
  | edit k o' =>
    obtain ⟨e, he, hr, h1, h2⟩ := rel_edit h k o' ho.1 ho.2
    refine ⟨a.edit k e, hr, ?_, rfl⟩
    have := Undo.sim_edit hs k e he
    rw [← hs.data, h1, h2] at this
    exact this
  | undo =>
    have h1 := rel_undo h
    have h2 := Undo.sim_undo hs
    exact ⟨_, h1.1, h2.1, h1.2.trans h2.2⟩
  | redo =>
    have h1 := rel_redo h
    have h2 := Undo.sim_redo hs
    exact ⟨_, h1.1, h2.1, h1.2.trans h2.2⟩
  | setMaximumSize n =>
    have h2 := Undo.sim_step hs (.setMaximumSize n) trivial
    refine ⟨_, ?_, h2.1, rfl⟩
    have hst := h.stack
    show Rel { c with stack := c.stack.setMaximumSize n } { a with stack := a.stack.setMaximumSize n }
    rw [← hst]
    apply rel_sub h
    intro r hr
    unfold Stack.setMaximumSize at hr
    split at hr
    · simp at hr
    · split at hr
      · simp only [List.mem_append] at hr ⊢
        rcases hr with hr | hr
        · exact Or.inl (List.mem_of_mem_take hr)
        · exact Or.inr hr
      · exact hr
  | clear =>
    have h2 := Undo.sim_step hs .clear trivial
    refine ⟨_, ?_, h2.1, rfl⟩
    show Rel { c with stack := c.stack.clear } { a with stack := a.stack.clear }
    rw [← h.stack]
    apply rel_sub h
    intro r hr
    simp [Stack.clear] at hr
  | remove k =>
    have h2 := Undo.sim_step hs (.remove k) trivial
    refine ⟨_, ?_, h2.1, rfl⟩
    show Rel { c with stack := (c.stack.remove k).1 } { a with stack := (a.stack.remove k).1 }
    rw [← h.stack]
    apply rel_sub h
    intro r hr
    simp only [Stack.remove, List.mem_append] at hr ⊢
    rcases hr with hr | hr
    · exact Or.inl (List.mem_filter.1 hr).1
    · exact Or.inr (List.mem_filter.1 hr).1

theorem lockstep_rel (os : List (HOp P)) {c : MWorld P} {a : World (Acts P) (Option (Content P))}
    {t : Snap (Option (Content P))} (h : Rel c a) (hs : Undo.Sim (aSem P) a t) (ho : Defined c os) :
    (∃ a', Rel (lockstep c t os).1.1 a' ∧ Undo.Sim (aSem P) a' (lockstep c t os).2.1) ∧
      (lockstep c t os).1.2 = (lockstep c t os).2.2 := by
  induction os generalizing c a t with
  | nil => exact ⟨⟨a, h, hs⟩, rfl⟩
  | cons o os ih =>
    obtain ⟨h1, h2⟩ := ho
    obtain ⟨a', k1, k2, k3⟩ := rel_step h hs o h1
    obtain ⟨i1, i2⟩ := ih k1 k2 h2
    exact ⟨i1, by simp [lockstep, k3, i2]⟩

/-- Undoing and redoing a recorded edit. -/
theorem Good.undo_redo {m m' : Mesh P} {as : List (Act P)} (g : Good m as m')
    (hc : m.numEdges.length = m.nodes.length) :
    ∃ bs m1, Undo.restoreAll (meshSem P) (committed as) (.ok m') = (bs, .ok m1) ∧ content m1 = content m ∧
      ∃ cs m2, Undo.commitAll (meshSem P) bs (.ok m1) = (cs, .ok m2) ∧ content m2 = content m' := by
  obtain ⟨bs, q1, q2⟩ := Undo.compound_records _ _ _ _ (chain_opt g.chain)
  have hfit : FitsAll m'.nodes.length m'.edges.length (committed as) := by
    intro x hx
    simp only [committed, List.mem_map] at hx
    obtain ⟨y, hy, rfl⟩ := hx
    exact g.fits y hy
  obtain ⟨bs', m1, r1, r2, r3, r4⟩ := restoreAll_sim (committed as) hfit (g.counts hc)
  have q1' : Undo.restoreAll (optSem P) (committed as) (some (content m')) = (bs, some (content m)) := q1
  rw [r2] at q1'
  simp only [Prod.mk.injEq, Option.some.injEq] at q1'
  obtain ⟨rfl, hcm⟩ := q1'
  refine ⟨bs', m1, r1, hcm, ?_⟩
  obtain ⟨cs, m2, s1, s2, s3, s4⟩ := commitAll_sim bs' (m := m1) (by rw [r3.nodes, r3.edges]; exact r4)
    (by rw [r3.counts, r3.nodes, g.counts hc])
  refine ⟨cs, m2, s1, ?_⟩
  have q2' : Undo.commitAll (optSem P) bs' (some (content m)) = (committed as, some (content m')) := q2
  rw [← hcm, s2] at q2'
  simp only [Prod.mk.injEq, Option.some.injEq] at q2'
  exact q2'.2

end Verif.Mesh
