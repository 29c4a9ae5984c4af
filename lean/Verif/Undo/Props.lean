import Verif.Undo.Lemmas
/-!
# Properties C01, C02, C03: the undo stack
-/
namespace Verif.Undo

variable {π S : Type}

/-! ## A concrete instance, used to show that hypotheses are satisfiable -/

/-- Actions that swap their private copy with the contents, like
`FullUnstructuredGridUndo`. -/
def swapSem : Sem Nat Nat := ⟨fun a s => (s, a), fun a s => (s, a)⟩

/-- Set the contents to `v`, remembering the old contents. -/
def setTo (v : Nat) : Edit Nat Nat := ⟨fun s => (v, some s)⟩

theorem setTo_lawful (v : Nat) : (setTo v).Lawful swapSem := fun _ => ⟨v, rfl, rfl⟩

/-! ## C01 -/

/-- **C01** Any history of edits, undo, redo, resizing, clearing and per-kernel clearing,
starting with an empty stack, is observationally the snapshot machine: the contents of every
kernel, the ids reported by undo/redo and the numbers of undoable/redoable edits (in total and
for each kernel) agree. -/
theorem undo_stack_refines_snapshots (sem : Sem π S) (n : Nat) (d : Int → S)
    (os : List (Op π S)) (hl : ∀ o ∈ os, o.Lawful sem) :
    let w := (World.init n d : World π S).run sem os
    let m := (⟨d, [], [], n⟩ : Snap S).run os
    w.1.data = m.1.world ∧ w.2 = m.2 ∧
    w.1.stack.committed.map (·.id) = m.1.past.map (·.1) ∧
    w.1.stack.restored.map (·.id) = m.1.future.map (·.1) := by
  have h := sim_run os (sim_init sem n d) hl
  refine ⟨h.1.data, h.2, ?_, ?_⟩
  · have := h.1.past
    generalize ((World.init n d : World π S).run sem os).1.stack.committed = rs at this ⊢
    generalize ((⟨d, [], [], n⟩ : Snap S).run os).1.past = ps at this ⊢
    generalize ((World.init n d : World π S).run sem os).1.data = w at this
    induction rs generalizing ps w with
    | nil => cases ps with
      | nil => rfl
      | cons => exact this.elim
    | cons r rs ih => cases ps with
      | nil => exact this.elim
      | cons p ps => simp [this.1, ih _ _ this.2.2.2.2]
  · have := h.1.future
    generalize ((World.init n d : World π S).run sem os).1.stack.restored = rs at this ⊢
    generalize ((⟨d, [], [], n⟩ : Snap S).run os).1.future = ps at this ⊢
    generalize ((World.init n d : World π S).run sem os).1.data = w at this
    induction rs generalizing ps w with
    | nil => cases ps with
      | nil => rfl
      | cons => exact this.elim
    | cons r rs ih => cases ps with
      | nil => exact this.elim
      | cons p ps => simp [this.1, ih _ _ this.2.2.2.2]

example : ∀ o ∈ [Op.edit 0 (setTo 5), .undo, .edit 1 (setTo 7), .redo, .setMaximumSize 1, .remove 0],
    o.Lawful swapSem := by
  intro o ho
  simp only [List.mem_cons, List.not_mem_nil, or_false] at ho
  rcases ho with h | h | h | h | h | h <;> subst h <;>
    first | exact setTo_lawful _ | trivial

/-- **C01** In every reachable state an undo that did something, followed by a redo, gives
back exactly the same state: the contents of all kernels and the stack. -/
theorem undo_redo_identity (sem : Sem π S) (w : World π S) (hw : Reachable sem w)
    (k : Int) (hu : (w.undo sem).2 = some k) :
    (((w.undo sem).1).redo sem) = (w, some k) := by
  obtain ⟨m, hs⟩ := hw.sim
  obtain ⟨⟨com, res, mx⟩, d⟩ := w
  obtain ⟨wd, past, fut, bd⟩ := m
  obtain ⟨hd, hb, hp, hf, hsh, hz⟩ := hs
  simp only at hd hb hp hf hsh
  cases com with
  | nil => simp [World.undo] at hu
  | cons r rs =>
    cases past with
    | nil => exact hp.elim
    | cons p ps =>
      obtain ⟨h1, h2, h3, ⟨b, hb1, hb2⟩, h5⟩ := hp
      obtain ⟨⟨st, a⟩, id, tgt⟩ := r
      obtain ⟨k', s⟩ := p
      simp only at h1 h2 h3 hb1 hb2 h5 hsh
      subst h1 h2 h3
      simp only [World.undo, Action.restore, hb1, Option.some.injEq] at hu ⊢
      subst hu
      simp only [World.redo, Action.commit, upd_same, hb2, upd_upd, upd_self]
      have : trim mx ({ act := { state := AState.committed, data := a }, id := tgt, target := tgt } :: rs)
          = { act := { state := AState.committed, data := a }, id := tgt, target := tgt } :: rs := by
        unfold trim; rw [if_neg]; simp at hsh ⊢; omega
      rw [this]

/-- **C01** In every reachable state a redo that did something, followed by an undo, gives
back the same contents of all kernels, reports the same kernel, and leaves the same edits
redoable. -/
theorem redo_undo_identity (sem : Sem π S) (w : World π S) (hw : Reachable sem w)
    (k : Int) (hu : (w.redo sem).2 = some k) :
    (((w.redo sem).1).undo sem).2 = some k ∧
    (((w.redo sem).1).undo sem).1.data = w.data ∧
    (((w.redo sem).1).undo sem).1.stack.restored = w.stack.restored := by
  obtain ⟨m, hs⟩ := hw.sim
  obtain ⟨⟨com, res, mx⟩, d⟩ := w
  obtain ⟨wd, past, fut, bd⟩ := m
  obtain ⟨hd, hb, hp, hf, hsh, hz⟩ := hs
  simp only at hd hb hp hf hsh hz
  cases res with
  | nil => simp [World.redo] at hu
  | cons r rs =>
    cases fut with
    | nil => exact hf.elim
    | cons p ps =>
      obtain ⟨h1, h2, h3, ⟨b, hb1, hb2⟩, h5⟩ := hf
      obtain ⟨⟨st, a⟩, id, tgt⟩ := r
      obtain ⟨k', s⟩ := p
      simp only at h1 h2 h3 hb1 hb2 h5 hsh
      subst h1 h2 h3
      simp only [World.redo, Action.commit, hb1, Option.some.injEq] at hu ⊢
      subst hu
      have hmx : mx ≠ 0 := by intro h; simp [h] at hz
      obtain ⟨mx, rfl⟩ := Nat.exists_eq_succ_of_ne_zero hmx
      rw [trim_eq_take hsh]
      simp only [List.take_succ_cons, World.undo, Action.restore, upd_same, hb2, upd_upd, upd_self,
        and_self]

example : ∃ w : World Nat Nat, Reachable swapSem w ∧ (w.undo swapSem).2 = some 3 ∧
    (w.redo swapSem).2 = some 4 :=
  ⟨_, ⟨5, fun _ => 0, [.edit 3 (setTo 8), .edit 4 (setTo 9), .undo], by
    intro o ho
    simp only [List.mem_cons, List.not_mem_nil, or_false] at ho
    rcases ho with h | h | h <;> subst h <;> first | exact setTo_lawful _ | trivial, rfl⟩, rfl, rfl⟩


/-- **C01** From any reachable state, a block of recorded edits of arbitrary kernels that is
not longer than the undo bound is undone completely by the same number of undo calls. -/
theorem undo_all_edits (sem : Sem π S) (w : World π S) (hw : Reachable sem w)
    (es : List (Int × Edit π S)) (hl : ∀ e ∈ es, e.2.Lawful sem) (hr : AllRecorded w.data es)
    (hn : es.length ≤ w.stack.maxSize) :
    (undoN sem es.length (edits w es)).data = w.data := by
  obtain ⟨m, hs⟩ := hw.sim
  have h := sim_undoN es.length (sim_edits es hs hl)
  rw [h.data, hs.data]
  exact (Snap.undo_edits es m (by rw [← hs.data]; exact hr) (PastRel_length hs)
    (by rw [← hs.bound]; exact hn)).1

example : ∃ w : World Nat Nat, Reachable swapSem w ∧
    AllRecorded w.data [(0, setTo 1), (1, setTo 2), (0, setTo 3)] ∧ 3 ≤ w.stack.maxSize :=
  ⟨_, ⟨5, fun _ => 0, [], by simp, rfl⟩, by simp [AllRecorded, setTo, World.run, World.init],
    by simp [World.run, World.init]⟩

/-- **C01** In every reachable state, any number of undo calls (at most the number of
undoable edits) followed by the same number of redo calls changes nothing at all. -/
theorem undo_many_redo_many (sem : Sem π S) : ∀ (n : Nat) (w : World π S), Reachable sem w →
    n ≤ w.stack.committedSize → redoN sem n (undoN sem n w) = w
  | 0, _, _, _ => rfl
  | n + 1, w, hw, hn => by
    rw [redoN_succ', undoN]
    have hne : ∃ r rs, w.stack.committed = r :: rs := by
      cases h : w.stack.committed with
      | nil => simp [Stack.committedSize, h] at hn
      | cons r rs => exact ⟨r, rs, rfl⟩
    obtain ⟨r, rs, hc⟩ := hne
    have hu : (w.undo sem).2 = some r.id := by simp [World.undo, hc]
    rw [undo_many_redo_many sem n (w.undo sem).1 (hw.step .undo trivial)
      (by simp [Stack.committedSize, World.undo, hc] at hn ⊢; omega)]
    rw [undo_redo_identity sem w hw r.id hu]

/-- **C01** A recorded edit of kernel `k` leaves nothing to redo for `k`, and leaves the
redoable edits of every other kernel untouched and in the same order. -/
theorem edit_discards_own_redo (w : World π S) (k : Int) (e : Edit π S)
    (hr : (e.run (w.data k)).2.isSome) (hm : 0 < w.stack.maxSize) :
    (∀ r ∈ (w.edit k e).stack.restored, r.id ≠ k) ∧
    ∀ j, j ≠ k → (w.edit k e).stack.restored.filter (fun r => r.id = j) =
      w.stack.restored.filter (fun r => r.id = j) := by
  obtain ⟨a, ha⟩ := Option.isSome_iff_exists.1 hr
  have : (w.edit k e).stack.restored = w.stack.restored.filter (fun r => r.id ≠ k) := by
    simp [World.edit, ha, Stack.add, hm]
  rw [this]
  refine ⟨by simp, fun j hj => ?_⟩
  rw [List.filter_filter]
  congr 1
  funext r
  by_cases h : r.id = j <;> simp [h, hj]

example : ∃ w : World Nat Nat, Reachable swapSem w ∧ 0 < w.stack.maxSize ∧
    w.stack.restored.map (·.id) = [3, 4] ∧ ((setTo 5).run (w.data 3)).2.isSome :=
  ⟨_, ⟨5, fun _ => 0, [.edit 3 (setTo 1), .edit 4 (setTo 1), .undo, .undo], by
    intro o ho
    simp only [List.mem_cons, List.not_mem_nil, or_false] at ho
    rcases ho with h | h | h | h <;> subst h <;> first | exact setTo_lawful _ | trivial, rfl⟩, by decide, by decide, rfl⟩

/-! ## C02 -/

/-- **C02** In every reachable state at most the configured number of edits can be undone. -/
theorem undoable_le_bound (sem : Sem π S) (w : World π S) (hw : Reachable sem w) :
    w.stack.committedSize ≤ w.stack.maxSize := by
  obtain ⟨m, hs⟩ := hw.sim
  exact hs.short

/-- **C02** Exactly the oldest edits are forgotten: after any block of recorded edits the
undoable edits are the newest ones, in order, cut off at the bound. -/
theorem newest_edits_kept (sem : Sem π S) (w : World π S) (hw : Reachable sem w)
    (es : List (Int × Edit π S)) (hl : ∀ e ∈ es, e.2.Lawful sem) (hr : AllRecorded w.data es)
    (hm : 0 < w.stack.maxSize) :
    (edits w es).stack.committed.map (·.id) =
      ((es.reverse.map (·.1)) ++ w.stack.committed.map (·.id)).take w.stack.maxSize := by
  induction es generalizing w with
  | nil =>
    have := undoable_le_bound sem w hw
    simp [Stack.committedSize] at this
    simp only [edits, List.foldl_nil, List.reverse_nil, List.map_nil, List.nil_append]
    rw [List.take_of_length_le (by simpa using this)]
  | cons e es ih =>
    have hw' := hw.step (.edit e.1 e.2) (hl e (by simp))
    have hb := undoable_le_bound sem w hw
    obtain ⟨a, ha⟩ := Option.isSome_iff_exists.1 hr.1
    have hst : (w.edit e.1 e.2).stack.committed.map (·.id) =
        (e.1 :: w.stack.committed.map (·.id)).take w.stack.maxSize := by
      simp only [World.edit, ha, Option.map, Stack.add, gt_iff_lt, hm, if_true, ne_eq,
        not_true_eq_false, if_false]
      rw [trim_eq_take (by simpa [Stack.committedSize] using hb)]
      simp [List.map_take]
    have hmx : (w.edit e.1 e.2).stack.maxSize = w.stack.maxSize := by
      simp [World.edit, ha, Stack.add, hm]
    have hd : (w.edit e.1 e.2).data = upd w.data e.1 (e.2.run (w.data e.1)).1 := by
      simp [World.edit, ha, Stack.add, hm]
    have := ih (w.edit e.1 e.2) hw' (fun e' he' => hl e' (by simp [he'])) (by rw [hd]; exact hr.2)
      (by rw [hmx]; exact hm)
    show (edits (w.edit e.1 e.2) es).stack.committed.map (·.id) = _
    rw [this, hst, hmx, List.reverse_cons, List.map_append, List.append_assoc]
    simp only [List.map_cons, List.map_nil, List.cons_append, List.nil_append]
    rw [List.take_append, List.take_append, List.take_take]
    congr 2
    omega

/-- **C02** With bound 0 nothing can ever be undone or redone. -/
theorem bound_zero (sem : Sem π S) (w : World π S) (hw : Reachable sem w)
    (h0 : w.stack.maxSize = 0) : (w.undo sem) = (w, none) ∧ (w.redo sem) = (w, none) := by
  obtain ⟨m, hs⟩ := hw.sim
  have h1 := hs.short
  rw [h0] at h1
  have h2 : w.stack.committed = [] := by simpa using h1
  exact ⟨by simp [World.undo, h2], by simp [World.redo, hs.zero h0]⟩

example : Reachable swapSem (World.init 0 (fun _ => 1) : World Nat Nat) ∧
    (World.init 0 (fun _ => 1) : World Nat Nat).stack.maxSize = 0 :=
  ⟨⟨0, _, [], by simp, rfl⟩, rfl⟩

/-- **C02 (negation)** The total number of stored records, `Size()`, is *not* bounded by the
configured maximum: records waiting for redo are not counted against it.  Witness: bound 1,
an edit of kernel 1, undo, an edit of kernel 2. -/
theorem total_size_exceeds_bound : ∃ w : World Nat Nat, Reachable swapSem w ∧
    w.stack.maxSize < w.stack.size :=
  ⟨_, ⟨1, fun _ => 0, [.edit 1 (setTo 8), .undo, .edit 2 (setTo 9)], by
    intro o ho
    simp only [List.mem_cons, List.not_mem_nil, or_false] at ho
    rcases ho with h | h | h <;> subst h <;> first | exact setTo_lawful _ | trivial, rfl⟩, by decide⟩

/-- **C02 (negation)** Lowering the maximum does not trim the redo records either: after
`SetMaximumSize(1)` two edits can still be redone (one after the other), although only one of
them can be undone again. -/
theorem set_maximum_size_keeps_redo : ∃ w : World Nat Nat, Reachable swapSem w ∧
    w.stack.maxSize = 1 ∧ w.stack.restoredSize = 2 ∧
    (redoN swapSem 2 w).stack.committedSize = 1 ∧
    (undoN swapSem 2 (redoN swapSem 2 w)).data 1 ≠ w.data 1 :=
  ⟨_, ⟨5, fun _ => 0, [.edit 1 (setTo 8), .edit 1 (setTo 9), .undo, .undo, .setMaximumSize 1], by
    intro o ho
    simp only [List.mem_cons, List.not_mem_nil, or_false] at ho
    rcases ho with h | h | h | h | h <;> subst h <;> first | exact setTo_lawful _ | trivial, rfl⟩,
    by decide, by decide, by decide, by decide⟩

/-! ## C03 -/

/-- **C03** Removing the records of kernel `k` removes all of them, keeps the records of every
other kernel in order, returns the number of removed records, and changes no contents. -/
theorem remove_exact (st : Stack π) (k : Int) :
    (∀ r ∈ (st.remove k).1.committed ++ (st.remove k).1.restored, r.id ≠ k) ∧
    (∀ j, j ≠ k → (st.remove k).1.committed.filter (fun r => r.id = j) = st.committed.filter (fun r => r.id = j)) ∧
    (∀ j, j ≠ k → (st.remove k).1.restored.filter (fun r => r.id = j) = st.restored.filter (fun r => r.id = j)) ∧
    (st.remove k).2 + (st.remove k).1.size = st.size := by
  refine ⟨?_, ?_, ?_, ?_⟩
  · intro r hr
    rcases List.mem_append.1 hr with h | h <;> simp [Stack.remove] at h <;> exact h.2
  · intro j hj
    simp only [Stack.remove]; rw [List.filter_filter]; congr 1; funext r
    by_cases h : r.id = j <;> simp [h, hj]
  · intro j hj
    simp only [Stack.remove]; rw [List.filter_filter]; congr 1; funext r
    by_cases h : r.id = j <;> simp [h, hj]
  · have key : ∀ l : List (Record π),
        l.countP (fun r => decide (r.id = k)) + (l.filter (fun r => decide (r.id ≠ k))).length = l.length := by
      intro l
      induction l with
      | nil => rfl
      | cons r l ih =>
        by_cases h : r.id = k
        · simp [h] at ih ⊢; omega
        · simp [h] at ih ⊢; omega
    have h1 := key st.committed
    have h2 := key st.restored
    simp only [Stack.remove, Stack.size]
    omega

/-- **C03** The undo history of a kernel is a function of what happened to that kernel: per-kernel
counts over all kernels that occur add up to the total count. -/
theorem counts_add_up (st : Stack π) (ids : List Int) (hnd : ids.Nodup) (hmiss : missingInt ∉ ids)
    (hc : ∀ r ∈ st.committed, r.id ∈ ids) (hr : ∀ r ∈ st.restored, r.id ∈ ids) :
    (ids.map (fun k => st.committedSize k)).sum = st.committedSize ∧
    (ids.map (fun k => st.restoredSize k)).sum = st.restoredSize := by
  have key : ∀ (l : List (Record π)), (∀ r ∈ l, r.id ∈ ids) →
      (ids.map (fun k => l.countP (fun r => decide (r.id = k)))).sum = l.length := by
    intro l
    induction l with
    | nil =>
      intro _
      have : ∀ is : List Int, (is.map (fun _ => (0 : Nat))).sum = 0 := by
        intro is; induction is <;> simp_all
      simpa using this ids
    | cons r l ih =>
      intro h
      have h1 := ih (fun r' hr' => h r' (by simp [hr']))
      have h2 : ∀ (is : List Int), is.Nodup → (is.map (fun k => (r :: l).countP (fun r => decide (r.id = k)))).sum =
          (is.map (fun k => l.countP (fun r => decide (r.id = k)))).sum + (if r.id ∈ is then 1 else 0) := by
        intro is hn
        induction is with
        | nil => simp
        | cons i is ih2 =>
          have hn' := List.nodup_cons.1 hn
          have := ih2 hn'.2
          simp only [List.map_cons, List.sum_cons, this, List.mem_cons]
          by_cases hi : r.id = i
          · subst hi
            simp [hn'.1]; omega
          · simp [hi]; omega
      rw [h2 ids hnd, h1]
      simp [h r (by simp)]
  have e1 : ∀ l : List (Record π), (ids.map (fun k => if k = missingInt then l.length else l.countP (fun r => decide (r.id = k)))) =
      ids.map (fun k => l.countP (fun r => decide (r.id = k))) := by
    intro l
    apply List.map_congr_left
    intro k hk
    rw [if_neg]; intro h; subst h; exact hmiss hk
  constructor
  · show (ids.map (fun k => if k = missingInt then _ else _)).sum = _
    rw [e1, key _ hc]; simp [Stack.committedSize]
  · show (ids.map (fun k => if k = missingInt then _ else _)).sum = _
    rw [e1, key _ hr]; simp [Stack.restoredSize]

/-- **C03** Steps that concern kernel `k` (an edit of `k`, removing the records of `k`) never change
the contents of another kernel, and never drop or reorder another kernel's redoable edits; an edit
never reorders another kernel's undoable edits and drops at most the oldest one. -/
theorem other_kernels_untouched (w : World π S) (k j : Int) (hj : j ≠ k) (e : Edit π S) :
    (w.edit k e).data j = w.data j ∧
    (w.edit k e).stack.restored.filter (fun r => r.id = j) = w.stack.restored.filter (fun r => r.id = j) ∧
    ((w.edit k e).stack.committed.filter (fun r => r.id = j) = w.stack.committed.filter (fun r => r.id = j) ∨
     (w.edit k e).stack.committed.filter (fun r => r.id = j) =
       (w.stack.committed.filter (fun r => r.id = j)).dropLast) := by
  have hfil : (w.stack.restored.filter (fun r => decide (r.id ≠ k))).filter (fun r => decide (r.id = j)) =
      w.stack.restored.filter (fun r => r.id = j) := by
    rw [List.filter_filter]; congr 1; funext r
    by_cases h : r.id = j <;> simp [h, hj]
  have hdrop : ∀ (l : List (Record π)),
      l.dropLast.filter (fun r => decide (r.id = j)) = l.filter (fun r => decide (r.id = j)) ∨
      l.dropLast.filter (fun r => decide (r.id = j)) = (l.filter (fun r => decide (r.id = j))).dropLast := by
    intro l
    rcases l.eq_nil_or_concat with h | ⟨l', x, h⟩
    · subst h; left; rfl
    · subst h
      simp only [List.concat_eq_append, List.dropLast_concat, List.filter_append]
      by_cases hx : x.id = j
      · right; simp [hx]
      · left; simp [hx]
  cases hres : (e.run (w.data k)).2 with
  | none => simp [World.edit, hres, Stack.add, upd, hj]
  | some a =>
    by_cases hm : 0 < w.stack.maxSize
    · simp only [World.edit, hres, Option.map, Stack.add, gt_iff_lt, hm, if_true, ne_eq,
        not_true_eq_false, if_false]
      refine ⟨by simp [upd, hj], hfil, ?_⟩
      unfold trim
      split
      · have := hdrop ({ act := { state := AState.committed, data := a }, id := k, target := k } :: w.stack.committed)
        have hk : ¬ (k = j) := fun h => hj h.symm
        simpa [List.filter_cons, hk] using this
      · left
        have hk : ¬ (k = j) := fun h => hj h.symm
        simp [hk]
    · simp [World.edit, hres, Stack.add, hm, upd, hj]

example : (3 : Int) ≠ 4 ∧ (∀ r ∈ (World.init 5 (fun _ => 0) : World Nat Nat).stack.committed, r.id ∈ [3,4]) :=
  ⟨by decide, by simp [World.init]⟩

/-! ## Compound actions (used in C08) -/

/-- A chain of children: each child records the step from one state to the next. -/
inductive Chain (sem : Sem π S) : S → List (Action π) → S → Prop
  | nil (s) : Chain sem s [] s
  | cons {s t u a as} : a.state = .committed → Records sem a.data s t → Chain sem t as u →
      Chain sem s (a :: as) u

/-- **C08** A compound action whose children record consecutive steps records the whole change:
restoring the children in reverse order and committing them in order are inverse to each other. -/
theorem compound_records (sem : Sem π S) (s u : S) (as : List (Action π)) (h : Chain sem s as u) :
    Records (compoundSem sem) as s u := by
  suffices H : ∃ bs, restoreAll sem as u = (bs, s) ∧ commitAll sem bs s = (as, u) from H
  induction h with
  | nil s => exact ⟨[], rfl, rfl⟩
  | @cons s t u a as ha hr hc ih =>
    obtain ⟨bs, h1, h2⟩ := ih
    obtain ⟨b, hb1, hb2⟩ := hr
    obtain ⟨st, ad⟩ := a
    simp only at ha hb1 hb2
    subst ha
    refine ⟨⟨.restored, b⟩ :: bs, ?_, ?_⟩
    · simp [restoreAll, h1, Action.restore, hb1]
    · simp [commitAll, Action.commit, hb2, h2]

/-- **C08** Children added through `CompoundUndoAction::Add` are exactly the non-null ones, in
order, and a restored child is rejected. -/
theorem compound_add (as : List (Action π)) (a : Action π) :
    compoundAdd as none = some as ∧
    (a.state = .committed → compoundAdd as (some a) = some (as ++ [a])) ∧
    (a.state = .restored → compoundAdd as (some a) = none) := by
  refine ⟨rfl, fun h => ?_, fun h => ?_⟩ <;> simp [compoundAdd, h]

example : Chain swapSem 1 [⟨.committed, 1⟩, ⟨.committed, 5⟩] 9 :=
  .cons rfl ⟨5, rfl, rfl⟩ (.cons rfl ⟨9, rfl, rfl⟩ (.nil 9))

end Verif.Undo
