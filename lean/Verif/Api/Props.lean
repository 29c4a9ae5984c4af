import Verif.Api.SimMain
import Verif.Api.CounterLemmas
/-!
# Properties C04-C07, C37, C40: the API state

The definitions used in the statements are in `Model.lean` (what the code does) and
`Spec.lean` (`Allowed`, `Recorded`, `Book`).
-/
namespace Verif.Api
open Verif.Undo

variable {π V : Type}

/-! ## A concrete instance, used for witnesses and to show that hypotheses are satisfiable

Contents are numbers; an undo action swaps its private copy with the contents; new objects
contain 0. -/

def demo : Env Nat Nat := ⟨⟨fun a s => (s, a), fun a s => (s, a)⟩, fun _ _ => 0⟩

/-- Set the contents to `v`, remembering the old contents. -/
def demoEdit (v : Nat) : Nat → EditOut Nat Nat := fun s => .ok v (some s)

def demoInit : St Nat Nat := St.init 10 (fun _ _ => 0)

theorem demoEdit_lawful (v s : Nat) : (demoEdit v s).Lawful demo.sem s := ⟨v, rfl, rfl⟩

/-- Final state (if any) and outputs of a history of the demo. -/
def demoRun (cs : List (Call Nat Nat)) : Res (St Nat Nat × List Out) := St.run demo demoInit cs

/-- Contents of one object after a history. -/
def demoLook (k : Int) (f : Field) (cs : List (Call Nat Nat)) : Option Nat :=
  match demoRun cs with
  | .ok r => (r.1.kernels k).bind (fun K => r.1.view k K f)
  | _ => none

def demoOuts (cs : List (Call Nat Nat)) : Option (List Out) :=
  match demoRun cs with
  | .ok r => some r.2
  | _ => none

def isUb {α : Type} : Res α → Bool
  | .ub => true
  | _ => false

/-- Decides `Allowed` in a given state. -/
def allowedB (s : St π V) : Call π V → Bool
  | .snapMesh _ _ => false
  | .getProjection k => (s.kernels k).isSome
  | .closestNode k _ => (s.kernels k).isSome
  | .edit _ f _ _ => f ≠ .contacts
  | .stepAlg k al _ nullCheck _ =>
    match s.kernels k with
    | none => true
    | some K => K.alg al = K.obj al.field || (nullCheck && (K.alg al).isNone)
  | _ => true

def allowedRunB (E : Env π V) : St π V → List (Call π V) → Bool
  | _, [] => true
  | s, c :: cs => allowedB s c &&
    match s.step E c with
    | .ok r => allowedRunB E r.1 cs
    | _ => true

theorem allowed_of_B {s : St π V} {c : Call π V} (h : allowedB s c = true) : Allowed s c := by
  cases c <;> simp only [allowedB, Allowed] at h ⊢ <;> try exact h
  case edit => simpa using h
  case snapMesh => cases h
  case stepAlg k al g nc run =>
    intro K hK
    rw [hK] at h
    simpa using h

theorem allowedRun_of_B {E : Env π V} : ∀ {cs : List (Call π V)} {s : St π V},
    allowedRunB E s cs = true → AllowedRun E s cs
  | [], _, _ => trivial
  | c :: cs, s, h => by
    simp only [allowedRunB, Bool.and_eq_true] at h
    refine ⟨allowed_of_B h.1, fun r hr => ?_⟩
    have h2 := h.2
    rw [hr] at h2
    exact allowedRun_of_B h2

/-! ## C04 -/

/-- **C04** No allowed history of API calls uses freed data, a null pointer or the state of
an erased kernel: every call of the history returns.

Missing: histories with `mkernel_mesh2d_snap_to_landboundary`
(`snap_record_outlives_its_kernel`), `mkernel_get_projection` and
`mkernel_mesh2d_get_closest_node` for unknown ids (`get_projection_creates_broken_kernel`,
`closest_node_of_unknown_kernel`), interactive steps on replaced objects
(`stale_step_uses_freed_grid`). -/
theorem api_never_uses_freed_data_partial (E : Env π V) (n : Nat) (h : Int → Nat → V)
    (cs : List (Call π V)) (ha : AllowedRun E (St.init n h) cs) :
    ∃ s outs, St.run E (St.init n h) cs = .ok (s, outs) := by
  obtain ⟨r, hr, _⟩ := inv_run E cs (inv_init n h) ha
  exact ⟨r.1, r.2, hr⟩

/-- **C04** After an allowed history no undo record refers to an unknown kernel.  In
particular, after a successful `mkernel_expunge_state` there is no record for that kernel. -/
theorem records_refer_to_existing_kernels_partial (E : Env π V) {s : St π V} (h : Reached E s) :
    (∀ r ∈ s.records, (s.kernels r.target).isSome) ∧
    ∀ k s' o, s.step E (.expunge k) = .ok (s', o) →
      s'.kernels k = none ∧ ∀ r ∈ s'.records, r.target ≠ k := by
  have hI := inv_reached h
  refine ⟨hI.alive, ?_⟩
  intro k s' o hs
  obtain ⟨r, hr, hI'⟩ := inv_step E hI (.expunge k) trivial
  rw [hs] at hr; cases hr
  have hn : s'.kernels k = none := by
    simp only [St.step, St.withKernel] at hs
    split at hs
    · rename_i h0; cases hs; exact h0
    · cases hs; simp
  refine ⟨hn, fun r hr e => ?_⟩
  have := hI'.alive r hr
  rw [e, hn] at this; cases this

/-- **C04** Undo and redo leave the memory of every unknown (e.g. expunged) kernel alone and
do not bring the kernel back. -/
theorem undo_leaves_expunged_kernels_alone_partial (E : Env π V) {s : St π V} (h : Reached E s)
    (k : Int) (hk : s.kernels k = none) (c : Call π V) (hc : c = .undo ∨ c = .redo) :
    ∃ s' o, s.step E c = .ok (s', o) ∧ s'.kernels k = none ∧ s'.heap k = s.heap k := by
  have hI := inv_reached h
  rcases hc with rfl | rfl
  · simp only [St.step, St.undo]
    cases hcm : s.stack.committed with
    | nil => exact ⟨_, _, rfl, hk, rfl⟩
    | cons r rest =>
      have hr : r ∈ s.records := by simp [St.records, hcm]
      have hst : r.act.state = .committed := hI.com r (by simp [hcm])
      obtain ⟨K, hK⟩ := Option.isSome_iff_exists.1 (hI.alive r hr)
      have hne : k ≠ r.target := by intro e; rw [e, hK] at hk; cases hk
      have hch := hI.backs r.target K hK
      rw [hcm, back_cons_eq rfl] at hch
      obtain ⟨d, s', K', h1, h2, _, _, _, h5, _⟩ :=
        restoreList_ok E.sem r.target r.act.data _ s K hK (hI.full _ K hK) hch
      simp only [hst, h1, Res.ok_bind]
      exact ⟨_, _, rfl, by dsimp only; rw [h2, upd_ne _ _ hne]; exact hk, h5 k hne⟩
  · simp only [St.step, St.redo]
    cases hcm : s.stack.restored with
    | nil => exact ⟨_, _, rfl, hk, rfl⟩
    | cons r rest =>
      have hr : r ∈ s.records := by simp [St.records, hcm]
      have hst : r.act.state = .restored := hI.res r (by simp [hcm])
      obtain ⟨K, hK⟩ := Option.isSome_iff_exists.1 (hI.alive r hr)
      have hne : k ≠ r.target := by intro e; rw [e, hK] at hk; cases hk
      have hch := hI.forths r.target K hK
      rw [hcm, forth_cons_eq rfl] at hch
      obtain ⟨d, s', K', h1, h2, _, _, _, h5, _⟩ :=
        commitList_ok E.sem r.target r.act.data _ s K hK (hI.full _ K hK) hch
      simp only [hst, h1, Res.ok_bind]
      exact ⟨_, _, rfl, by dsimp only; rw [h2, upd_ne _ _ hne]; exact hk, h5 k hne⟩

/-- A history with edits of two kernels, replacement, interactive orthogonalization, undo,
redo and expunging. -/
def demoHistory : List (Call Nat Nat) :=
  [.allocate 0, .allocate 1, .edit 0 .mesh2d [] (fun _ => demoEdit 5),
   .initAlg 1 .gridOrth (fun s => .start (demoEdit 3 s)),
   .stepAlg 1 .gridOrth none true (demoEdit 4),
   .replace 1 [.mesh2d] [.grid] (fun _ => some (fun _ => 8)), .undo, .redo, .undo, .expunge 1,
   .undo, .redo]

example : AllowedRun demo demoInit demoHistory := allowedRun_of_B (by decide)

example : ∃ s, Reached demo s ∧ s.kernels 1 = none ∧ (s.kernels 0).isSome ∧ s.records ≠ [] :=
  ⟨_, ⟨10, fun _ _ => 0, demoHistory, _, allowedRun_of_B (by decide), rfl⟩, by decide, by decide,
    by intro h; exact absurd (congrArg List.length h) (by decide)⟩

/-- **C04, the general statement is false**: the record of
`mkernel_mesh2d_snap_to_landboundary` survives `mkernel_expunge_state`, and the next
`mkernel_undo_state` works on a freed mesh. -/
theorem snap_record_outlives_its_kernel :
    demoOuts [.allocate 0, .snapMesh 0 (demoEdit 5), .expunge 0] = some [.id 0, .ok, .ok] ∧
    isUb (demoRun [.allocate 0, .snapMesh 0 (demoEdit 5), .expunge 0, .undo]) = true := by decide

/-! ## C05 -/

/-- The functions that do not check the kernel id. -/
def Call.unchecked : Call π V → Bool
  | .isValid _ | .undoCountFor _ | .clearUndoFor _ | .getProjection _ | .closestNode _ _ => true
  | _ => false

/-- **C05** In every state, a call with the id of no kernel reports failure and has no
effect, except for the five functions of `Call.unchecked`. -/
theorem unknown_id_rejected_partial (E : Env π V) (s : St π V) (c : Call π V) (k : Int)
    (hc : c.id? = some k) (hk : s.kernels k = none) (hu : c.unchecked = false) :
    s.step E c = .ok (s, .fail) := by
  cases c <;> simp only [Call.id?, Option.some.injEq, reduceCtorEq, Call.unchecked] at hc hu <;>
    subst hc <;> simp only [St.step, St.withKernel, hk]

/-- **C05** What three of the remaining functions do for unknown ids after an allowed
history: they report success, the answer is that there is no such kernel and that nothing
can be undone, and nothing changes. -/
theorem unknown_id_answered_partial (E : Env π V) {s : St π V} (h : Reached E s) (k : Int)
    (hk : s.kernels k = none) :
    s.step E (.isValid k) = .ok (s, .valid false) ∧
    s.step E (.undoCountFor k) = .ok (s, .counts 0 0) ∧
    (k ≠ missingInt → s.step E (.clearUndoFor k) = .ok (s, .ok)) := by
  have hI := inv_reached h
  refine ⟨by simp [St.step, hk], by simp [St.step, hk], fun _ => ?_⟩
  have hne : ∀ r ∈ s.records, r.id ≠ k := by
    intro r hr e
    have h2 := hI.alive r hr
    rw [← hI.ids r hr, e, hk] at h2; cases h2
  have h1 : s.stack.committed.filter (fun r => r.id ≠ k) = s.stack.committed :=
    filter_all (by intro r hr; simpa using hne r (Inv.mem_com hr))
  have h2 : s.stack.restored.filter (fun r => r.id ≠ k) = s.stack.restored :=
    filter_all (by intro r hr; simpa using hne r (Inv.mem_res hr))
  simp only [St.step, Stack.remove, h1, h2]

example : ∃ c : Call Nat Nat, c.id? = some 3 ∧ demoInit.kernels 3 = none ∧ c.unchecked = false :=
  ⟨.replace 3 [] [] (fun _ => none), by decide⟩

/-- **C05, the general statement is false**: `mkernel_get_projection` for an unknown id
succeeds and creates a kernel without objects.  `mkernel_is_valid_state` is true for it; the
next call that uses it, also after `mkernel_allocate_state` returned its id, dereferences a
null pointer. -/
theorem get_projection_creates_broken_kernel :
    demoOuts [.isValid 0, .getProjection 0, .isValid 0, .allocate 0] =
      some [.valid false, .projection 0, .valid true, .id 0] ∧
    isUb (demoRun [.getProjection 0, .allocate 0, .query 0 [.mesh2d] (fun _ => true)]) = true := by
  decide

/-- **C05, the general statement is false**: `mkernel_mesh2d_get_closest_node` for an unknown
id dereferences a null pointer. -/
theorem closest_node_of_unknown_kernel (E : Env π V) (s : St π V) (k : Int)
    (hk : s.kernels k = none) (ask : V → Bool) : s.step E (.closestNode k ask) = .ub := by
  simp [St.step, hk]

example : demoInit.kernels 0 = none := rfl

/-! ## C06 -/

/-- **C06** In every history without `mkernel_clear_state` the ids returned by
`mkernel_allocate_state` increase strictly; so no id is returned twice. -/
theorem ids_never_reused_partial (E : Env π V) (cs : List (Call π V)) (s s' : St π V)
    (outs : List Out) (hc : ∀ c ∈ cs, c ≠ .clearState)
    (h : St.run E s cs = .ok (s', outs)) : (outs.filterMap Out.id?).Pairwise (· < ·) :=
  (ids_run E cs s s' outs hc h).1

example : demoOuts [.allocate 0, .allocate 7, .expunge 0, .allocate 1] =
    some [.id 0, .fail, .ok, .id 2] := by decide

/-- **C06, the general statement is false**: `mkernel_clear_state` resets the counter. -/
theorem clear_state_reuses_ids :
    demoOuts [.allocate 0, .clearState, .allocate 0] = some [.id 0, .ok, .id 0] := by decide

/-- In a state in which no kernel has an id at or above the counter, a successful
allocation returns an id that no kernel had, for a kernel with empty objects, and the other
kernels are unchanged. -/
theorem allocate_fresh (E : Env π V) {s : St π V} (hs : ∀ k, s.counter ≤ k → s.kernels k = none)
    (p : Int) (hp : validProjection p = true) :
    ∃ s' K, s.step E (.allocate p) = .ok (s', .id s.counter) ∧ s.kernels s.counter = none ∧
      s'.kernels = upd s.kernels s.counter (some K) ∧ K.proj = p ∧
      (∀ f, s'.view s.counter K f = some (E.empty p f)) ∧
      ∀ k, k ≠ s.counter → s'.heap k = s.heap k := by
  have hn := hs s.counter (by omega)
  refine ⟨{ s.fresh s.counter ⟨fun _ => none, fun _ => none, p⟩ Field.all (E.empty p) with
      counter := s.counter + 1 }, ⟨freshObj s.next Field.all (fun _ => none), fun _ => none, p⟩,
    ?_, hn, ?_, rfl, ?_, ?_⟩
  · simp only [St.step, hp, if_true, hn]
  · rfl
  · intro f
    simp only [St.view, St.fresh, freshObj, f.mem_all, if_true, Option.map_some, upd_same]
    exact congrArg some (freshHeap_new (h := s.heap s.counter) f.mem_all)
  · intro k hk
    simp only [St.fresh]
    rw [upd_ne _ _ hk]

/-! ## C07 -/

/-- The library functions used by the call either succeed or have no effect. -/
def Call.FailsCleanly : Call π V → Prop
  | .edit _ _ _ run => ∀ c v v' act, run c v = .fail v' act → v' = v ∧ act = none
  | .snapMesh _ run => ∀ v v' act, run v = .fail v' act → v' = v ∧ act = none
  | .convertProjection _ _ run => ∀ v v' act, run v = .fail v' act → v' = v ∧ act = none
  | .initAlg _ _ run => ∀ v v' act, run v = .start (.fail v' act) → v' = v ∧ act = none
  | .stepAlg _ _ _ _ run => ∀ v v' act, run v = .fail v' act → v' = v ∧ act = none
  | .contacts _ compute => ∀ c, (compute c).2 = true
  | _ => True

/-- The two states agree in all objects, projections and the undo history. -/
def Same (s s' : St π V) : Prop :=
  s'.stack = s.stack ∧ s'.heap = s.heap ∧
  ∀ k, (s'.kernels k).map (fun K => (K.obj, K.proj)) = (s.kernels k).map (fun K => (K.obj, K.proj))

theorem Same.refl (s : St π V) : Same s s := ⟨rfl, rfl, fun _ => rfl⟩

theorem same_editAt {s : St π V} {k id : Int} {a : Nat} {out : EditOut π V} {s' : St π V}
    (hcl : ∀ v' act, out = .fail v' act → v' = s.heap k a ∧ act = none)
    (h : s.editAt k id a out = (s', .fail)) : Same s s' := by
  cases out with
  | ok v act => cases h
  | fail v act =>
    obtain ⟨rfl, rfl⟩ := hcl v act rfl
    simp only [St.editAt, Option.map_none, add_none, Prod.mk.injEq, and_true] at h
    subst h
    refine ⟨rfl, ?_, fun _ => rfl⟩
    rw [write_same]

/-- **C07** In every state, a call that reports failure leaves all objects, the projections
and the undo history unchanged, provided the library functions it uses have no effect when
they fail.  (A failing `mkernel_allocate_state` uses up an id, a failing initialization can
leave an algorithm instance behind; neither is an object or a record.)

Missing: the `mkernel_contacts_compute_*` functions (`failing_contacts_discard_contacts`). -/
theorem failing_call_changes_nothing_partial (E : Env π V) (s s' : St π V) (c : Call π V)
    (hcl : c.FailsCleanly) (h : s.step E c = .ok (s', .fail)) : Same s s' := by
  have known : ∀ {k : Int} {f : Kernel → Res (St π V × Out)}, s.withKernel k f = .ok (s', .fail) →
      (∀ K, s.kernels k = some K → f K = .ok (s', .fail) → Same s s') → Same s s' := by
    intro k f hf hK
    unfold St.withKernel at hf
    split at hf
    · cases hf; exact .refl s
    · rename_i K hk; exact hK K hk hf
  have deref : ∀ {K : Kernel} {f : Field} {g : Nat → Res (St π V × Out)},
      St.derefThen K f g = .ok (s', .fail) → ∃ a, g a = .ok (s', .fail) := by
    intro K f g h
    unfold St.derefThen at h
    split at h
    · cases h
    · exact ⟨_, h⟩
  have algD : ∀ {k K al nc}, s.algDrop k K al nc = .ok (s', .fail) → Same s s' := by
    intro k K al nc h
    unfold St.algDrop at h
    split at h
    · split at h <;> cases h; exact .refl s
    · cases h
  have algS : ∀ {k K al nc run}, (∀ v v' act, run v = .fail v' act → v' = v ∧ act = none) →
      s.algStep k K al nc run = .ok (s', .fail) → Same s s' := by
    intro k K al nc run hc h
    unfold St.algStep at h
    split at h
    · split at h <;> cases h; exact .refl s
    · split at h
      · exact same_editAt (hc _) (Res.ok.inj h)
      · cases h
  cases c with
  | allocate p =>
    simp only [St.step] at h
    split at h
    · split at h <;> cases h
    · cases h; exact ⟨rfl, rfl, fun _ => rfl⟩
  | isValid k => cases h
  | deallocate k => exact known h fun K _ hf => by cases hf
  | expunge k => exact known h fun K _ hf => by cases hf
  | setUndoSize n => simp only [St.step] at h; split at h <;> cases h; exact .refl s
  | undo =>
    simp only [St.step] at h
    cases h1 : s.undo E.sem <;> rw [h1] at h <;> cases h
  | redo =>
    simp only [St.step] at h
    cases h1 : s.redo E.sem <;> rw [h1] at h <;> cases h
  | undoCount => cases h
  | undoCountFor k => simp only [St.step] at h; split at h <;> cases h
  | clearState => cases h
  | clearUndo => cases h
  | clearUndoFor k => cases h
  | getProjection k => simp only [St.step] at h; split at h <;> cases h
  | closestNode k ask =>
    simp only [St.step] at h
    split at h
    · cases h
    · obtain ⟨a, ha⟩ := deref h
      simp only [Res.ok.injEq, Prod.mk.injEq] at ha
      rw [← ha.1]; exact .refl s
  | query k reads ask =>
    refine known h fun K _ hf => ?_
    split at hf
    · simp only [Res.ok.injEq, Prod.mk.injEq] at hf
      rw [← hf.1]; exact .refl s
    · cases hf
  | edit k f reads run =>
    refine known h fun K _ hf => ?_
    split at hf
    · obtain ⟨a, ha⟩ := deref hf
      exact same_editAt (hcl _ _) (Res.ok.inj ha)
    · cases hf
  | snapMesh k run =>
    refine known h fun K _ hf => ?_
    obtain ⟨a, ha⟩ := deref hf
    exact same_editAt (hcl _) (Res.ok.inj ha)
  | convertProjection k p run =>
    refine known h fun K _ hf => ?_
    obtain ⟨a, ha⟩ := deref hf
    simp only [Res.ok.injEq] at ha
    split at ha
    · cases ha
    · exact same_editAt (hcl _) ha
  | assign k f run =>
    refine known h fun K _ hf => ?_
    obtain ⟨a, ha⟩ := deref hf
    split at ha <;> cases ha; exact .refl s
  | replace k reads fs build =>
    refine known h fun K _ hf => ?_
    split at hf
    · split at hf <;> cases hf; exact .refl s
    · cases hf
  | overwrite k f build =>
    refine known h fun K _ hf => ?_
    obtain ⟨a, ha⟩ := deref hf
    split at ha <;> cases ha; exact .refl s
  | contacts k compute =>
    refine known h fun K _ hf => ?_
    split at hf
    · simp only [hcl (s.view k K), if_true] at hf; cases hf
    · cases hf
  | gridToMesh k check join eg =>
    refine known h fun K _ hf => ?_
    obtain ⟨a, ha⟩ := deref hf
    obtain ⟨b, hb⟩ := deref ha
    split at hb <;> cases hb; exact .refl s
  | initAlg k al run =>
    refine known h fun K hK hf => ?_
    obtain ⟨a, ha⟩ := deref hf
    split at ha
    · cases ha
    · cases ha; exact .refl s
    · rename_i out ho
      obtain ⟨h1, h2, h3⟩ := same_editAt (fun v' act e => hcl _ _ _ (e ▸ ho)) (Res.ok.inj ha)
      refine ⟨h1, h2, fun j => ?_⟩
      rw [h3 j]
      by_cases hj : j = k
      · subst hj; simp [St.setKernel, hK]
      · simp [St.setKernel, hj]
  | stepAlg k al guard nc run =>
    refine known h fun K _ hf => ?_
    split at hf
    · obtain ⟨a, ha⟩ := deref hf
      split at ha
      · exact algS hcl ha
      · cases ha
    · exact algS hcl hf
  | dropAlg k al guard nc =>
    refine known h fun K _ hf => ?_
    split at hf
    · obtain ⟨a, ha⟩ := deref hf
      split at ha
      · exact algD ha
      · cases ha
    · exact algD hf

example : (Call.edit 0 .mesh2d [] (fun _ v => if v = 0 then .fail v none else demoEdit 1 v) :
      Call Nat Nat).FailsCleanly ∧
    demoOuts [.allocate 0, .edit 0 .mesh2d [] (fun _ v => if v = 0 then .fail v none else demoEdit 1 v)]
      = some [.id 0, .fail] := by
  refine ⟨?_, by decide⟩
  intro c v v' act h
  by_cases hv : v = 0
  · simp only [hv, if_true, EditOut.fail.injEq] at h; exact ⟨by omega, h.2.symm⟩
  · simp [hv, demoEdit] at h

/-- **C07, the general statement is false**: a `mkernel_contacts_compute_*` call that fails
discards the contacts of the kernel, and this cannot be undone: here the contacts 7 become
empty (0), the call fails, and there is nothing to undo. -/
theorem failing_contacts_discard_contacts :
    let before : List (Call Nat Nat) := [.allocate 0, .assign 0 .contacts (fun _ => some 7)]
    let call : Call Nat Nat := .contacts 0 (fun _ => (0, false))
    demoLook 0 .contacts before = some 7 ∧
    demoOuts (before ++ [call, .undo]) = some [.id 0, .ok, .fail, .undone none] ∧
    demoLook 0 .contacts (before ++ [call, .undo]) = some 0 := by decide

/-- **C07** Every failing contacts computation on a complete kernel replaces the contacts by
what the computation left and adds no undo record. -/
theorem failing_contacts_effect (E : Env π V) {s : St π V} {k : Int} {K : Kernel}
    (hK : s.kernels k = some K) (hf : ∀ f, (K.obj f).isSome)
    (compute : (Field → Option V) → V × Bool) (hfail : (compute (s.view k K)).2 = false) :
    ∃ s' K', s.step E (.contacts k compute) = .ok (s', .fail) ∧ s'.kernels k = some K' ∧
      s'.view k K' .contacts = some (compute (s.view k K)).1 ∧ s'.stack = s.stack := by
  refine ⟨s.fresh k K [.contacts] (fun _ => (compute (s.view k K)).1),
    { K with obj := freshObj s.next [.contacts] K.obj }, ?_, ?_, ?_, ?_⟩
  · simp only [St.step, St.withKernel, hK, present_of_full hf, if_true, hfail, Bool.false_eq_true,
      if_false]
  · simp [St.fresh]
  · simp [St.view, St.fresh, freshObj]
  · rfl

example : ∃ s : St Nat Nat, ∃ K, s.kernels 0 = some K ∧ ∀ f, (K.obj f).isSome :=
  ⟨{ demoInit with kernels := fun _ => some ⟨fun f => some f.idx, fun _ => none, 0⟩ }, _, rfl,
    fun _ => rfl⟩

/-! ## C37 -/

/-- **C37** (and C01 for the API) Every history of recorded calls is observationally the
snapshot machine `Book`, which knows no objects and no undo actions: all outputs agree, and
every kernel shows the expected contents in all five objects.  The calls include replacing
whole objects (`mesh2d_set`, `mesh1d_set`, `curvilinear_set`, grid generation, conversion in
both directions), edits in place, contacts, deallocation, expunging, interactive algorithms,
undo, redo and the management of the undo history.

Missing: `network1d_set` and circular grids (`overwrite_is_not_undone`), calls without a
record (`assign_is_not_recorded`), the projection of the kernel
(`undo_keeps_converted_projection`), and the calls that `Allowed` leaves out. -/
theorem api_refines_snapshots_partial (E : Env π V) (n : Nat) (h : Int → Nat → V)
    (cs : List (Call π V)) (hr : RecordedRun E (St.init n h) cs) :
    ∃ s, St.run E (St.init n h) cs = .ok (s, ((Book.init n).run E cs).2) ∧
      Shows s ((Book.init n).run E cs).1 := by
  obtain ⟨r, h1, h2, h3⟩ := sim_run E cs (inv_init n h) (sim_init E.sem n h) hr
  exact ⟨r.1, by rw [h1, ← h3], h2.shows⟩

/-- Histories of recorded calls. -/
def RecordedReached (E : Env π V) (s : St π V) : Prop :=
  ∃ n h cs outs, RecordedRun E (St.init n h) cs ∧ St.run E (St.init n h) cs = .ok (s, outs)

/-- The contents of all objects of all kernels. -/
def St.contents (s : St π V) (k : Int) : Option (Field → Option V) := (s.kernels k).map (s.view k)

theorem Shows.contents {s : St π V} {b : Book V} (h : Shows s b) :
    s.contents = fun k => (b.world k).map (fun c f => some (c f)) := by
  funext k
  unfold St.contents
  cases hK : s.kernels k with
  | none => rw [h.of_none hK]; rfl
  | some K =>
    obtain ⟨c, h1, h2⟩ := h.of_some hK
    rw [h1]; simp only [Option.map_some]
    exact congrArg some (funext h2)

theorem recordedReached_sim {E : Env π V} {s : St π V} (h : RecordedReached E s) :
    ∃ b, Inv s ∧ Sim E.sem s b := by
  obtain ⟨n, hp, cs, outs, hr, hrun⟩ := h
  obtain ⟨r, h1, h2, _⟩ := sim_run E cs (inv_init n hp) (sim_init E.sem n hp) hr
  have hal : ∀ (cs : List (Call π V)) (s : St π V), RecordedRun E s cs → AllowedRun E s cs := by
    intro cs
    induction cs with
    | nil => intro _ _; trivial
    | cons c cs ih => exact fun s hs => ⟨hs.1.allowed, fun r hr => ih _ (hs.2 r hr)⟩
  obtain ⟨r', h1', h2'⟩ := inv_run E cs (inv_init n hp) (hal _ _ hr)
  rw [hrun] at h1 h1'; cases h1; cases h1'
  exact ⟨_, h2', h2⟩

theorem change_undo_redo {E : Env π V} {s s1 : St π V} {b : Book V} {k : Int} {c c' : Field → V}
    (h : Sim E.sem s b) (hw : b.world k = some c) (hI1 : Inv s1)
    (h1 : Sim E.sem s1 (b.change k c c')) (hb : 0 < s.stack.maxSize) :
    ∃ s2 s3, s1.step E .undo = .ok (s2, .undone (some k)) ∧ s2.contents = s.contents ∧
      s2.step E .redo = .ok (s3, .undone (some k)) ∧ s3.contents = s1.contents := by
  have hb' : 0 < b.bound := by rw [← h.bound]; exact hb
  obtain ⟨n, hn⟩ : ∃ n, b.bound = n + 1 := ⟨b.bound - 1, by omega⟩
  obtain ⟨r2, e2, S2, o2⟩ := sim_step E hI1 h1 .undo trivial
  obtain ⟨r2', e2', I2⟩ := inv_step E hI1 .undo trivial
  rw [e2] at e2'; cases e2'
  obtain ⟨r3, e3, S3, o3⟩ := sim_step E I2 S2 .redo trivial
  have B : (b.change k c c') = { b with
      world := upd b.world k (some c'), past := (k, c) :: b.past.take n,
      future := b.future.filter (fun p => p.1 ≠ k) } := by
    simp only [Book.change, hn, Nat.succ_pos, if_true, List.take_succ_cons]
  rw [B] at S2 S3 o2 o3
  simp only [Book.step, upd_same, upd_upd] at S2 S3 o2 o3
  refine ⟨r2.1, r3.1, by rw [e2, ← o2], ?_, by rw [e3, ← o3], ?_⟩
  · rw [S2.shows.contents, h.shows.contents]
    funext j
    by_cases hj : j = k
    · subst hj; simp [hw]
    · simp [hj]
  · rw [S3.shows.contents, h1.shows.contents, B]

/-- **C37** Undoing the replacement of whole objects (`mesh2d_set`, `mesh1d_set`,
`curvilinear_set`, grid generators, `convert_to_curvilinear`) brings back the contents of all
objects of all kernels, and redoing it brings back the new contents. -/
theorem replacement_undo_redo_partial (E : Env π V) {s : St π V} (h : RecordedReached E s)
    (hb : 0 < s.stack.maxSize) (k : Int) (reads fs : List Field)
    (build : (Field → Option V) → Option (Field → V)) (s1 : St π V)
    (hs : s.step E (.replace k reads fs build) = .ok (s1, .ok)) :
    ∃ s2 s3, s1.step E .undo = .ok (s2, .undone (some k)) ∧ s2.contents = s.contents ∧
      s2.step E .redo = .ok (s3, .undone (some k)) ∧ s3.contents = s1.contents := by
  obtain ⟨b, hI, hS⟩ := recordedReached_sim h
  obtain ⟨r1, e1, S1, o1⟩ := sim_step E hI hS (.replace k reads fs build) trivial
  obtain ⟨r1', e1', I1⟩ := inv_step E hI (.replace k reads fs build) trivial
  rw [hs] at e1 e1'; cases e1; cases e1'
  simp only [Book.step, Book.withKernel] at S1 o1
  cases hw : b.world k with
  | none => rw [hw] at o1; cases o1
  | some c =>
    rw [hw] at S1 o1
    cases hbld : build (fun f => some (c f)) with
    | none => simp only [hbld] at o1; cases o1
    | some vals =>
      simp only [hbld] at S1
      exact change_undo_redo hS hw I1 S1 hb

/-- **C37** The same for `mkernel_deallocate_state`, which empties a kernel. -/
theorem deallocation_undo_redo_partial (E : Env π V) {s : St π V} (h : RecordedReached E s)
    (hb : 0 < s.stack.maxSize) (k : Int) (s1 : St π V)
    (hs : s.step E (.deallocate k) = .ok (s1, .ok)) :
    ∃ s2 s3, s1.step E .undo = .ok (s2, .undone (some k)) ∧ s2.contents = s.contents ∧
      s2.step E .redo = .ok (s3, .undone (some k)) ∧ s3.contents = s1.contents := by
  obtain ⟨b, hI, hS⟩ := recordedReached_sim h
  obtain ⟨r1, e1, S1, o1⟩ := sim_step E hI hS (.deallocate k) trivial
  obtain ⟨r1', e1', I1⟩ := inv_step E hI (.deallocate k) trivial
  rw [hs] at e1 e1'; cases e1; cases e1'
  simp only [Book.step, Book.withKernel] at S1 o1
  cases hw : b.world k with
  | none => rw [hw] at o1; cases o1
  | some c =>
    rw [hw] at S1
    exact change_undo_redo hS hw I1 S1 hb

/-- **C37** The same for `mkernel_curvilinear_convert_to_mesh2d`, which joins the grid to the
mesh and empties the grid. -/
theorem grid_to_mesh_undo_redo_partial (E : Env π V) {s : St π V} (h : RecordedReached E s)
    (hb : 0 < s.stack.maxSize) (k : Int) (check : V → V → Bool) (join : V → V → V × π) (eg : V)
    (hj : ∀ m g, check m g = true → Records E.sem (join m g).2 m (join m g).1) (s1 : St π V)
    (hs : s.step E (.gridToMesh k check join eg) = .ok (s1, .ok)) :
    ∃ s2 s3, s1.step E .undo = .ok (s2, .undone (some k)) ∧ s2.contents = s.contents ∧
      s2.step E .redo = .ok (s3, .undone (some k)) ∧ s3.contents = s1.contents := by
  obtain ⟨b, hI, hS⟩ := recordedReached_sim h
  obtain ⟨r1, e1, S1, o1⟩ := sim_step E hI hS (.gridToMesh k check join eg) hj
  obtain ⟨r1', e1', I1⟩ := inv_step E hI (.gridToMesh k check join eg) trivial
  rw [hs] at e1 e1'; cases e1; cases e1'
  simp only [Book.step, Book.withKernel] at S1 o1
  cases hw : b.world k with
  | none => rw [hw] at o1; cases o1
  | some c =>
    rw [hw] at S1 o1
    by_cases hc : check (c .mesh2d) (c .grid) = true
    · simp only [hc, if_true] at S1
      exact change_undo_redo hS hw I1 S1 hb
    · simp only [hc] at o1; cases o1

/-- **C06** After every recorded history, a successful allocation returns an id that no
kernel has, for a kernel whose objects are empty, and leaves all other kernels unchanged. -/
theorem allocation_is_fresh_partial (E : Env π V) {s : St π V} (h : RecordedReached E s)
    (p : Int) (hp : validProjection p = true) :
    ∃ s' k K, s.step E (.allocate p) = .ok (s', .id k) ∧ s.kernels k = none ∧
      s'.kernels = upd s.kernels k (some K) ∧ K.proj = p ∧
      (∀ f, s'.view k K f = some (E.empty p f)) ∧ ∀ j, j ≠ k → s'.heap j = s.heap j := by
  obtain ⟨b, _, hS⟩ := recordedReached_sim h
  obtain ⟨s', K, h1⟩ := allocate_fresh E hS.ids p hp
  exact ⟨s', s.counter, K, h1⟩

/-- A recorded history with replacements, edits and conversion. -/
def demoRecorded : List (Call Nat Nat) :=
  [.allocate 0, .replace 0 [] [.mesh2d] (fun _ => some (fun _ => 8)),
   .edit 0 .mesh2d [] (fun _ => demoEdit 5),
   .gridToMesh 0 (fun _ _ => true) (fun m g => (m + g + 1, m)) 0]

theorem demoRecorded_run : RecordedRun demo demoInit demoRecorded := by
  refine ⟨trivial, fun r _ => ⟨trivial, fun r _ => ⟨⟨by decide, fun _ v => demoEdit_lawful 5 v⟩,
    fun r _ => ⟨fun m g _ => ⟨m + g + 1, rfl, rfl⟩, fun _ _ => trivial⟩⟩⟩⟩

example : ∃ s, RecordedReached demo s ∧ 0 < s.stack.maxSize ∧
    (∃ s1, s.step demo (.replace 0 [] [.grid] (fun _ => some (fun _ => 9))) = .ok (s1, .ok)) ∧
    (∃ s1, s.step demo (.deallocate 0) = .ok (s1, .ok)) ∧
    ∃ s1, s.step demo (.gridToMesh 0 (fun _ _ => true) (fun m g => (m + g + 1, m)) 0) = .ok (s1, .ok) :=
  ⟨_, ⟨10, fun _ _ => 0, demoRecorded, _, demoRecorded_run, rfl⟩, by decide, ⟨_, rfl⟩, ⟨_, rfl⟩, ⟨_, rfl⟩⟩

/-- **C37, the general statement is false** for `mkernel_network1d_set` and
`mkernel_curvilinear_compute_circular_grid`: the snapshot shares the object that is
overwritten, so undo reports success and changes nothing: the old contents (0) are lost. -/
theorem overwrite_is_not_undone :
    demoLook 0 .network1d [.allocate 0] = some 0 ∧
    demoOuts [.allocate 0, .overwrite 0 .network1d (fun _ => some 7), .undo] =
      some [.id 0, .ok, .undone (some 0)] ∧
    demoLook 0 .network1d [.allocate 0, .overwrite 0 .network1d (fun _ => some 7), .undo] =
      some 7 := by decide

/-- **C37, the general statement is false** for `mkernel_contacts_set`: it adds no record,
and an undo that follows takes back the call before it instead. -/
theorem assign_is_not_recorded :
    let cs : List (Call Nat Nat) := [.allocate 0, .edit 0 .mesh2d [] (fun _ => demoEdit 5),
      .assign 0 .contacts (fun _ => some 7), .undo]
    demoOuts cs = some [.id 0, .ok, .ok, .undone (some 0)] ∧
    demoLook 0 .contacts cs = some 7 ∧ demoLook 0 .mesh2d cs = some 0 := by decide

/-- **C37, C38** Undoing `mkernel_mesh2d_convert_projection` restores the mesh but
`mkernel_get_projection` still reports the new projection. -/
theorem undo_keeps_converted_projection :
    demoOuts [.allocate 0, .convertProjection 0 1 (demoEdit 5), .undo, .getProjection 0] =
      some [.id 0, .ok, .undone (some 0), .projection 1] ∧
    demoLook 0 .mesh2d [.allocate 0, .convertProjection 0 1 (demoEdit 5), .undo] = some 0 := by decide

/-! ## C40 -/

/-- **C40** While the instance refers to the object the kernel holds (as it does after
`initialize`, see `initialize_refers_to_current_object`), a step of an interactive algorithm
edits that object and nothing else. -/
theorem interactive_step_edits_current_object_partial (E : Env π V) {s : St π V} {k : Int}
    {K : Kernel} (hK : s.kernels k = some K) {al : Alg} {a : Nat} (ha : K.obj al.field = some a)
    (hcur : K.alg al = some a) (nc : Bool) (run : V → EditOut π V) (v : V) (act : Option π)
    (hrun : run (s.heap k a) = .ok v act) :
    ∃ s', s.step E (.stepAlg k al none nc run) = .ok (s', .ok) ∧ s'.kernels = s.kernels ∧
      s'.view k K al.field = some v ∧
      (∀ b, b ≠ a → s'.heap k b = s.heap k b) ∧ ∀ j, j ≠ k → s'.heap j = s.heap j := by
  refine ⟨(s.write k a v).add (act.map (fun p => [.edit a p])) k k, ?_, ?_, ?_, ?_, ?_⟩
  · simp only [St.step, St.withKernel, hK, St.algStep, hcur, owned_of_obj hK ha, if_true, hrun,
      St.editAt]
  · rw [kernels_add]; rfl
  · simp [St.view, ha, heap_add, St.write]
  · intro b hb; simp [heap_add, St.write, hb]
  · intro j hj; simp [heap_add, St.write, hj]

/-- **C40** A successful start makes the instance refer to the object the kernel holds. -/
theorem initialize_refers_to_current_object (E : Env π V) {s : St π V} {k : Int}
    {K : Kernel} (hK : s.kernels k = some K) {al : Alg} {a : Nat} (ha : K.obj al.field = some a)
    (run : V → InitOut π V) (v : V) (act : Option π) (hrun : run (s.heap k a) = .start (.ok v act)) :
    ∃ s' K', s.step E (.initAlg k al run) = .ok (s', .ok) ∧ s'.kernels k = some K' ∧
      K'.obj = K.obj ∧ K'.alg al = some a := by
  refine ⟨((s.setKernel k { K with alg := fun b => if b = al then some a else K.alg b }).write k a
    v).add (act.map (fun p => [.edit a p])) k k,
    { K with alg := fun b => if b = al then some a else K.alg b }, ?_, ?_, rfl, by simp⟩
  · simp only [St.step, St.withKernel, hK, St.derefThen, ha, hrun, St.editAt]
  · rw [kernels_add]; simp [St.write, St.setKernel]

example : ∃ s K a, (demoRun [.allocate 0, .initAlg 0 .orth (fun s => .start (demoEdit 3 s))]) = .ok s ∧
    s.1.kernels 0 = some K ∧ K.obj .mesh2d = some a ∧ K.alg .orth = some a :=
  ⟨_, _, 2, rfl, rfl, rfl, rfl⟩

/-- **C40, the general statement is false**: without `initialize`, the steps of the mesh
orthogonalization and of the line shift dereference a null pointer (the grid orthogonalization
reports an error). -/
theorem step_before_initialize :
    isUb (demoRun [.allocate 0, .stepAlg 0 .orth (some (fun _ => true)) false (demoEdit 1)]) = true ∧
    isUb (demoRun [.allocate 0, .stepAlg 0 .shift none false (demoEdit 1)]) = true ∧
    demoOuts [.allocate 0, .stepAlg 0 .gridOrth none true (demoEdit 1)] = some [.id 0, .fail] := by
  decide

/-- **C40, the general statement is false**: after the grid has been replaced, a step reports
success but edits the old grid; the grid of the kernel (9) does not change. -/
theorem stale_step_misses_current_grid :
    let cs : List (Call Nat Nat) := [.allocate 0, .initAlg 0 .shift (fun s => .start (demoEdit 3 s)),
      .replace 0 [] [.grid] (fun _ => some (fun _ => 9)), .stepAlg 0 .shift none false (demoEdit 4)]
    demoOuts cs = some [.id 0, .ok, .ok, .ok] ∧ demoLook 0 .grid cs = some 9 := by decide

/-- **C40, the general statement is false**: once the undo history has been cleared as well,
nothing owns the old grid and the step uses freed data. -/
theorem stale_step_uses_freed_grid :
    isUb (demoRun [.allocate 0, .initAlg 0 .shift (fun s => .start (demoEdit 3 s)),
      .replace 0 [] [.grid] (fun _ => some (fun _ => 9)), .clearUndo,
      .stepAlg 0 .shift none false (demoEdit 4)]) = true := by decide

end Verif.Api
