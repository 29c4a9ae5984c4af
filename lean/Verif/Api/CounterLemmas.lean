import Verif.Api.StepLemmas
namespace Verif.Api
open Verif.Undo

variable {π V : Type}

theorem counter_step (E : Env π V) {s s' : St π V} {c : Call π V} {o : Out}
    (hc : c ≠ .clearState) (h : s.step E c = .ok (s', o)) :
    s.counter ≤ s'.counter ∧ ∀ k, o.id? = some k → k = s.counter ∧ s'.counter = s.counter + 1 := by
  have key : ∀ {s' : St π V} {o : Out}, s'.counter = s.counter → o.id? = none →
      s.counter ≤ s'.counter ∧ ∀ k, o.id? = some k → k = s.counter ∧ s'.counter = s.counter + 1 := by
    intro s' o h1 h2
    exact ⟨by omega, fun k hk => by rw [h2] at hk; cases hk⟩
  have edit : ∀ (t : St π V) (k id : Int) (a : Nat) (out : EditOut π V), t.counter = s.counter →
      (t.editAt k id a out).1.counter = s.counter ∧ (t.editAt k id a out).2.id? = none := by
    intro t k id a out ht
    cases out <;> exact ⟨by rw [St.editAt, counter_add]; exact ht, rfl⟩
  have restL : ∀ (k : Int) (l : List (Prim π)) (t : St π V) d t',
      restoreList E.sem k l t = .ok (d, t') → t'.counter = t.counter := by
    intro k l
    induction l with
    | nil => intro t d t' h; cases h; rfl
    | cons x xs ih =>
      intro t d t' h
      simp only [restoreList] at h
      cases h1 : restorePrim E.sem k t x with
      | ok r =>
        rw [h1, Res.ok_bind] at h
        cases h2 : restoreList E.sem k xs r.2 with
        | ok rs =>
          rw [h2, Res.ok_bind] at h; cases h
          rw [ih _ _ _ h2]
          cases x with
          | edit a p =>
            simp only [restorePrim] at h1; split at h1
            · cases h1; rfl
            · cases h1
          | snap q =>
            simp only [restorePrim] at h1; split at h1
            · cases h1; rfl
            · cases h1
        | throw => rw [h2] at h; cases h
        | ub => rw [h2] at h; cases h
      | throw => rw [h1] at h; cases h
      | ub => rw [h1] at h; cases h
  have comL : ∀ (k : Int) (l : List (Prim π)) (t : St π V) d t',
      commitList E.sem k l t = .ok (d, t') → t'.counter = t.counter := by
    intro k l
    induction l with
    | nil => intro t d t' h; cases h; rfl
    | cons x xs ih =>
      intro t d t' h
      simp only [commitList] at h
      cases h2 : commitList E.sem k xs t with
      | ok rs =>
        rw [h2, Res.ok_bind] at h
        cases h1 : commitPrim E.sem k rs.2 x with
        | ok r =>
          rw [h1, Res.ok_bind] at h; cases h
          rw [← ih _ _ _ h2]
          cases x with
          | edit a p =>
            simp only [commitPrim] at h1; split at h1
            · cases h1; rfl
            · cases h1
          | snap q =>
            simp only [commitPrim] at h1; split at h1
            · cases h1; rfl
            · cases h1
        | throw => rw [h1] at h; cases h
        | ub => rw [h1] at h; cases h
      | throw => rw [h2] at h; cases h
      | ub => rw [h2] at h; cases h
  have known : ∀ {k : Int} {f : Kernel → Res (St π V × Out)}, s.withKernel k f = .ok (s', o) →
      (∀ K, f K = .ok (s', o) → s'.counter = s.counter ∧ o.id? = none) →
      s.counter ≤ s'.counter ∧ ∀ k, o.id? = some k → k = s.counter ∧ s'.counter = s.counter + 1 := by
    intro k f hf hK
    unfold St.withKernel at hf
    split at hf
    · cases hf; exact key rfl rfl
    · exact key (hK _ hf).1 (hK _ hf).2
  have deref : ∀ {K : Kernel} {f : Field} {g : Nat → Res (St π V × Out)},
      St.derefThen K f g = .ok (s', o) → ∃ a, g a = .ok (s', o) := by
    intro K f g h
    unfold St.derefThen at h
    split at h
    · cases h
    · exact ⟨_, h⟩
  have algS : ∀ {k K al nc run}, s.algStep k K al nc run = .ok (s', o) →
      s'.counter = s.counter ∧ o.id? = none := by
    intro k K al nc run h
    unfold St.algStep at h
    split at h
    · split at h
      · cases h; exact ⟨rfl, rfl⟩
      · cases h
    · split at h
      · rename_i a _ _
        have e := edit s k k a (run (s.heap k a)) rfl
        rw [Res.ok.inj h] at e; exact e
      · cases h
  have algD : ∀ {k K al nc}, s.algDrop k K al nc = .ok (s', o) →
      s'.counter = s.counter ∧ o.id? = none := by
    intro k K al nc h
    unfold St.algDrop at h
    split at h
    · split at h <;> cases h <;> exact ⟨rfl, rfl⟩
    · cases h; exact ⟨rfl, rfl⟩
  cases c with
  | allocate p =>
    simp only [St.step] at h
    split at h
    · split at h <;> cases h <;>
        exact ⟨by simp only; omega, fun k hk => by simp only [Out.id?, Option.some.injEq] at hk; exact ⟨hk.symm, rfl⟩⟩
    · cases h; exact ⟨by simp only; omega, fun k hk => by cases hk⟩
  | isValid k => cases h; exact key rfl rfl
  | deallocate k => exact known h fun K hf => by cases hf; exact ⟨by rw [counter_add]; rfl, rfl⟩
  | expunge k => exact known h fun K hf => by cases hf; exact ⟨rfl, rfl⟩
  | setUndoSize n => simp only [St.step] at h; split at h <;> cases h <;> exact key rfl rfl
  | undo =>
    simp only [St.step, St.undo] at h
    split at h
    · cases h; exact key rfl rfl
    · split at h
      · cases h; exact key rfl rfl
      · rename_i r rest _ _ _
        cases h2 : restoreList E.sem r.target r.act.data s with
        | ok d => rw [h2] at h; cases h; exact key (restL _ _ _ d.1 d.2 h2) rfl
        | throw => rw [h2] at h; cases h
        | ub => rw [h2] at h; cases h
  | redo =>
    simp only [St.step, St.redo] at h
    split at h
    · cases h; exact key rfl rfl
    · split at h
      · cases h; exact key rfl rfl
      · rename_i r rest _ _ _
        cases h2 : commitList E.sem r.target r.act.data s with
        | ok d => rw [h2] at h; cases h; exact key (comL _ _ _ d.1 d.2 h2) rfl
        | throw => rw [h2] at h; cases h
        | ub => rw [h2] at h; cases h
  | undoCount => cases h; exact key rfl rfl
  | undoCountFor k => simp only [St.step] at h; split at h <;> cases h <;> exact key rfl rfl
  | clearState => exact (hc rfl).elim
  | clearUndo => cases h; exact key rfl rfl
  | clearUndoFor k => cases h; exact key rfl rfl
  | getProjection k => simp only [St.step] at h; split at h <;> cases h <;> exact key rfl rfl
  | closestNode k ask =>
    simp only [St.step] at h
    split at h
    · cases h
    · obtain ⟨a, ha⟩ := deref h
      cases ha; exact key rfl (by split <;> rfl)
  | query k reads ask =>
    refine known h fun K hf => ?_
    split at hf
    · cases hf; exact ⟨rfl, by split <;> rfl⟩
    · cases hf
  | edit k f reads run =>
    refine known h fun K hf => ?_
    split at hf
    · obtain ⟨a, ha⟩ := deref hf
      have e := edit s k k a (run (s.view k K) (s.heap k a)) rfl
      rw [Res.ok.inj ha] at e; exact e
    · cases hf
  | snapMesh k run =>
    refine known h fun K hf => ?_
    obtain ⟨a, ha⟩ := deref hf
    have e := edit s k missingInt a (run (s.heap k a)) rfl
    rw [Res.ok.inj ha] at e; exact e
  | convertProjection k p run =>
    refine known h fun K hf => ?_
    obtain ⟨a, ha⟩ := deref hf
    have e := edit s k k a (run (s.heap k a)) rfl
    simp only [Res.ok.injEq] at ha
    split at ha
    · cases ha; exact ⟨e.1, rfl⟩
    · rw [ha] at e; exact e
  | assign k f run =>
    refine known h fun K hf => ?_
    obtain ⟨a, ha⟩ := deref hf
    split at ha <;> cases ha <;> exact ⟨rfl, rfl⟩
  | replace k reads fs build =>
    refine known h fun K hf => ?_
    split at hf
    · split at hf
      · cases hf; exact ⟨rfl, rfl⟩
      · cases hf; exact ⟨by rw [counter_add]; rfl, rfl⟩
    · cases hf
  | overwrite k f build =>
    refine known h fun K hf => ?_
    obtain ⟨a, ha⟩ := deref hf
    split at ha
    · cases ha; exact ⟨rfl, rfl⟩
    · cases ha; exact ⟨by rw [counter_add]; rfl, rfl⟩
  | contacts k compute =>
    refine known h fun K hf => ?_
    split at hf
    · simp only at hf
      split at hf
      · cases hf; exact ⟨by rw [counter_add]; rfl, rfl⟩
      · cases hf; exact ⟨rfl, rfl⟩
    · cases hf
  | gridToMesh k check join eg =>
    refine known h fun K hf => ?_
    obtain ⟨a, ha⟩ := deref hf
    obtain ⟨b, hb⟩ := deref ha
    split at hb
    · cases hb; exact ⟨by rw [counter_add]; rfl, rfl⟩
    · cases hb; exact ⟨rfl, rfl⟩
  | initAlg k al run =>
    refine known h fun K hf => ?_
    obtain ⟨a, ha⟩ := deref hf
    split at ha
    · cases ha; exact ⟨rfl, rfl⟩
    · cases ha; exact ⟨rfl, rfl⟩
    · rename_i out _
      have e := edit (s.setKernel k { K with alg := fun b => if b = al then some a else K.alg b })
        k k a out rfl
      rw [Res.ok.inj ha] at e; exact e
  | stepAlg k al guard nc run =>
    refine known h fun K hf => ?_
    split at hf
    · obtain ⟨a, ha⟩ := deref hf
      split at ha
      · exact algS ha
      · cases ha; exact ⟨rfl, rfl⟩
    · exact algS hf
  | dropAlg k al guard nc =>
    refine known h fun K hf => ?_
    split at hf
    · obtain ⟨a, ha⟩ := deref hf
      split at ha
      · exact algD ha
      · cases ha; exact ⟨rfl, rfl⟩
    · exact algD hf

theorem ids_run (E : Env π V) : ∀ (cs : List (Call π V)) (s s' : St π V) (outs : List Out),
    (∀ c ∈ cs, c ≠ .clearState) → St.run E s cs = .ok (s', outs) →
    (outs.filterMap Out.id?).Pairwise (· < ·) ∧ ∀ k ∈ outs.filterMap Out.id?, s.counter ≤ k
  | [], _, _, _, _, h => by cases h; simp
  | c :: cs, s, s', outs, hc, h => by
    simp only [St.run] at h
    cases h1 : s.step E c with
    | throw => rw [h1] at h; cases h
    | ub => rw [h1] at h; cases h
    | ok r =>
      rw [h1, Res.ok_bind] at h
      cases h2 : St.run E r.1 cs with
      | throw => rw [h2] at h; cases h
      | ub => rw [h2] at h; cases h
      | ok rs =>
        rw [h2, Res.ok_bind] at h; cases h
        obtain ⟨i1, i2⟩ := ids_run E cs r.1 rs.1 rs.2 (fun x hx => hc x (by simp [hx])) h2
        obtain ⟨j1, j2⟩ := counter_step E (hc c (by simp)) h1
        cases ho : r.2.id? with
        | none =>
          simp only [List.filterMap_cons, ho]
          exact ⟨i1, fun k hk => Int.le_trans j1 (i2 k hk)⟩
        | some a =>
          obtain ⟨e1, e2⟩ := j2 a ho
          simp only [List.filterMap_cons, ho]
          refine ⟨List.pairwise_cons.2 ⟨fun k hk => ?_, i1⟩, ?_⟩
          · have := i2 k hk; omega
          · intro k hk
            rcases List.mem_cons.1 hk with rfl | hk
            · omega
            · exact Int.le_trans j1 (i2 k hk)

end Verif.Api
