import Verif.Api.SafeLemmas
namespace Verif.Api
open Verif.Undo

variable {π V : Type}

theorem add_none (s : St π V) (id k : Int) : s.add none id k = s := rfl

theorem kernels_add (s : St π V) (d : Option (List (Prim π))) (id k : Int) :
    (s.add d id k).kernels = s.kernels := by
  unfold St.add; split <;> rfl

theorem heap_add (s : St π V) (d : Option (List (Prim π))) (id k : Int) :
    (s.add d id k).heap = s.heap := by
  unfold St.add; split <;> rfl

theorem counter_add (s : St π V) (d : Option (List (Prim π))) (id k : Int) :
    (s.add d id k).counter = s.counter := by
  unfold St.add; split <;> rfl

theorem editAt_fst (s : St π V) (k id : Int) (a : Addr) (o : EditOut π V) :
    ∃ (v : V) (act : Option π), (s.editAt k id a o).1 = (s.write k a v).add (act.map (fun p => [.edit a p])) id k := by
  cases o with
  | ok v act => exact ⟨v, act, rfl⟩
  | fail v act => exact ⟨v, act, rfl⟩

theorem inv_editAt {s : St π V} (h : Inv s) {k K f a} (hK : s.kernels k = some K)
    (hf : f ≠ .contacts) (ha : K.obj f = some a) (o : EditOut π V) :
    Inv (s.editAt k k a o).1 := by
  obtain ⟨v, act, e⟩ := editAt_fst s k k a o
  rw [e]
  cases act with
  | none => exact inv_heap h _ _ _
  | some p =>
    have := inv_add h hK K (s.write k a v).heap s.next s.counter [.edit a p] (h.full k K hK)
      (fun l hl => ⟨⟨f, hf, ha⟩, hl⟩)
    rw [← hK, upd_self] at this
    exact this

theorem inv_setAlg {s : St π V} (h : Inv s) {k K} (hK : s.kernels k = some K)
    (K' : Kernel) (hobj : K'.obj = K.obj) : Inv (s.setKernel k K') :=
  inv_set h hK K' s.heap s.next s.counter (by rw [hobj]; exact h.full k K hK)
    (fun f _ => by rw [hobj])

theorem freshObj_isSome {next : Addr} {fs : List Field} {o : Field → Option Addr}
    (h : ∀ f, f ∉ fs → (o f).isSome) (f : Field) : (freshObj next fs o f).isSome := by
  unfold freshObj; split
  · rfl
  · exact h f ‹_›

theorem inv_fresh_add {s : St π V} (h : Inv s) {k K} (hK : s.kernels k = some K) (K1 : Kernel)
    (hobj : K1.obj = K.obj) (fs : List Field) (vals : Field → V) :
    Inv ((s.fresh k K1 fs vals).add (some [.snap K.obj]) k k) :=
  inv_add h hK { K1 with obj := freshObj s.next fs K1.obj } _ _ _ [.snap K.obj]
    (freshObj_isSome (fun f _ => by rw [hobj]; exact h.full k K hK f))
    (fun l hl => ⟨h.full k K hK, hl⟩)

theorem derefThen_some {K : Kernel} {f a} (h : K.obj f = some a) (g : Addr → Res (St π V × Out)) :
    St.derefThen K f g = g a := by simp [St.derefThen, h]

theorem present_of_full {K : Kernel} (h : ∀ f, (K.obj f).isSome) (fs : List Field) :
    K.present fs = true := by simp [Kernel.present, h]

theorem inv_algStep {s : St π V} (h : Inv s) {k K} (hK : s.kernels k = some K) (al : Alg) (nc : Bool)
    (run : V → EditOut π V)
    (ha : K.alg al = K.obj al.field ∨ (nc = true ∧ K.alg al = none)) :
    ∃ r, s.algStep k K al nc run = .ok r ∧ Inv r.1 := by
  rcases ha with ha | ⟨rfl, ha⟩
  · obtain ⟨a, hfa⟩ := Option.isSome_iff_exists.1 (h.full k K hK al.field)
    refine ⟨s.editAt k k a (run (s.heap k a)), ?_, inv_editAt h hK (f := al.field)
      (by cases al <;> simp [Alg.field]) hfa _⟩
    simp only [St.algStep, ha, hfa, owned_of_obj hK hfa, if_true]
  · exact ⟨(s, .fail), by simp [St.algStep, ha], h⟩

theorem inv_algDrop {s : St π V} (h : Inv s) {k K} (hK : s.kernels k = some K) (al : Alg) (nc : Bool) :
    ∃ r, s.algDrop k K al nc = .ok r ∧ Inv r.1 := by
  cases ha : K.alg al with
  | none =>
    cases nc
    · exact ⟨(s, .ok), by simp [St.algDrop, ha], h⟩
    · exact ⟨(s, .fail), by simp [St.algDrop, ha], h⟩
  | some a =>
    exact ⟨_, by simp only [St.algDrop, ha]; rfl,
      inv_setAlg h hK { K with alg := fun b => if b = al then none else K.alg b } rfl⟩

theorem inv_allocate {s : St π V} (h : Inv s) (hn : s.kernels s.counter = none) (K : Kernel)
    (vals : Field → V) (c : Int) :
    Inv { s.fresh s.counter K Field.all vals with counter := c } := by
  obtain ⟨hid, hcom, hres, hal, hfu, hb, hf, hsh, hz⟩ := h
  have hne : ∀ x ∈ s.records, x.target ≠ s.counter := by
    intro x hx e
    have := hal x hx
    rw [e, hn] at this; cases this
  refine ⟨hid, hcom, hres, ?_, ?_, ?_, ?_, hsh, hz⟩
  · intro x hx
    have := hal x hx
    dsimp only [St.fresh]
    rwa [upd_ne _ _ (hne x hx)]
  · intro j J hj
    dsimp only [St.fresh] at hj
    by_cases hjk : j = s.counter
    · subst hjk; rw [upd_same] at hj; cases hj
      exact freshObj_isSome (fun f hf => absurd f.mem_all hf)
    · rw [upd_ne _ _ hjk] at hj; exact hfu j J hj
  · intro j J hj
    dsimp only [St.fresh] at hj ⊢
    by_cases hjk : j = s.counter
    · have : back j s.stack.committed = [] := by
        unfold back
        rw [List.filter_eq_nil_iff.2]; · rfl
        intro x hx; simpa [hjk] using hne x (Inv.mem_com hx)
      rw [this]; trivial
    · rw [upd_ne _ _ hjk] at hj; exact hb j J hj
  · intro j J hj
    dsimp only [St.fresh] at hj ⊢
    by_cases hjk : j = s.counter
    · have : forth j s.stack.restored = [] := by
        unfold forth
        rw [List.filter_eq_nil_iff.2]; · rfl
        intro x hx; simpa [hjk] using hne x (Inv.mem_res hx)
      rw [this]; trivial
    · rw [upd_ne _ _ hjk] at hj; exact hf j J hj

/-- In a good state an allowed call is defined and leads to a good state. -/
theorem inv_step (E : Env π V) {s : St π V} (h : Inv s) (c : Call π V) (ha : Allowed s c) :
    ∃ r, s.step E c = .ok r ∧ Inv r.1 := by
  have known : ∀ (k : Int) (f : Kernel → Res (St π V × Out)),
      (∀ K, s.kernels k = some K → ∃ r, f K = .ok r ∧ Inv r.1) →
      ∃ r, s.withKernel k f = .ok r ∧ Inv r.1 := by
    intro k f hf
    unfold St.withKernel
    split
    · exact ⟨_, rfl, h⟩
    · exact hf _ ‹_›
  have deref : ∀ (k : Int) (K : Kernel) (f : Field) (g : Addr → Res (St π V × Out)),
      s.kernels k = some K → (∀ a, K.obj f = some a → ∃ r, g a = .ok r ∧ Inv r.1) →
      ∃ r, St.derefThen K f g = .ok r ∧ Inv r.1 := by
    intro k K f g hK hg
    obtain ⟨a, hfa⟩ := Option.isSome_iff_exists.1 (h.full k K hK f)
    rw [derefThen_some hfa]; exact hg a hfa
  cases c with
  | allocate p =>
    simp only [St.step]
    split
    · split
      · exact ⟨_, rfl, inv_heap h _ _ _⟩
      · exact ⟨_, rfl, inv_allocate h ‹_› _ _ _⟩
    · exact ⟨_, rfl, inv_heap h _ _ _⟩
  | isValid k => exact ⟨_, rfl, h⟩
  | deallocate k =>
    apply known; intro K hK
    exact ⟨_, rfl, inv_fresh_add h hK { K with alg := fun _ => none } rfl _ _⟩
  | expunge k =>
    apply known; intro K hK
    exact ⟨_, rfl, inv_expunge h k⟩
  | setUndoSize n =>
    simp only [St.step]
    split
    · exact ⟨_, rfl, h⟩
    · exact ⟨_, rfl, inv_setMaximumSize h _⟩
  | undo =>
    obtain ⟨r, hr, hi⟩ := inv_undo E.sem h
    exact ⟨(r.1, .undone r.2), by simp only [St.step, hr, Res.ok_bind], hi⟩
  | redo =>
    obtain ⟨r, hr, hi⟩ := inv_redo E.sem h
    exact ⟨(r.1, .undone r.2), by simp only [St.step, hr, Res.ok_bind], hi⟩
  | undoCount => exact ⟨_, rfl, h⟩
  | undoCountFor k =>
    simp only [St.step]
    split <;> exact ⟨_, rfl, h⟩
  | clearState =>
    exact ⟨_, rfl, ⟨by simp [Stack.clear, St.records], by simp [Stack.clear], by simp [Stack.clear],
      by simp [Stack.clear, St.records], by simp, by simp, by simp, by simp [Stack.clear],
      by simp [Stack.clear]⟩⟩
  | clearUndo => exact ⟨_, rfl, inv_clear h⟩
  | clearUndoFor k => exact ⟨_, rfl, inv_remove h k⟩
  | getProjection k =>
    obtain ⟨K, hK⟩ := Option.isSome_iff_exists.1 ha
    exact ⟨(s, .projection K.proj), by simp only [St.step, hK], h⟩
  | closestNode k ask =>
    obtain ⟨K, hK⟩ := Option.isSome_iff_exists.1 ha
    simp only [St.step, hK]
    exact deref k K _ _ hK fun a _ => ⟨_, rfl, h⟩
  | query k reads ask =>
    apply known; intro K hK
    simp only [present_of_full (h.full k K hK), if_true]
    exact ⟨_, rfl, h⟩
  | edit k f reads run =>
    apply known; intro K hK
    simp only [present_of_full (h.full k K hK), if_true]
    exact deref k K _ _ hK fun a hfa => ⟨_, rfl, inv_editAt h hK ha hfa _⟩
  | snapMesh k run => exact ha.elim
  | convertProjection k p run =>
    apply known; intro K hK
    refine deref k K _ _ hK fun a hfa => ?_
    have hi := inv_editAt h hK (f := .mesh2d) (by simp) hfa (run (s.heap k a))
    refine ⟨_, rfl, ?_⟩
    split
    · refine inv_setAlg hi (K := K) ?_ { K with proj := p } rfl
      obtain ⟨v, act, e⟩ := editAt_fst s k k a (run (s.heap k a))
      rw [e, kernels_add]; exact hK
    · exact hi
  | assign k f run =>
    apply known; intro K hK
    refine deref k K _ _ hK fun a hfa => ?_
    split
    · exact ⟨_, rfl, inv_heap h _ _ _⟩
    · exact ⟨_, rfl, h⟩
  | replace k reads fs build =>
    apply known; intro K hK
    simp only [present_of_full (h.full k K hK), if_true]
    split
    · exact ⟨_, rfl, h⟩
    · exact ⟨_, rfl, inv_fresh_add h hK K rfl _ _⟩
  | overwrite k f build =>
    apply known; intro K hK
    refine deref k K _ _ hK fun a hfa => ?_
    split
    · exact ⟨_, rfl, h⟩
    · refine ⟨_, rfl, ?_⟩
      rename_i v _
      have := inv_add h hK K (s.write k a v).heap s.next s.counter [.snap K.obj] (h.full k K hK)
        (fun l hl => ⟨h.full k K hK, hl⟩)
      rw [← hK, upd_self] at this
      exact this
  | contacts k compute =>
    apply known; intro K hK
    simp only [present_of_full (h.full k K hK), if_true]
    split
    · exact ⟨_, rfl, inv_fresh_add h hK K rfl _ _⟩
    · refine ⟨_, rfl, ?_⟩
      exact inv_set h hK _ _ _ _ (freshObj_isSome (fun f _ => h.full k K hK f))
        (fun f hf => by simp [freshObj, hf])
  | gridToMesh k check join eg =>
    apply known; intro K hK
    refine deref k K _ _ hK fun m hm => deref k K _ _ hK fun g hg => ?_
    split
    · refine ⟨_, rfl, ?_⟩
      have := inv_add h hK { K with obj := freshObj s.next [.grid] K.obj }
        (((s.write k m (join (s.heap k m) (s.heap k g)).1).fresh k K [.grid] (fun _ => eg)).heap)
        (s.next + 5) s.counter
        [.edit m (join (s.heap k m) (s.heap k g)).2, .snap K.obj]
        (freshObj_isSome (fun f _ => h.full k K hK f))
        (fun l hl => ⟨⟨.mesh2d, by simp, by simp [freshObj, hm]⟩, h.full k K hK, hl⟩)
      exact this
    · exact ⟨_, rfl, h⟩
  | initAlg k al run =>
    apply known; intro K hK
    refine deref k K _ _ hK fun a hfa => ?_
    split
    · exact ⟨_, rfl, h⟩
    · exact ⟨_, rfl, h⟩
    · refine ⟨_, rfl, ?_⟩
      have h1 := inv_setAlg h hK
        { K with alg := fun b => if b = al then some a else K.alg b } rfl
      exact inv_editAt h1 (f := al.field)
        (K := { K with alg := fun b => if b = al then some a else K.alg b })
        (by simp [St.setKernel]) (by cases al <;> simp [Alg.field]) hfa _
  | stepAlg k al guard nc run =>
    apply known; intro K hK
    have hak := ha K hK
    split
    · refine deref k K _ _ hK fun b _ => ?_
      split
      · exact inv_algStep h hK al nc run hak
      · exact ⟨_, rfl, h⟩
    · exact inv_algStep h hK al nc run hak
  | dropAlg k al guard nc =>
    apply known; intro K hK
    split
    · refine deref k K _ _ hK fun b _ => ?_
      split
      · exact inv_algDrop h hK al nc
      · exact ⟨_, rfl, h⟩
    · exact inv_algDrop h hK al nc

theorem inv_run (E : Env π V) : ∀ (cs : List (Call π V)) {s : St π V}, Inv s → AllowedRun E s cs →
    ∃ r, St.run E s cs = .ok r ∧ Inv r.1
  | [], _, h, _ => ⟨_, rfl, h⟩
  | c :: cs, s, h, ⟨ha, hcs⟩ => by
    obtain ⟨r, hr, hi⟩ := inv_step E h c ha
    obtain ⟨rs, hrs, hi'⟩ := inv_run E cs hi (hcs r hr)
    exact ⟨(rs.1, r.2 :: rs.2), by simp only [St.run, hr, hrs, Res.ok_bind], hi'⟩

theorem inv_reached {E : Env π V} {s : St π V} (h : Reached E s) : Inv s := by
  obtain ⟨n, hp, cs, outs, ha, hr⟩ := h
  obtain ⟨r, hr', hi⟩ := inv_run E cs (inv_init n hp) ha
  rw [hr] at hr'; cases hr'; exact hi

end Verif.Api
