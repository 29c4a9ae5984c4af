import Verif.Api.SimStep
namespace Verif.Api
open Verif.Undo

variable {π V : Type}

theorem Past.ids {sem : Sem π V} {n} : ∀ {w rs ps}, Past sem n w rs ps →
    rs.map (fun r => r.id) = ps.map (fun p => p.1)
  | _, [], [], _ => rfl
  | _, _ :: _, _ :: _, ⟨h1, _, _, _, _, _, _, _, _, _, h⟩ => by simp [h1, Past.ids h]

theorem Future.ids {sem : Sem π V} {n} : ∀ {w rs ps}, Future sem n w rs ps →
    rs.map (fun r => r.id) = ps.map (fun p => p.1)
  | _, [], [], _ => rfl
  | _, _ :: _, _ :: _, ⟨h1, _, _, _, _, _, _, _, _, _, h⟩ => by simp [h1, Future.ids h]

theorem countP_ids {rs : List (Record (List (Prim π)))} {ps : List (Int × (Field → V))}
    (h : rs.map (fun r => r.id) = ps.map (fun p => p.1)) (k : Int) :
    rs.countP (fun r => r.id = k) = ps.countP (fun p => p.1 = k) := by
  have h1 : (rs.map (fun r => r.id)).countP (fun i => i = k) = rs.countP (fun r => r.id = k) := by
    rw [List.countP_map]; rfl
  have h2 : (ps.map (fun p => p.1)).countP (fun i => i = k) = ps.countP (fun p => p.1 = k) := by
    rw [List.countP_map]; rfl
  rw [← h1, ← h2, h]

/-- Only the stack changes. -/
theorem sim_stack {sem : Sem π V} {s : St π V} {b : Book V} (h : Sim sem s b) (st : Stack (List (Prim π)))
    (past future : List (Int × (Field → V))) (n : Nat) (hn : st.maxSize = n)
    (hp : Past sem s.next s.ks st.committed past) (hf : Future sem s.next s.ks st.restored future) :
    Sim sem { s with stack := st } { b with past := past, future := future, bound := n } :=
  ⟨h.shows, h.proj, hn, h.counter, h.ids, h.below, h.distinct, hp, hf⟩

theorem Past.remove {sem : Sem π V} {n} {w : Int → KS V} {rs ps} (h : Past sem n w rs ps) (k : Int) :
    Past sem n w (rs.filter (fun r => r.id ≠ k)) (ps.filter (fun p => p.1 ≠ k)) := by
  have := h.filter k (w k)
  rwa [upd_self] at this

theorem Future.remove {sem : Sem π V} {n} {w : Int → KS V} {rs ps} (h : Future sem n w rs ps) (k : Int) :
    Future sem n w (rs.filter (fun r => r.id ≠ k)) (ps.filter (fun p => p.1 ≠ k)) := by
  have := h.filter k (w k)
  rwa [upd_self] at this

theorem filter_all {α : Type} {l : List α} {p : α → Bool} (h : ∀ x ∈ l, p x = true) : l.filter p = l :=
  List.filter_eq_self.2 h

theorem filter_ids {rs : List (Record (List (Prim π)))} {ps : List (Int × (Field → V))}
    (h : rs.map (fun r => r.id) = ps.map (fun p => p.1)) {k : Int} (hk : ∀ r ∈ rs, r.id ≠ k) :
    ps.filter (fun p => p.1 ≠ k) = ps := by
  apply filter_all
  intro p hp
  have : p.1 ∈ rs.map (fun r => r.id) := by rw [h]; exact List.mem_map_of_mem hp
  obtain ⟨r, hr, e⟩ := List.mem_map.1 this
  simp only [ne_eq, decide_not, Bool.not_eq_true', decide_eq_false_iff_not]
  rw [← e]; exact hk r hr

theorem sim_allocate {sem : Sem π V} {s : St π V} {b : Book V} (hI : Inv s) (h : Sim sem s b)
    (p : Int) (vals : Field → V) :
    Sim sem { s.fresh s.counter ⟨fun _ => none, fun _ => none, p⟩ Field.all vals with
        counter := s.counter + 1 }
      { b with world := upd b.world b.counter (some vals), proj := upd b.proj b.counter p,
               counter := b.counter + 1 } := by
  have hnone := h.ids s.counter (by omega)
  have hne : ∀ r ∈ s.records, r.id ≠ s.counter := by
    intro r hr e
    have h1 := hI.ids r hr
    have h2 := hI.alive r hr
    rw [← h1, e, hnone] at h2; cases h2
  have hbn : objBelow s.next (fun _ : Field => (none : Option Addr)) := fun _ _ e => by cases e
  have hks : (St.ks { s.fresh s.counter ⟨fun _ => none, fun _ => none, p⟩ Field.all vals with
        counter := s.counter + 1 }) = upd s.ks s.counter (freshObj s.next Field.all (fun _ => none),
          freshHeap s.next Field.all vals (s.heap s.counter)) :=
    ks_upd s s.counter ⟨freshObj s.next Field.all (fun _ => none), fun _ => none, p⟩ _ _ _ _
  refine ⟨?_, ?_, h.bound, ?_, ?_, ?_, ?_, ?_, ?_⟩
  · refine h.shows.of_upd s.counter
      ⟨freshObj s.next Field.all (fun _ => none), fun _ => none, p⟩ _ vals ?_ _ _ _ _ ?_
    · intro f
      simp only [freshObj, f.mem_all, if_true, Option.map_some, Option.some.injEq]
      exact freshHeap_new (h := s.heap s.counter) f.mem_all
    · rw [h.counter]
  · intro j J hj
    simp only [St.fresh] at hj
    dsimp only
    rw [← h.counter]
    by_cases hjk : j = s.counter
    · rw [hjk, upd_same] at hj ⊢; cases hj; rfl
    · rw [upd_ne _ _ hjk] at hj ⊢; exact h.proj j J hj
  · simp [h.counter]
  · intro j hj
    simp only at hj
    simp only [St.fresh]
    rw [upd_ne _ _ (by omega)]; exact h.ids j (by omega)
  · intro j J hj
    simp only [St.fresh] at hj ⊢
    by_cases hjk : j = s.counter
    · rw [hjk, upd_same] at hj; cases hj; exact freshObj_below hbn
    · rw [upd_ne _ _ hjk] at hj; exact (h.below j J hj).mono (by omega)
  · intro j J hj
    simp only [St.fresh] at hj
    by_cases hjk : j = s.counter
    · rw [hjk, upd_same] at hj; cases hj; exact freshObj_distinct hbn (fun _ _ _ e => by cases e)
    · rw [upd_ne _ _ hjk] at hj; exact h.distinct j J hj
  · rw [hks]
    have h1 := (h.past.grow (m := s.next + 5) (by omega) (w' := s.ks)
      (fun _ => ⟨rfl, fun _ _ => rfl⟩)).filter s.counter (freshObj s.next Field.all (fun _ => none),
        freshHeap s.next Field.all vals (s.heap s.counter))
    rw [filter_all (l := s.stack.committed) (by
      intro r hr; simpa using hne r (Inv.mem_com hr)),
      filter_ids h.past.ids (fun r hr => hne r (Inv.mem_com hr))] at h1
    exact h1
  · rw [hks]
    have h1 := (h.future.grow (m := s.next + 5) (by omega) (w' := s.ks)
      (fun _ => ⟨rfl, fun _ _ => rfl⟩)).filter s.counter (freshObj s.next Field.all (fun _ => none),
        freshHeap s.next Field.all vals (s.heap s.counter))
    rw [filter_all (l := s.stack.restored) (by
      intro r hr; simpa using hne r (Inv.mem_res hr)),
      filter_ids h.future.ids (fun r hr => hne r (Inv.mem_res hr))] at h1
    exact h1

theorem sim_expunge {sem : Sem π V} {s : St π V} {b : Book V} (h : Sim sem s b) (k : Int) :
    Sim sem { s with kernels := upd s.kernels k none, stack := (s.stack.remove k).1 }
      { b with world := upd b.world k none, past := b.past.filter (fun p => p.1 ≠ k),
               future := b.future.filter (fun p => p.1 ≠ k) } := by
  have hup : ∀ j J, upd s.kernels k none j = some J → s.kernels j = some J := by
    intro j J hj
    by_cases hjk : j = k
    · subst hjk; rw [upd_same] at hj; cases hj
    · rwa [upd_ne _ _ hjk] at hj
  have hks : (St.ks { s with kernels := upd s.kernels k none, stack := (s.stack.remove k).1 }) =
      upd s.ks k ((fun _ => none), s.heap k) := by
    funext j
    by_cases hj : j = k
    · subst hj; simp [St.ks]
    · simp [St.ks, hj]
  refine ⟨?_, fun j J hj => h.proj j J (hup j J hj), h.bound, h.counter, ?_,
    fun j J hj => h.below j J (hup j J hj), fun j J hj => h.distinct j J (hup j J hj), ?_, ?_⟩
  · intro j
    by_cases hj : j = k
    · subst hj; simp
    · simp only [upd_ne _ _ hj]; exact h.shows j
  · intro j hj
    by_cases hjk : j = k
    · subst hjk; simp
    · dsimp only; rw [upd_ne _ _ hjk]; exact h.ids j hj
  · rw [hks]; exact h.past.filter k _
  · rw [hks]; exact h.future.filter k _

theorem Recorded.allowed {E : Env π V} {s : St π V} {c : Call π V} (h : Recorded E s c) :
    Allowed s c := by
  cases c <;> simp only [Recorded, Allowed] at h ⊢
  all_goals first
    | exact h
    | exact h.1
    | exact fun K hK => .inl (h.2.2 K hK)

/-- One recorded call does to the objects what the book says about the contents. -/
theorem sim_step (E : Env π V) {s : St π V} {b : Book V} (hI : Inv s) (h : Sim E.sem s b)
    (cl : Call π V) (hr : Recorded E s cl) :
    ∃ r, s.step E cl = .ok r ∧ Sim E.sem r.1 (b.step E cl).1 ∧ r.2 = (b.step E cl).2 := by
  have known : ∀ (k : Int) (f : Kernel → Res (St π V × Out)) (g : (Field → V) → Book V × Out),
      (∀ K c, s.kernels k = some K → (∀ f, (K.obj f).map (s.heap k) = some (c f)) →
        s.view k K = (fun f => some (c f)) →
        ∃ r, f K = .ok r ∧ Sim E.sem r.1 (g c).1 ∧ r.2 = (g c).2) →
      ∃ r, s.withKernel k f = .ok r ∧ Sim E.sem r.1 (b.withKernel k g).1 ∧
        r.2 = (b.withKernel k g).2 := by
    intro k f g hfg
    unfold St.withKernel Book.withKernel
    cases hK : s.kernels k with
    | none =>
      rw [h.shows.of_none hK]
      exact ⟨_, rfl, h, rfl⟩
    | some K =>
      obtain ⟨c, hc1, hc2⟩ := h.shows.of_some hK
      rw [hc1]
      exact hfg K c hK hc2 (funext hc2)
  have deref : ∀ (k : Int) (K : Kernel) (c : Field → V) (f : Field), s.kernels k = some K →
      (∀ f, (K.obj f).map (s.heap k) = some (c f)) →
      ∃ a, K.obj f = some a ∧ s.heap k a = c f := by
    intro k K c f _ hc
    have := hc f
    cases ho : K.obj f with
    | none => rw [ho] at this; cases this
    | some a => rw [ho] at this; exact ⟨a, rfl, by simpa using this⟩
  cases cl with
  | allocate p =>
    simp only [St.step, Book.step]
    cases validProjection p
    · exact ⟨_, rfl, ⟨h.shows, h.proj, h.bound, by simp [h.counter],
        fun k hk => h.ids k (by simp only at hk; omega), h.below, h.distinct, h.past, h.future⟩, rfl⟩
    · simp only [if_true, h.ids s.counter (by omega)]
      exact ⟨_, rfl, sim_allocate hI h p _, by rw [h.counter]⟩
  | isValid k =>
    refine ⟨_, rfl, h, ?_⟩
    simp only [Book.step]
    cases hK : s.kernels k with
    | none => rw [h.shows.of_none hK]; rfl
    | some K =>
      obtain ⟨c, hc1, _⟩ := h.shows.of_some hK
      rw [hc1]; rfl
  | deallocate k =>
    apply known; intro K c hK hc hv
    refine ⟨_, rfl, ?_, rfl⟩
    have := sim_fresh_add hI h hK hc { K with alg := fun _ => none } rfl rfl Field.all (E.empty K.proj)
    rw [h.proj k K hK]
    simpa [Field.mem_all] using this
  | expunge k =>
    apply known; intro K c hK hc hv
    exact ⟨_, rfl, sim_expunge h k, rfl⟩
  | setUndoSize n =>
    simp only [St.step, Book.step]
    split
    · exact ⟨_, rfl, h, rfl⟩
    · refine ⟨_, rfl, ?_, rfl⟩
      apply sim_stack h
      · simp only [Stack.setMaximumSize]; split
        · rename_i h0; rw [h0]
        · split <;> rfl
      · simp only [Stack.setMaximumSize]; split
        · rename_i h0; rw [h0]; simp [Past]
        · split
          · exact h.past.take _
          · rw [List.take_of_length_le (by rw [← h.past.length]; omega)]; exact h.past
      · simp only [Stack.setMaximumSize]; split
        · trivial
        · split <;> exact h.future
  | undo => exact sim_undo hI h
  | redo => exact sim_redo hI h
  | undoCount =>
    exact ⟨_, rfl, h, by simp only [Book.step, h.past.length, h.future.length]⟩
  | undoCountFor k =>
    simp only [St.step, Book.step]
    cases hK : s.kernels k with
    | none => rw [h.shows.of_none hK]; exact ⟨_, rfl, h, rfl⟩
    | some K =>
      obtain ⟨c, hc1, _⟩ := h.shows.of_some hK
      rw [hc1]
      refine ⟨_, rfl, ?_⟩
      simp only [Stack.committedSize, Stack.restoredSize]
      split
      · exact ⟨h, by rw [h.past.length, h.future.length]⟩
      · exact ⟨h, by rw [countP_ids h.past.ids, countP_ids h.future.ids]⟩
  | clearState =>
    refine ⟨_, rfl, ⟨?_, ?_, h.bound, rfl, fun _ _ => rfl, ?_, ?_, trivial, trivial⟩, rfl⟩
    · intro j; simp [Book.step]
    all_goals intro j J hj; cases hj
  | clearUndo => exact ⟨_, rfl, sim_stack h s.stack.clear [] [] b.bound h.bound trivial trivial, rfl⟩
  | clearUndoFor k =>
    exact ⟨_, rfl, sim_stack h (s.stack.remove k).1 _ _ b.bound h.bound (h.past.remove k)
      (h.future.remove k), rfl⟩
  | getProjection k =>
    obtain ⟨K, hK⟩ := Option.isSome_iff_exists.1 hr
    obtain ⟨c, hc1, _⟩ := h.shows.of_some hK
    exact ⟨(s, .projection K.proj), by simp only [St.step, hK],
      by simp only [Book.step, Book.withKernel, hc1]; exact h,
      by simp only [Book.step, Book.withKernel, hc1, h.proj k K hK]⟩
  | closestNode k ask =>
    obtain ⟨K, hK⟩ := Option.isSome_iff_exists.1 hr
    obtain ⟨c, hc1, hc⟩ := h.shows.of_some hK
    obtain ⟨a, ha1, ha2⟩ := deref k K c .mesh2d hK hc
    simp only [St.step, hK, derefThen_some ha1, Book.step, Book.withKernel, hc1, ha2]
    exact ⟨_, rfl, h, rfl⟩
  | query k reads ask =>
    apply known; intro K c hK hc hv
    simp only [present_of_full (hI.full k K hK), if_true, hv]
    exact ⟨_, rfl, h, rfl⟩
  | edit k f reads run =>
    apply known; intro K c hK hc hv
    obtain ⟨a, ha1, ha2⟩ := deref k K c f hK hc
    simp only [present_of_full (hI.full k K hK), if_true, hv, derefThen_some ha1]
    obtain ⟨h1, h2⟩ := sim_editAt hI h hK hc ha1 (run (fun g => some (c g)) (c f))
      (by rw [ha2]; exact hr.2 _ _)
    exact ⟨_, rfl, by rw [ha2]; exact h1, by rw [ha2]; exact h2⟩
  | snapMesh k run => exact hr.elim
  | convertProjection k p run =>
    apply known; intro K c hK hc hv
    obtain ⟨a, ha1, ha2⟩ := deref k K c .mesh2d hK hc
    simp only [derefThen_some ha1]
    obtain ⟨h1, h2⟩ := sim_editAt hI h hK hc ha1 (run (c .mesh2d)) (by rw [ha2]; exact hr _)
    rw [ha2]
    have hker : (s.editAt k k a (run (c .mesh2d))).1.kernels k = some K := by
      obtain ⟨v, act, e⟩ := editAt_fst s k k a (run (c .mesh2d))
      rw [e, kernels_add]; exact hK
    obtain ⟨out, hout⟩ : ∃ out, out = run (c .mesh2d) := ⟨_, rfl⟩
    rw [← hout] at h1 h2 hker ⊢
    cases out with
    | fail v act => exact ⟨_, rfl, h1, h2⟩
    | ok v act =>
    cases act with
    | none => exact ⟨_, rfl, h1, h2⟩
    | some x =>
    refine ⟨_, rfl, ?_, rfl⟩
    simp only [Book.editField] at h1
    obtain ⟨q1, q2, q3, q4, q5, q6, q7, q8, q9⟩ := h1
    have hbp : (b.change k c (Book.put c .mesh2d v)).proj = b.proj := by
      simp only [Book.change]; split <;> rfl
    have hks : ((s.editAt k k a (.ok v (some x))).1.setKernel k { K with proj := p }).ks =
        (s.editAt k k a (.ok v (some x))).1.ks := by
      funext j
      by_cases hj : j = k
      · subst hj; simp [St.ks, St.setKernel, hker]
      · simp [St.ks, St.setKernel, hj]
    refine ⟨?_, ?_, q3, q4, ?_, ?_, ?_, ?_, ?_⟩
    · intro j
      by_cases hj : j = k
      · subst hj
        obtain ⟨c', hc1', hc2'⟩ := q1.of_some hker
        simp only [St.setKernel, upd_same, hc1']; exact hc2'
      · simp only [St.setKernel, upd_ne _ _ hj]; exact q1 j
    · intro j J hj
      simp only [St.setKernel] at hj
      show upd b.proj k p j = J.proj
      by_cases hjk : j = k
      · subst hjk; rw [upd_same] at hj ⊢; cases hj; rfl
      · rw [upd_ne _ _ hjk] at hj ⊢; rw [← hbp]; exact q2 j J hj
    · intro j hj
      simp only [St.setKernel]
      by_cases hjk : j = k
      · subst hjk; rw [q5 j hj] at hker; cases hker
      · rw [upd_ne _ _ hjk]; exact q5 j hj
    · intro j J hj
      simp only [St.setKernel] at hj
      by_cases hjk : j = k
      · subst hjk; rw [upd_same] at hj; cases hj; exact q6 _ K hker
      · rw [upd_ne _ _ hjk] at hj; exact q6 j J hj
    · intro j J hj
      simp only [St.setKernel] at hj
      by_cases hjk : j = k
      · subst hjk; rw [upd_same] at hj; cases hj; exact q7 _ K hker
      · rw [upd_ne _ _ hjk] at hj; exact q7 j J hj
    · rw [hks]; exact q8
    · rw [hks]; exact q9
  | assign k f run => exact hr.elim
  | replace k reads fs build =>
    apply known; intro K c hK hc hv
    simp only [present_of_full (hI.full k K hK), if_true, hv]
    cases build (fun f => some (c f)) with
    | none => exact ⟨_, rfl, h, rfl⟩
    | some vals => exact ⟨_, rfl, sim_fresh_add hI h hK hc K rfl rfl fs vals, rfl⟩
  | overwrite k f build => exact hr.elim
  | contacts k compute =>
    apply known; intro K c hK hc hv
    simp only [present_of_full (hI.full k K hK), if_true, hv,
      hr (fun f => some (c f))]
    refine ⟨_, rfl, ?_, rfl⟩
    have := sim_fresh_add hI h hK hc K rfl rfl [.contacts] (fun _ => (compute (fun f => some (c f))).1)
    have e : (fun f => if f ∈ [Field.contacts] then (compute (fun f => some (c f))).1 else c f) =
        Book.put c .contacts (compute (fun f => some (c f))).1 := by
      funext f; simp [Book.put]
    rw [e] at this
    exact this
  | gridToMesh k check join eg =>
    apply known; intro K c hK hc hv
    obtain ⟨m, hm1, hm2⟩ := deref k K c .mesh2d hK hc
    obtain ⟨g, hg1, hg2⟩ := deref k K c .grid hK hc
    simp only [derefThen_some hm1, derefThen_some hg1, hm2, hg2]
    by_cases hch : check (c .mesh2d) (c .grid) = true
    · simp only [hch, if_true]
      refine ⟨_, rfl, ?_, rfl⟩
      have hb := h.below k K hK
      have hmn : m < s.next := hb _ m hm1
      obtain ⟨q, hq⟩ : ∃ q, Rec E.sem [.edit m (join (c .mesh2d) (c .grid)).2, .snap K.obj]
          [.edit m q, .snap (freshObj s.next [.grid] K.obj)]
          (freshObj s.next [.grid] K.obj,
            freshHeap s.next [.grid] (fun _ => eg) (put1 (s.heap k) m (join (c .mesh2d) (c .grid)).1))
          (K.obj, put1 (freshHeap s.next [.grid] (fun _ => eg)
            (put1 (s.heap k) m (join (c .mesh2d) (c .grid)).1)) m (c .mesh2d)) := by
        obtain ⟨q, h1, h2⟩ := hr (c .mesh2d) (c .grid) hch
        have hh : holds (freshObj s.next [.grid] K.obj) m = true :=
          holds_iff.2 ⟨.mesh2d, by simp [freshObj, hm1]⟩
        have hval : freshHeap s.next [.grid] (fun _ => eg)
            (put1 (s.heap k) m (join (c .mesh2d) (c .grid)).1) m = (join (c .mesh2d) (c .grid)).1 := by
          rw [freshHeap_lt hmn]; simp [put1]
        refine ⟨q, ?_, ?_⟩
        · simp only [ksRL, ksR, hh, if_true, hval, h1, Option.bind_some, Option.map_some]
        · simp only [ksCL, ksC, hh, if_true, Option.bind_some, Option.map_some]
          have e1 : (put1 (freshHeap s.next [.grid] (fun _ => eg)
            (put1 (s.heap k) m (join (c .mesh2d) (c .grid)).1)) m (c .mesh2d)) m = c .mesh2d := by
            simp [put1]
          rw [e1, h2, put1_put1]
          have e2 := put1_self (freshHeap s.next [.grid] (fun _ => eg)
            (put1 (s.heap k) m (join (c .mesh2d) (c .grid)).1)) m
          rw [hval] at e2
          simp only [e2]
      have hfresh : (s.write k m (join (c .mesh2d) (c .grid)).1).fresh k K [.grid] (fun _ => eg) =
          ⟨upd s.kernels k (some { K with obj := freshObj s.next [.grid] K.obj }),
            upd s.heap k (freshHeap s.next [.grid] (fun _ => eg)
              (put1 (s.heap k) m (join (c .mesh2d) (c .grid)).1)), s.next + 5, s.counter, s.stack⟩ := by
        rw [fresh_eq]
        simp only [St.write, upd_upd, upd_same]
        rfl
      rw [hfresh]
      refine sim_change hI h hK hc { K with obj := freshObj s.next [.grid] K.obj } _ _ _ (by omega)
        _ _ _ rfl (freshObj_below hb) ?_ (freshObj_distinct hb (h.distinct k K hK)) ?_ hq ?_
      · intro x hx
        simp only [List.mem_cons, List.not_mem_nil, or_false] at hx
        rcases hx with rfl | rfl
        · show m < s.next + 5; omega
        · exact hb.mono (by omega)
      · have hv1 := view_put1 hc hm1 (join (c .mesh2d) (c .grid)).1
          (fun g hg => h.distinct k K hK g .mesh2d m hg hm1)
        have hv2 := freshObj_view (fs := [.grid]) (vals := fun _ => eg) hb hv1
          (h' := freshHeap s.next [.grid] (fun _ => eg)
            (put1 (s.heap k) m (join (c .mesh2d) (c .grid)).1))
          (fun a ha => freshHeap_lt ha) (fun f hf => freshHeap_new hf)
        intro f
        rw [hv2 f]
        simp [Book.put]
      · intro a ha
        by_cases ham : a = m
        · subst ham; simp [put1, hm2]
        · simp only [put1, ham, if_false]
          rw [freshHeap_lt ha]; simp [put1, ham]
    · simp only [hch]
      exact ⟨_, rfl, h, rfl⟩
  | initAlg k al run =>
    apply known; intro K c hK hc hv
    obtain ⟨a, ha1, ha2⟩ := deref k K c al.field hK hc
    simp only [derefThen_some ha1, ha2]
    cases hrun : run (c al.field) with
    | skip => exact ⟨_, rfl, h, rfl⟩
    | refuse => exact ⟨_, rfl, h, rfl⟩
    | start out =>
      have h1 := sim_setAlg h hK { K with alg := fun b => if b = al then some a else K.alg b } rfl rfl
      have hI1 := inv_setAlg hI hK { K with alg := fun b => if b = al then some a else K.alg b } rfl
      obtain ⟨h2, h3⟩ := sim_editAt hI1 h1 (k := k)
        (K := { K with alg := fun b => if b = al then some a else K.alg b })
        (by simp [St.setKernel]) hc ha1 out (by
          have := hr (c al.field) out hrun
          rw [← ha2] at this; exact this)
      exact ⟨_, rfl, h2, h3⟩
  | stepAlg k al guard nc run =>
    obtain ⟨rfl, hl, ha⟩ := hr
    apply known; intro K c hK hc hv
    obtain ⟨a, ha1, ha2⟩ := deref k K c al.field hK hc
    simp only [St.algStep, ha K hK, ha1, owned_of_obj hK ha1, if_true, ha2]
    obtain ⟨h1, h2⟩ := sim_editAt hI h hK hc ha1 (run (c al.field)) (by rw [ha2]; exact hl _)
    exact ⟨_, rfl, h1, h2⟩
  | dropAlg k al guard nc =>
    apply known; intro K c hK hc hv
    have hdrop : ∃ r, s.algDrop k K al nc = .ok r ∧ Sim E.sem r.1 b ∧ r.2 = .ok := by
      cases hal : K.alg al with
      | none =>
        rcases hr with rfl | hr
        · exact ⟨(s, .ok), by simp [St.algDrop, hal], h, rfl⟩
        · have := hr K hK; rw [hal] at this; cases this
      | some x =>
        exact ⟨_, by simp only [St.algDrop, hal]; rfl,
          sim_setAlg h hK { K with alg := fun b => if b = al then none else K.alg b } rfl rfl, rfl⟩
    cases guard with
    | none => exact hdrop
    | some g =>
      obtain ⟨a, ha1, ha2⟩ := deref k K c al.field hK hc
      simp only [derefThen_some ha1]
      split
      · exact hdrop
      · exact ⟨_, rfl, h, rfl⟩

theorem sim_run (E : Env π V) : ∀ (cs : List (Call π V)) {s : St π V} {b : Book V}, Inv s →
    Sim E.sem s b → RecordedRun E s cs →
    ∃ r, St.run E s cs = .ok r ∧ Sim E.sem r.1 (b.run E cs).1 ∧ r.2 = (b.run E cs).2
  | [], _, _, _, h, _ => ⟨_, rfl, h, rfl⟩
  | c :: cs, s, b, hI, h, ⟨hc, hcs⟩ => by
    obtain ⟨r, hr, hs, ho⟩ := sim_step E hI h c hc
    obtain ⟨r', hr', hi⟩ := inv_step E hI c hc.allowed
    rw [hr] at hr'; cases hr'
    obtain ⟨rs, hrs, hss, hos⟩ := sim_run E cs hi hs (hcs r hr)
    refine ⟨(rs.1, r.2 :: rs.2), by simp only [St.run, hr, hrs, Res.ok_bind], hss, ?_⟩
    simp only [Book.run, ho, hos]

theorem sim_init (sem : Sem π V) (n : Nat) (h : Int → Addr → V) :
    Sim sem (St.init n h : St π V) (Book.init n) :=
  ⟨fun k => by simp [St.init, Book.init], by simp [St.init], rfl, rfl, fun _ _ => rfl,
    by simp [St.init], by simp [St.init], trivial, trivial⟩

end Verif.Api
