import Verif.Cross.Lemmas
/-!
# Lemmas: the loops end
-/
namespace Verif.Cross
variable {w : Data}

theorem visitPlace_ok (hw : Fits w) {current seg f : Nat} {ps : List Nat} {s : St} (h : Inv w ps s) (hside : f = missing ∨ Side w f current) (hcur : current ∈ ps)
    (hseg : seg < w.numSeg) (hhit : w.hit seg current = true) :
    ∃ s', visitFace w current seg f s = .ok s' ∧ Inv w ps s' ∧ (f ≠ missing → s'.seenFace[f]? = some true ∧ s'.seen[current]? = some true) ∧
      (∀ g : Nat, s.seenFace[g]? = some true → s'.seenFace[g]? = some true) ∧ Grows s s' ∧ weight s' ≤ weight s := by
  by_cases hf : f = missing
  · refine ⟨s, by unfold visitFace; rw [if_pos hf], h, fun h => absurd hf h, fun _ h => h, fun _ h => h, Nat.le_refl _⟩
  · obtain ⟨s', h1, h2, h3, h4, h5, h6, h7⟩ := visitFace_ok hw h (hside.resolve_left hf) hcur hseg hhit
    exact ⟨s', h1, h2, fun _ => ⟨h3, h4⟩, h5, h6, h7⟩

theorem visitEdge_ok (hw : Fits w) {s : St} (h : Inv w [] s) {e seg : Nat} {q : List (Nat × Nat)} (hq : s.queue = (e, seg) :: q) :
    ∃ s', visitEdge w e seg { s with queue := q } = .ok s' ∧ Inv w [] s' ∧ Grows s s' ∧ weight s' + 1 ≤ weight s ∧
      ((∃ f, Side w f e) → s'.seen[e]? = some true) := by
  obtain ⟨hel, hseg, hhit⟩ := h.queued (e, seg) (by rw [hq]; simp)
  obtain ⟨p, hp⟩ : ∃ p, w.edgesFaces[e]? = some p := ⟨_, List.getElem?_eq_getElem hel⟩
  have h0 : Inv w [e] { s with queue := q } := by
    refine ⟨h.seenLen, h.seenFaceLen, h.foundLen, h.facesLen, h.found, h.notFound, h.listed, h.faceSeen, h.faceNew, ?_, ?_, h.whole⟩
    · intro x hx
      exact h.queued x (by rw [hq]; exact List.mem_cons_of_mem _ hx)
    · intro x hx f hf
      rcases h.pending x hx f hf with h1 | h1 | h1
      · exact .inl h1
      · rw [hq, List.map_cons] at h1
        rcases List.mem_cons.1 h1 with rfl | h1
        · exact .inr (.inr (by simp))
        · exact .inr (.inl h1)
      · simp at h1
  have hplace : ∀ f, (f = p.1 ∨ f = p.2) → f = missing ∨ Side w f e := by
    intro f hf
    by_cases hm : f = missing
    · exact .inl hm
    · exact .inr ((hw.places e f p hp).1 ⟨hm, hf⟩)
  obtain ⟨s1, a1, a2, a3, a4, a5, a6⟩ := visitPlace_ok hw h0 (hplace p.1 (.inl rfl)) (by simp) hseg hhit
  obtain ⟨s2, b1, b2, b3, b4, b5, b6⟩ := visitPlace_ok hw a2 (hplace p.2 (.inr rfl)) (by simp) hseg hhit
  have hall : ∀ f, Side w f e → s2.seenFace[f]? = some true ∧ s2.seen[e]? = some true := by
    intro f hf
    obtain ⟨hm, h1 | h1⟩ := (hw.places e f p hp).2 hf
    · subst h1
      exact ⟨b4 _ (a3 hm).1, b5 _ (a3 hm).2⟩
    · subst h1
      exact b3 hm
  refine ⟨s2, ?_, ?_, fun x hx => b5 x (a5 x hx), ?_, fun ⟨f, hf⟩ => (hall f hf).2⟩
  · unfold visitEdge
    rw [show vget w.edgesFaces e = .ok p by unfold vget; rw [hp], Res.ok_bind, a1, Res.ok_bind, b1]
  · refine ⟨b2.seenLen, b2.seenFaceLen, b2.foundLen, b2.facesLen, b2.found, b2.notFound, b2.listed, b2.faceSeen, b2.faceNew, b2.queued, ?_, b2.whole⟩
    intro x hx f hf
    rcases b2.pending x hx f hf with h1 | h1 | h1
    · exact .inl h1
    · exact .inr (.inl h1)
    · rw [List.mem_singleton] at h1
      subst h1
      exact .inl (hall f hf).1
  · have : weight { s with queue := q } + 1 = weight s := by
      unfold weight
      rw [hq]
      simp only [List.length_cons]
      omega
    omega

theorem drain_ok (hw : Fits w) : ∀ (n : Nat) (s : St), weight s ≤ n → Inv w [] s →
    ∃ s', (∀ k, weight s ≤ k → drain w k s = .ok (some s')) ∧ Inv w [] s' ∧ s'.queue = [] ∧ Grows s s' ∧
      ∀ e seg q, s.queue = (e, seg) :: q → (∃ f, Side w f e) → s'.seen[e]? = some true
  | n, s, hn, h => by
    cases hq : s.queue with
    | nil =>
      refine ⟨s, ?_, h, hq, fun _ h => h, by simp⟩
      intro k _
      unfold drain
      rw [hq]
    | cons a q =>
      obtain ⟨e, seg⟩ := a
      obtain ⟨s1, h1, h2, h3, h4, h5⟩ := visitEdge_ok hw h hq
      cases n with
      | zero => omega
      | succ n =>
        obtain ⟨s', c1, c2, c3, c4, _⟩ := drain_ok hw n s1 (by omega) h2
        refine ⟨s', ?_, c2, c3, fun x hx => c4 x (h3 x hx), ?_⟩
        · intro k hk
          obtain ⟨k', rfl⟩ : ∃ k', k = k' + 1 := ⟨k - 1, by omega⟩
          rw [drain, hq]
          simp only []
          rw [h1, Res.ok_bind, c1 k' (by omega)]
        · intro e' seg' q' he hs
          simp only [List.cons.injEq, Prod.mk.injEq] at he
          obtain ⟨⟨rfl, rfl⟩, rfl⟩ := he
          exact c4 e (h5 hs)

theorem count_lt {l l' : List Bool} (hl : l.length = l'.length) (h : ∀ e : Nat, l[e]? = some true → l'[e]? = some true) :
    l'.count false ≤ l.count false ∧ ∀ e : Nat, l[e]? = some false → l'[e]? = some true → l'.count false < l.count false := by
  induction l generalizing l' with
  | nil => cases l' with
    | nil => simp
    | cons => simp at hl
  | cons a l ih => cases l' with
    | nil => simp at hl
    | cons b l' =>
      obtain ⟨i1, i2⟩ := ih (l' := l') (by simpa using hl) (fun e he => by simpa using h (e + 1) (by simpa using he))
      have h0 := h 0
      simp only [List.getElem?_cons_zero, Option.some.injEq] at h0
      simp only [List.count_cons]
      refine ⟨?_, ?_⟩
      · cases a <;> cases b <;> simp_all <;> omega
      · intro e h1 h2
        cases e with
        | zero =>
          simp only [List.getElem?_cons_zero, Option.some.injEq] at h1 h2
          subst h1 h2
          simp
          omega
        | succ e =>
          have := i2 e (by simpa using h1) (by simpa using h2)
          cases a <;> cases b <;> simp_all <;> omega

theorem seed_some {s : St} {e i : Nat} (h : seed w s = some (e, i)) :
    e < w.edgesFaces.length ∧ i < w.numSeg ∧ s.seen.getD e false = false ∧ w.hit i e = true := by
  unfold seed at h
  obtain ⟨j, hj, h⟩ := List.exists_of_findSome?_eq_some h
  obtain ⟨e', he', h⟩ := Option.map_eq_some_iff.1 h
  simp only [Prod.mk.injEq] at h
  obtain ⟨rfl, rfl⟩ := h
  have h1 := List.mem_of_find?_eq_some he'
  have h2 := List.find?_some he'
  simp only [Bool.and_eq_true, Bool.not_eq_true'] at h2
  exact ⟨List.mem_range.1 h1, List.mem_range.1 hj, h2.1.1, h2.2⟩

theorem seed_none (hn : ∀ i e, w.hit i e = true → w.near i e = true) {s : St} (h : seed w s = none) {e : Nat} (he : e < w.edgesFaces.length) (hc : Crossed w e) :
    s.seen.getD e false = true := by
  obtain ⟨i, hi, hh⟩ := hc
  unfold seed at h
  have := List.findSome?_eq_none_iff.1 h i (List.mem_range.2 hi)
  rw [Option.map_eq_none_iff] at this
  have := List.find?_eq_none.1 this e (List.mem_range.2 he)
  simpa [hn i e hh, hh] using this

theorem inv_push {s : St} (h : Inv w [] s) {e i : Nat} (he : e < w.edgesFaces.length) (hi : i < w.numSeg) (hh : w.hit i e = true) :
    Inv w [] { s with queue := s.queue ++ [(e, i)] } := by
  refine ⟨h.seenLen, h.seenFaceLen, h.foundLen, h.facesLen, h.found, h.notFound, h.listed, h.faceSeen, h.faceNew, ?_, ?_, h.whole⟩
  · intro x hx
    rcases List.mem_append.1 hx with hx | hx
    · exact h.queued x hx
    · rw [List.mem_singleton.1 hx]; exact ⟨he, hi, hh⟩
  · intro x hx f hf
    rcases h.pending x hx f hf with h1 | h1 | h1
    · exact .inl h1
    · right; left
      rw [List.map_append]
      exact List.mem_append.2 (.inl h1)
    · exact .inr (.inr h1)

theorem rounds_ok (hw : Fits w) (hf : CrossedHaveFaces w) : ∀ (n : Nat) (s : St), s.seen.count false < n → Inv w [] s → s.queue = [] →
    ∃ s', (∀ k n', 8 * w.edgesFaces.length + 1 ≤ k → n ≤ n' → rounds w k n' s = .ok (some s')) ∧ Inv w [] s' ∧ s'.queue = [] ∧ seed w s' = none
  | 0, s, hn, _, _ => by omega
  | n + 1, s, hn, h, hq => by
    cases hs : seed w s with
    | none =>
      refine ⟨s, ?_, h, hq, hs⟩
      intro k n' _ hn'
      obtain ⟨m, rfl⟩ : ∃ m, n' = m + 1 := ⟨n' - 1, by omega⟩
      rw [rounds, hs]
    | some a =>
      obtain ⟨e, i⟩ := a
      obtain ⟨h1, h2, h3, h4⟩ := seed_some hs
      have hI := inv_push h h1 h2 h4
      have hq' : s.queue ++ [(e, i)] = [(e, i)] := by rw [hq]; rfl
      obtain ⟨s1, d1, d2, d3, d4, d5⟩ := drain_ok hw _ { s with queue := s.queue ++ [(e, i)] } (Nat.le_refl _) hI
      have hse := d5 e i [] hq' (hf e h1 ⟨i, h2, h4⟩)
      have he0 : s.seen[e]? = some false := by
        obtain ⟨v, hv⟩ : ∃ v, s.seen[e]? = some v := ⟨_, List.getElem?_eq_getElem (by rw [h.seenLen]; exact h1)⟩
        rw [getD_of_get hv] at h3
        rw [hv, h3]
      have hlt := (count_lt (l := s.seen) (l' := s1.seen) (by rw [h.seenLen, d2.seenLen]) d4).2 e he0 hse
      obtain ⟨s', c1, c2, c3, c4⟩ := rounds_ok hw hf n s1 (by omega) d2 d3
      refine ⟨s', ?_, c2, c3, c4⟩
      intro k n' hk hn'
      obtain ⟨m, rfl⟩ : ∃ m, n' = m + 1 := ⟨n' - 1, by omega⟩
      have hwt : weight { s with queue := s.queue ++ [(e, i)] } ≤ 8 * w.edgesFaces.length + 1 := by
        unfold weight
        rw [hq']
        have a1 := List.count_le_length (a := false) (l := s.seenFace)
        have a2 := List.count_le_length (a := false) (l := s.seen)
        rw [h.seenFaceLen] at a1
        rw [h.seenLen] at a2
        simp only [List.length_singleton]
        omega
      rw [rounds, hs]
      simp only []
      rw [d1 k (by omega), Res.ok_bind]
      exact c1 k m hk (by omega)

theorem inv_start (w : Data) (hw : Fits w) : Inv w [] (start w) := by
  have hr : ∀ {α : Type} {n k : Nat} {a b : α}, (List.replicate n a)[k]? = some b → b = a := by
    intro α n k a b h
    exact List.eq_of_mem_replicate (List.mem_of_getElem? h)
  refine ⟨by simp [start], by simp [start], by simp [start], by simp [start], ?_, ?_, ?_, ?_, ?_, by simp [start], ?_, ?_⟩
  · intro e he; exact absurd (hr he) (by simp)
  · intro e he
    have := (List.getElem?_eq_some_iff.1 he).1
    simp only [start, List.length_replicate] at this ⊢
    rw [List.getElem?_replicate, if_pos this]
  · intro f l hl
    rw [hr hl]
    simp
  · intro f l hf _; exact absurd (hr hf) (by simp)
  · intro f l _ hl; exact hr hl
  · intro e he; exact absurd (hr he) (by simp)
  · intro _ f es hf; exact absurd (hr hf) (by simp)

/-- The walk ends and finds what is crossed. -/
theorem walk_ok (hw : Fits w) (hf : CrossedHaveFaces w) :
    ∃ s, (∀ k, 8 * w.edgesFaces.length + 1 ≤ k → walk w k = .ok (some s)) ∧ Exact w s ∧
      (w.numSeg ≤ 1001 → ∀ (f : Nat) l, s.faces[f]? = some l → ∀ e, e ∈ l ↔ Side w f e ∧ Crossed w e) := by
  have h0 := inv_start w hw
  obtain ⟨s, h1, h2, h3, h4⟩ := rounds_ok hw hf ((start w).seen.count false + 1) (start w) (by omega) h0 rfl
  have hcl := List.count_le_length (a := false) (l := (start w).seen)
  rw [h0.seenLen] at hcl
  have seenAll : ∀ e, e < w.edgesFaces.length → Crossed w e → s.seen[e]? = some true := by
    intro e he hc
    have := seed_none hw.near h4 he hc
    obtain ⟨v, hv⟩ : ∃ v, s.seen[e]? = some v := ⟨_, List.getElem?_eq_getElem (by rw [h2.seenLen]; exact he)⟩
    rw [getD_of_get hv] at this
    rw [hv, this]
  have sideLt : ∀ {f e}, Side w f e → e < w.edgesFaces.length := by
    rintro f e ⟨es, hes, he⟩
    exact (hw.faces f es hes).2.2 e he
  have crossedOf : ∀ e : Nat, s.seen[e]? = some true → Crossed w e := by
    intro e he
    obtain ⟨i, _, hi, hh⟩ := h2.found e he
    exact ⟨i, hi, hh⟩
  have faceSeen : ∀ f e, Side w f e → Crossed w e → s.seenFace[f]? = some true := by
    intro f e hs hc
    rcases h2.pending e (seenAll e (sideLt hs) hc) f hs with h | h | h
    · exact h
    · rw [h3] at h; simp at h
    · simp at h
  refine ⟨s, ?_, ⟨h2.foundLen, h2.facesLen, ?_, ?_, ?_, ?_⟩, ?_⟩
  · intro k hk
    exact h1 k k hk (by omega)
  · intro e i he
    obtain ⟨v, hv⟩ : ∃ v, s.seen[e]? = some v :=
      ⟨_, List.getElem?_eq_getElem (by rw [h2.seenLen, ← h2.foundLen]; exact (List.getElem?_eq_some_iff.1 he).1)⟩
    cases v with
    | false => rw [h2.notFound e hv] at he; simp at he
    | true =>
      obtain ⟨j, hj, h5, h6⟩ := h2.found e hv
      rw [he] at hj
      obtain rfl := Option.some.inj (Option.some.inj hj)
      exact ⟨h5, h6⟩
  · intro e he hc
    obtain ⟨i, hi, _⟩ := h2.found e (seenAll e he hc)
    exact ⟨i, hi⟩
  · intro f l hl
    constructor
    · intro hne
      obtain ⟨e, he⟩ := List.exists_mem_of_ne_nil l hne
      obtain ⟨_, h5⟩ := h2.listed f l hl
      exact ⟨e, (h5 e he).1, crossedOf e (h5 e he).2⟩
    · rintro ⟨e, hs, hc⟩
      exact h2.faceSeen f l (faceSeen f e hs hc) hl
  · intro f l hl
    obtain ⟨h5, h6⟩ := h2.listed f l hl
    exact ⟨h5, fun e he => ⟨(h6 e he).1, crossedOf e (h6 e he).2⟩⟩
  · intro hall f l hl e
    constructor
    · intro he
      obtain ⟨h5, h6⟩ := h2.listed f l hl
      exact ⟨(h6 e he).1, crossedOf e (h6 e he).2⟩
    · rintro ⟨hs, hc⟩
      have hfs := faceSeen f e hs hc
      obtain ⟨es, hes, hee⟩ := hs
      obtain ⟨l', h5, h6, _⟩ := h2.whole hall f es hfs hes
      rw [hl] at h5
      obtain rfl := Option.some.inj h5
      exact h6 e hee hc

/-! ## An edge without faces -/

/-- An edge that is crossed and has no face keeps the walk going for ever, once it is the next one found. -/
theorem rounds_stuck {k : Nat} {e i : Nat} {s : St} (hs : seed w s = some (e, i)) (hq : s.queue = []) (hp : w.edgesFaces[e]? = some (missing, missing)) :
    ∀ n, rounds w k n s = .ok none
  | 0 => rfl
  | n + 1 => by
    rw [rounds, hs]
    simp only []
    cases k with
    | zero => rw [drain, hq]; rfl
    | succ k =>
      have hv : vget w.edgesFaces e = .ok (missing, missing) := by unfold vget; rw [hp]
      rw [drain, hq]
      simp only [List.nil_append]
      unfold visitEdge
      rw [hv]
      simp only [Res.ok_bind, visitFace, if_pos trivial]
      rw [drain]
      simp only [Res.ok_bind]
      have : { s with queue := [] } = s := by cases s; simp_all
      rw [this]
      exact rounds_stuck hs hq hp n

end Verif.Cross
