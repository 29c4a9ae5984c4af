import Verif.Cross.WalkLemmas
/-!
# Lemmas: the rings of the polygon one after the other
-/
namespace Verif.Cross

/-- What has been found after some rings, the numbers of which are below `r`. -/
structure Found (E : Nat) (F : List (List Nat)) (ws : List Data) (res : Result) : Prop where
  edgesLen : res.edges.length = E
  facesLen : res.faces.length = F.length
  sound : ∀ e r i : Nat, res.edges[e]? = some (some (r, i)) → ∃ w, ws[r]? = some w ∧ i < w.numSeg ∧ w.hit i e = true
  complete : ∀ e, e < E → (∃ w ∈ ws, Crossed w e) → ∃ x, res.edges[e]? = some (some x)
  faces : ∀ (f : Nat) l, res.faces[f]? = some l → (l ≠ [] ↔ ∃ e, (∃ es, F[f]? = some es ∧ e ∈ es) ∧ ∃ w ∈ ws, Crossed w e)
  sides : ∀ (f : Nat) l, res.faces[f]? = some l → ∀ e ∈ l, (∃ es, F[f]? = some es ∧ e ∈ es) ∧ ∃ w ∈ ws, Crossed w e

theorem found_merge {E : Nat} {F : List (List Nat)} {ws : List Data} {res : Result} (h : Found E F ws res) {w : Data} {s : St} (hs : Exact w s)
    (hE : w.edgesFaces.length = E) (hF : w.facesEdges = F) {sort : List Nat → List Nat} (hsort : ∀ l, (sort l).Perm l) :
    Found E F (ws ++ [w]) (merge ws.length sort s res) := by
  have key : ∀ (f : Nat) l, (merge ws.length sort s res).faces[f]? = some l → ∃ a b, res.faces[f]? = some a ∧ s.faces[f]? = some b ∧
      (l ≠ [] ↔ a ≠ [] ∨ b ≠ []) ∧ ∀ e ∈ l, e ∈ a ∨ e ∈ b := by
    intro f l hl
    unfold merge at hl
    simp only [] at hl
    obtain ⟨a, b, ha, hb, hl⟩ := List.getElem?_zipWith_eq_some.1 hl
    refine ⟨a, b, ha, hb, ?_⟩
    have hp := hsort b
    by_cases h1 : a = [] <;> by_cases h2 : b = []
    · subst h1; subst h2
      simp at hl
      subst hl
      simp
    · subst h1
      have h2' : b.isEmpty = false := by simpa using h2
      simp only [List.isEmpty_nil, h2', Bool.not_true, Bool.not_false, Bool.false_and, Bool.false_eq_true, if_false, if_true] at hl
      subst hl
      refine ⟨?_, fun e he => .inr (hp.mem_iff.1 he)⟩
      have : sort b ≠ [] := fun h0 => h2 (by rw [h0] at hp; exact hp.nil_eq.symm)
      simp [this, h2]
    · subst h2
      simp at hl
      subst hl
      simp
    · have h1' : a.isEmpty = false := by simpa using h1
      have h2' : b.isEmpty = false := by simpa using h2
      simp only [h1', h2', Bool.not_false, Bool.and_self, if_true] at hl
      subst hl
      refine ⟨by simp [h1], fun e he => ?_⟩
      rcases List.mem_append.1 he with h | h
      · exact .inl h
      · exact .inr (hp.mem_iff.1 h)
  have edgeOf : ∀ (e : Nat) x, (merge ws.length sort s res).edges[e]? = some (some x) →
      res.edges[e]? = some (some x) ∨ (res.edges[e]? = some none ∧ ∃ i, s.found[e]? = some (some i) ∧ x = (ws.length, i)) := by
    intro e x hx
    unfold merge at hx
    simp only [] at hx
    obtain ⟨a, b, ha, hb, hl⟩ := List.getElem?_zipWith_eq_some.1 hx
    cases a with
    | none =>
      simp only [Option.isNone_none, if_true] at hl
      cases b with
      | none => simp at hl
      | some i =>
        simp only [Option.map_some, Option.some.injEq] at hl
        exact .inr ⟨ha, i, hb, hl.symm⟩
    | some a =>
      simp only [Option.isNone_some, Bool.false_eq_true, if_false] at hl
      rw [ha, hl]
      exact .inl rfl
  refine ⟨?_, ?_, ?_, ?_, ?_, ?_⟩
  · simp [merge, h.edgesLen, hs.edgesLen, hE]
  · simp [merge, h.facesLen, hs.facesLen, hF]
  · intro e r i he
    rcases edgeOf e _ he with h1 | ⟨_, j, h2, h3⟩
    · obtain ⟨w', a1, a2, a3⟩ := h.sound e r i h1
      exact ⟨w', by rw [List.getElem?_append_left (List.getElem?_eq_some_iff.1 a1).1]; exact a1, a2, a3⟩
    · simp only [Prod.mk.injEq] at h3
      obtain ⟨rfl, rfl⟩ := h3
      exact ⟨w, by simp, hs.sound e i h2⟩
  · intro e he ⟨w', hw', hc⟩
    obtain ⟨a, ha⟩ : ∃ a, res.edges[e]? = some a := ⟨_, List.getElem?_eq_getElem (by rw [h.edgesLen]; exact he)⟩
    obtain ⟨b, hb⟩ : ∃ b, s.found[e]? = some b := ⟨_, List.getElem?_eq_getElem (by rw [hs.edgesLen, hE]; exact he)⟩
    have hm : (merge ws.length sort s res).edges[e]? = some (if a.isNone then b.map fun i => (ws.length, i) else a) :=
      List.getElem?_zipWith_eq_some.2 ⟨a, b, ha, hb, rfl⟩
    rw [hm]
    cases a with
    | some a => exact ⟨a, rfl⟩
    | none =>
      rcases List.mem_append.1 hw' with h1 | h1
      · obtain ⟨x, hx⟩ := h.complete e he ⟨w', h1, hc⟩
        rw [ha] at hx
        simp at hx
      · rw [List.mem_singleton] at h1
        subst h1
        obtain ⟨i, hi⟩ := hs.complete e (by omega) hc
        rw [hb] at hi
        obtain rfl := Option.some.inj hi
        exact ⟨_, rfl⟩
  · intro f l hl
    obtain ⟨a, b, ha, hb, h1, _⟩ := key f l hl
    rw [h1, h.faces f a ha, hs.faces f b hb]
    unfold Side
    rw [hF]
    constructor
    · rintro (⟨e, h2, w', h3, h4⟩ | ⟨e, h2, h3⟩)
      · exact ⟨e, h2, w', List.mem_append.2 (.inl h3), h4⟩
      · exact ⟨e, h2, w, by simp, h3⟩
    · rintro ⟨e, h2, w', h3, h4⟩
      rcases List.mem_append.1 h3 with h3 | h3
      · exact .inl ⟨e, h2, w', h3, h4⟩
      · rw [List.mem_singleton] at h3
        subst h3
        exact .inr ⟨e, h2, h4⟩
  · intro f l hl e he
    obtain ⟨a, b, ha, hb, _, h1⟩ := key f l hl
    rcases h1 e he with h2 | h2
    · obtain ⟨h3, w', h4, h5⟩ := h.sides f a ha e h2
      exact ⟨h3, w', List.mem_append.2 (.inl h4), h5⟩
    · obtain ⟨h3, h4⟩ := (hs.sides f b hb).2 e h2
      unfold Side at h3
      rw [hF] at h3
      exact ⟨h3, w, by simp, h4⟩

theorem rings_ok {E : Nat} {F : List (List Nat)} : ∀ (ws : List (Data × (St → List Nat → List Nat))) (done : List Data) (res : Result),
    (∀ w ∈ ws, Fits w.1 ∧ CrossedHaveFaces w.1 ∧ w.1.edgesFaces.length = E ∧ w.1.facesEdges = F ∧ ∀ s l, (w.2 s l).Perm l) →
    Found E F done res → ∃ res', (∀ k, 8 * E + 1 ≤ k → rings k done.length ws res = .ok (some res')) ∧ Found E F (done ++ ws.map (·.1)) res'
  | [], done, res, _, h => ⟨res, fun _ _ => rfl, by simpa using h⟩
  | (w, sort) :: ws, done, res, hw, h => by
    obtain ⟨h1, h2, h3, h4, h5⟩ := hw (w, sort) (by simp)
    simp only [] at h1 h2 h3 h4 h5
    obtain ⟨s, a1, a2, _⟩ := walk_ok h1 h2
    obtain ⟨res', b1, b2⟩ := rings_ok ws (done ++ [w]) (merge done.length (sort s) s res) (fun x hx => hw x (List.mem_cons_of_mem _ hx))
      (found_merge h a2 h3 h4 (h5 s))
    refine ⟨res', ?_, by simpa using b2⟩
    intro k hk
    rw [rings, a1 k (by omega), Res.ok_bind]
    have := b1 k hk
    rwa [List.length_append, List.length_singleton] at this

theorem found_start (E : Nat) (F : List (List Nat)) : Found E F [] (noResult E F.length) := by
  have hr : ∀ {α : Type} {n k : Nat} {a b : α}, (List.replicate n a)[k]? = some b → b = a :=
    fun h => List.eq_of_mem_replicate (List.mem_of_getElem? h)
  refine ⟨by simp [noResult], by simp [noResult], ?_, by simp, ?_, ?_⟩
  · intro e r i h; exact absurd (hr h) (by simp)
  · intro f l h; rw [hr h]; simp
  · intro f l h; rw [hr h]; simp

end Verif.Cross
