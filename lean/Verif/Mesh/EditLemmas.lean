import Verif.Mesh.Spec
/-!
# Lemmas about deleting and merging
-/
namespace Verif.Mesh
variable {P : Type}

/-- `m'` is `m` with the edges in `S` deleted. -/
structure Erased (m m' : Mesh P) (S : Nat → Prop) : Prop where
  nodes : m'.nodes = m.nodes
  nodesEdges : m'.nodesEdges = m.nodesEdges
  numEdges : m'.numEdges = m.numEdges
  len : m'.edges.length = m.edges.length
  gone : ∀ j, S j → edgeAt m' j = noEdge
  kept : ∀ j, ¬ S j → edgeAt m' j = edgeAt m j

theorem Erased.listAt {m m' : Mesh P} {S : Nat → Prop} (h : Erased m m' S) (n : Nat) :
    listAt m' n = listAt m n := by simp [Mesh.listAt, h.nodesEdges]

theorem Erased.cases {m m' : Mesh P} {S : Nat → Prop} (h : Erased m m' S) (j : Nat) :
    edgeAt m' j = noEdge ∨ edgeAt m' j = edgeAt m j := by
  by_cases hs : S j
  · exact Or.inl (h.gone j hs)
  · exact Or.inr (h.kept j hs)

theorem Erased.refl (m : Mesh P) {S : Nat → Prop} (hS : ∀ j, S j → edgeAt m j = noEdge) : Erased m m S :=
  ⟨rfl, rfl, rfl, rfl, hS, fun _ _ => rfl⟩

theorem Erased.trans {m m1 m2 : Mesh P} {S T U : Nat → Prop} (h1 : Erased m m1 S) (h2 : Erased m1 m2 T)
    (hU : ∀ j, U j → S j ∨ T j) (hS : ∀ j, S j → U j ∨ edgeAt m j = noEdge)
    (hT : ∀ j, T j → U j ∨ edgeAt m j = noEdge) : Erased m m2 U := by
  refine ⟨h2.nodes.trans h1.nodes, h2.nodesEdges.trans h1.nodesEdges, h2.numEdges.trans h1.numEdges,
    h2.len.trans h1.len, ?_, ?_⟩
  · intro j hj
    by_cases ht : T j
    · exact h2.gone j ht
    · rw [h2.kept j ht]
      cases hU j hj with
      | inl hs => exact h1.gone j hs
      | inr h => exact absurd h ht
  · intro j hj
    by_cases ht : T j
    · rw [h2.gone j ht]
      cases hT j ht with
      | inl h => exact absurd h hj
      | inr h => exact h.symm
    · rw [h2.kept j ht]
      by_cases hs : S j
      · rw [h1.gone j hs]
        cases hS j hs with
        | inl h => exact absurd h hj
        | inr h => exact h.symm
      · exact h1.kept j hs

theorem Erased.congr {m m' : Mesh P} {S T : Nat → Prop} (h : Erased m m' S)
    (hT : ∀ j, T j → S j ∨ edgeAt m j = noEdge) (hS : ∀ j, S j → T j ∨ edgeAt m j = noEdge) : Erased m m' T := by
  refine ⟨h.nodes, h.nodesEdges, h.numEdges, h.len, ?_, ?_⟩
  · intro j hj
    by_cases hs : S j
    · exact h.gone j hs
    · rw [h.kept j hs]
      cases hT j hj with
      | inl h => exact absurd h hs
      | inr h => exact h
  · intro j hj
    by_cases hs : S j
    · rw [h.gone j hs]
      cases hS j hs with
      | inl h => exact absurd h hj
      | inr h => exact h.symm
    · exact h.kept j hs

theorem WF.erased {m m' : Mesh P} {S : Nat → Prop} (w : WF m) (h : Erased m m' S) : WF m' := by
  refine ⟨?_, ?_, ?_, ?_, ?_, ?_, ?_, ?_⟩
  · rw [h.nodes]; exact w.nodesFit
  · rw [h.len]; exact w.edgesFit
  · intro i
    cases h.cases i with
    | inl e => exact Or.inl e
    | inr e => rw [e, h.nodes]; exact w.bounds i
  · rw [h.nodes, h.nodesEdges]; exact w.lists
  · rw [h.numEdges, h.nodesEdges]; exact w.counts
  · intro n i hi
    rw [h.listAt] at hi
    have := w.listed n i hi
    refine ⟨by rw [h.len]; exact this.1, ?_⟩
    cases h.cases i with
    | inl e => exact Or.inl e
    | inr e => rw [e]; exact this.2
  · intro n; rw [h.listAt]; exact w.nodup n
  · intro i n hi ht
    rw [h.listAt]
    cases h.cases i with
    | inl e => exact absurd e hi
    | inr e => rw [e] at hi ht; exact w.complete i n hi ht

theorem Simple.erased {m m' : Mesh P} {S : Nat → Prop} (w : Simple m) (h : Erased m m' S) : Simple m' := by
  refine ⟨?_, ?_⟩
  · intro i hi
    cases h.cases i with
    | inl e => exact absurd e hi
    | inr e => rw [e] at hi ⊢; exact w.noLoop i hi
  · intro i j hij hi hj
    cases h.cases i with
    | inl e => exact absurd e hi
    | inr e =>
      rw [e] at hi hj
      cases h.cases j with
      | inl f =>
        rw [f] at hj
        apply hi
        cases hj with
        | inl q => rw [noEdge] at *; exact q.symm
        | inr q =>
          simp only [noEdge, Prod.mk.injEq] at q
          apply Prod.ext
          · exact q.2.symm
          · exact q.1.symm
      | inr f => rw [f] at hj; exact w.noDup i j hij hi hj

theorem edgeAt_lt {m : Mesh P} {i : Nat} (h : edgeAt m i ≠ noEdge) : i < m.edges.length := by
  by_cases hi : i < m.edges.length
  · exact hi
  · exfalso
    apply h
    have : m.edges[i]? = none := by simp; omega
    simp [edgeAt, this]

theorem vget_edge {m : Mesh P} {i : Nat} (h : i < m.edges.length) : vget m.edges i = .ok (edgeAt m i) := by
  simp [vget, edgeAt, h]

theorem edgeAt_set {m : Mesh P} {i j : Nat} {e : Edge} (h : i < m.edges.length) :
    edgeAt { m with edges := m.edges.set i e } j = if j = i then e else edgeAt m j := by
  by_cases hj : j = i
  · subst hj; simp [edgeAt, h]
  · simp [edgeAt, Ne.symm hj, hj]

theorem deleteEdge_ok {m : Mesh P} {i : Nat} (h : i < m.edges.length) (hf : m.edges.length ≤ missing) :
    ∃ m', deleteEdge m i = .ok m' ∧ Erased m m' (fun j => j = i) := by
  refine ⟨{ m with edges := m.edges.set i noEdge }, ?_, ?_⟩
  · have : i ≠ missing := by omega
    simp [deleteEdge, this, vset_ok _ h]
  · refine ⟨rfl, rfl, rfl, by simp, ?_, ?_⟩
    · intro j hj; rw [edgeAt_set h]; simp [hj]
    · intro j hj; rw [edgeAt_set h]; simp [hj]

theorem deleteEdges_ok (l : List Nat) {m : Mesh P} (h : ∀ i ∈ l, i < m.edges.length)
    (hf : m.edges.length ≤ missing) :
    ∃ m', deleteEdges m l = .ok m' ∧ Erased m m' (fun j => j ∈ l) := by
  induction l generalizing m with
  | nil => exact ⟨m, rfl, Erased.refl m (by simp)⟩
  | cons i is ih =>
    obtain ⟨m1, h1, e1⟩ := deleteEdge_ok (h i (by simp)) hf
    obtain ⟨m2, h2, e2⟩ := ih (m := m1) (by intro j hj; rw [e1.len]; exact h j (by simp [hj]))
      (by rw [e1.len]; exact hf)
    refine ⟨m2, by simp [deleteEdges, h1, h2], e1.trans e2 ?_ ?_ ?_⟩
    · intro j hj; simpa using hj
    · intro j hj; left; simp [hj]
    · intro j hj; left; simp [hj]

theorem vget_listAt {m : Mesh P} (w : WF m) {n : Nat} (h : n < m.nodes.length) :
    vget m.nodesEdges n = .ok (listAt m n) := by
  have : n < m.nodesEdges.length := by rw [w.lists]; exact h
  simp [vget, listAt, this]

theorem vget_numEdges {m : Mesh P} (w : WF m) {n : Nat} (h : n < m.nodes.length) :
    vget m.numEdges n = .ok (listAt m n).length := by
  have : n < m.nodesEdges.length := by rw [w.lists]; exact h
  simp [vget, listAt, this, w.counts]

theorem listedEdges_ok {m : Mesh P} (w : WF m) {n : Nat} (h : n < m.nodes.length) :
    listedEdges m n = .ok (listAt m n) := by
  simp [listedEdges, vget_listAt w h, vget_numEdges w h]

theorem not_missing {m : Mesh P} (w : WF m) {n : Nat} (h : n < m.nodes.length) : n ≠ missing := by
  have := w.nodesFit; omega

theorem otherNode_noEdge (n : Nat) : otherNode noEdge n = missing := by
  unfold otherNode
  by_cases h : n = noEdge.1
  · rw [if_pos h]; rfl
  · rw [if_neg h]; rfl

theorem otherNode_eq {e : Edge} {o s : Nat} (ht : touches e o) (h : otherNode e o = s) : joins e o s := by
  obtain ⟨a, b⟩ := e
  simp only [otherNode, touches, joins, Prod.mk.injEq] at *
  split at h <;> omega

theorem joins_otherNode {e : Edge} {o s : Nat} (h : joins e o s) : otherNode e o = s := by
  obtain ⟨a, b⟩ := e
  simp only [otherNode, joins, Prod.mk.injEq] at *
  by_cases ha : o = a
  · subst ha; simp; omega
  · simp [ha]; omega

theorem joins_touches {e : Edge} {o s : Nat} (h : joins e o s) : touches e o ∧ touches e s := by
  obtain ⟨a, b⟩ := e
  simp only [touches, joins, Prod.mk.injEq] at *
  omega

theorem joins_ne {e : Edge} {o s : Nat} (h : joins e o s) (ho : o ≠ missing) : e ≠ noEdge := by
  rintro rfl
  simp only [joins, noEdge, Prod.mk.injEq] at h
  omega

theorem joins_comm {e : Edge} {o s : Nat} : joins e o s ↔ joins e s o := by
  unfold joins; exact Or.comm

theorem joins_right {e : Edge} {o s t : Nat} (h : joins e o s) (h' : joins e o t) : s = t := by
  rw [← joins_otherNode h, ← joins_otherNode h']

theorem edge_joins {e : Edge} {o : Nat} (h : touches e o) : joins e o (otherNode e o) :=
  otherNode_eq h rfl

theorem findEdgeLoop_ok {m : Mesh P} (a b : Nat) (hb : b ≠ missing) (l : List Nat)
    (hl : ∀ i ∈ l, i < m.edges.length ∧ (edgeAt m i = noEdge ∨ touches (edgeAt m i) a)) :
    (findEdgeLoop m.edges a b l = .ok missing ∧ ∀ i ∈ l, ¬ joins (edgeAt m i) a b) ∨
    (∃ i ∈ l, findEdgeLoop m.edges a b l = .ok i ∧ joins (edgeAt m i) a b) := by
  induction l with
  | nil => left; simp [findEdgeLoop]
  | cons i is ih =>
    have hi := hl i (by simp)
    by_cases ho : otherNode (edgeAt m i) a = b
    · right
      refine ⟨i, by simp, by simp [findEdgeLoop, vget_edge hi.1, ho], ?_⟩
      cases hi.2 with
      | inl h => rw [h, otherNode_noEdge] at ho; omega
      | inr h => exact otherNode_eq h ho
    · have hj : ¬ joins (edgeAt m i) a b := fun h => ho (joins_otherNode h)
      cases ih (fun j hj => hl j (by simp [hj])) with
      | inl h =>
        left
        refine ⟨by simp [findEdgeLoop, vget_edge hi.1, ho, h.1], ?_⟩
        intro j hj'
        simp at hj'
        cases hj' with
        | inl e => rw [e]; exact hj
        | inr e => exact h.2 j e
      | inr h =>
        obtain ⟨j, hj1, hj2, hj3⟩ := h
        right
        exact ⟨j, by simp [hj1], by simp [findEdgeLoop, vget_edge hi.1, ho, hj2], hj3⟩

/-- `FindEdge` is exact on an administrated mesh. -/
theorem findEdge_ok {m : Mesh P} (w : WF m) {a b : Nat} (ha : a < m.nodes.length) (hb : b ≠ missing) :
    (findEdge m a b = .ok missing ∧ ∀ i, ¬ joins (edgeAt m i) a b) ∨
    (∃ i, i < m.edges.length ∧ findEdge m a b = .ok i ∧ joins (edgeAt m i) a b) := by
  have ham := not_missing w ha
  have hf : findEdge m a b = findEdgeLoop m.edges a b (listAt m a) := by
    simp [findEdge, ham, hb, vget_listAt w ha, vget_numEdges w ha]
  rw [hf]
  cases findEdgeLoop_ok (m := m) a b hb (listAt m a) (fun i hi => w.listed a i hi) with
  | inl h =>
    left
    refine ⟨h.1, fun i hj => h.2 i ?_ hj⟩
    exact w.complete i a (joins_ne hj ham) (joins_touches hj).1
  | inr h =>
    obtain ⟨i, hi, h1, h2⟩ := h
    right
    exact ⟨i, (w.listed a i hi).1, h1, h2⟩

theorem mergeInner_ok (s o : Nat) (l : List Nat) {m : Mesh P}
    (hl : ∀ i ∈ l, i < m.edges.length) (hf : m.edges.length ≤ missing) :
    ∃ m', mergeInner s o l m = .ok m' ∧ Erased m m' (fun j => j ∈ l ∧ otherNode (edgeAt m j) o = s) := by
  induction l generalizing m with
  | nil => exact ⟨m, rfl, Erased.refl m (by simp)⟩
  | cons i is ih =>
    have hi := hl i (by simp)
    by_cases ho : otherNode (edgeAt m i) o = s
    · obtain ⟨m1, h1, e1⟩ := deleteEdge_ok hi hf
      obtain ⟨m2, h2, e2⟩ := ih (m := m1) (by intro j hj; rw [e1.len]; exact hl j (by simp [hj]))
        (by rw [e1.len]; exact hf)
      refine ⟨m2, by simp [mergeInner, vget_edge hi, ho, h1, h2], e1.trans e2 ?_ ?_ ?_⟩
      · rintro j ⟨hj, hjo⟩
        by_cases hji : j = i
        · exact Or.inl hji
        · right
          rw [e1.kept j hji]
          simp [hji] at hj
          exact ⟨hj, hjo⟩
      · rintro j rfl; left; exact ⟨by simp, ho⟩
      · rintro j ⟨hj, hjo⟩
        by_cases hji : j = i
        · subst hji; left; exact ⟨by simp, ho⟩
        · rw [e1.kept j hji] at hjo
          left; exact ⟨by simp [hj], hjo⟩
    · obtain ⟨m2, h2, e2⟩ := ih (m := m) (fun j hj => hl j (by simp [hj])) hf
      refine ⟨m2, by simp [mergeInner, vget_edge hi, ho, h2], e2.congr ?_ ?_⟩
      · rintro j ⟨hj, hjo⟩
        simp at hj
        cases hj with
        | inl h => subst h; exact absurd hjo ho
        | inr h => exact Or.inl ⟨h, hjo⟩
      · rintro j ⟨hj, hjo⟩
        exact Or.inl ⟨by simp [hj], hjo⟩

theorem mergeInner_wf {m : Mesh P} (w : WF m) {s o : Nat} (ho : o ≠ missing) :
    ∃ m', mergeInner s o (listAt m o) m = .ok m' ∧ Erased m m' (fun j => joins (edgeAt m j) o s) := by
  obtain ⟨m', h1, e1⟩ := mergeInner_ok s o (listAt m o) (m := m) (fun i hi => (w.listed o i hi).1) w.edgesFit
  refine ⟨m', h1, e1.congr ?_ ?_⟩
  · intro j hj
    left
    exact ⟨w.complete j o (joins_ne hj ho) (joins_touches hj).1, joins_otherNode hj⟩
  · rintro j ⟨hj, hjo⟩
    cases (w.listed o j hj).2 with
    | inl h => exact Or.inr h
    | inr h => exact Or.inl (otherNode_eq h hjo)

/-- The edges deleted by the outer loop. -/
def Dup (m : Mesh P) (a b : Nat) (l : List Nat) (j : Nat) : Prop :=
  ∃ i ∈ l, ∃ o, o ≠ b ∧ joins (edgeAt m i) a o ∧ joins (edgeAt m j) o b

theorem other_lt {m : Mesh P} (w : WF m) {i n : Nat} (h : edgeAt m i ≠ noEdge) :
    otherNode (edgeAt m i) n < m.nodes.length := by
  have := w.bounds i
  cases this with
  | inl h' => exact absurd h' h
  | inr h' => unfold otherNode; split <;> omega

theorem mergeOuter_ok {a b : Nat} (hab : a ≠ b) (l : List Nat) {m : Mesh P} (w : WF m)
    (ha : a < m.nodes.length) (hb : b < m.nodes.length)
    (hl : ∀ i ∈ l, i < m.edges.length ∧ (edgeAt m i = noEdge ∨ touches (edgeAt m i) a)) :
    ∃ m', mergeOuter a b l m = .ok m' ∧ Erased m m' (Dup m a b l) := by
  induction l generalizing m with
  | nil => exact ⟨m, rfl, Erased.refl m (by simp [Dup])⟩
  | cons i is ih =>
    have hi := hl i (by simp)
    have ham := not_missing w ha
    have hbm := not_missing w hb
    have hl' : ∀ j ∈ is, j < m.edges.length ∧ (edgeAt m j = noEdge ∨ touches (edgeAt m j) a) :=
      fun j hj => hl j (by simp [hj])
    by_cases hskip : otherNode (edgeAt m i) a = missing ∨ otherNode (edgeAt m i) a = b
    · obtain ⟨m2, h2, e2⟩ := ih w ha hb hl'
      refine ⟨m2, ?_, e2.congr ?_ ?_⟩
      · have : ¬ (otherNode (edgeAt m i) a ≠ missing ∧ otherNode (edgeAt m i) a ≠ b) := by omega
        simp only [mergeOuter, vget_edge hi.1, Res.ok_bind]
        rw [if_neg this]; exact h2
      · rintro j ⟨i', hi', o, ho, hj1, hj2⟩
        simp at hi'
        cases hi' with
        | inl h =>
          subst h
          rw [joins_otherNode hj1] at hskip
          cases hskip with
          | inl h =>
            exfalso
            subst h
            cases w.bounds i' with
            | inl h0 => exact joins_ne hj1 ham h0
            | inr h0 =>
              have := w.nodesFit
              simp only [joins, Prod.ext_iff] at hj1
              omega
          | inr h => exact absurd h ho
        | inr h => exact Or.inl ⟨i', h, o, ho, hj1, hj2⟩
      · rintro j ⟨i', hi', o, ho, hj1, hj2⟩
        exact Or.inl ⟨i', by simp [hi'], o, ho, hj1, hj2⟩
    · have h1 : otherNode (edgeAt m i) a ≠ missing := fun h => hskip (Or.inl h)
      have h2 : otherNode (edgeAt m i) a ≠ b := fun h => hskip (Or.inr h)
      have hne : edgeAt m i ≠ noEdge := by
        intro h; rw [h, otherNode_noEdge] at h1; exact h1 rfl
      have ht : touches (edgeAt m i) a := by
        cases hi.2 with
        | inl h => exact absurd h hne
        | inr h => exact h
      have hol := other_lt (n := a) w hne
      have hij := edge_joins ht
      generalize hog : otherNode (edgeAt m i) a = o at *
      obtain ⟨m1, g1, e1⟩ := mergeInner_wf w (s := b) (o := o) h1
      have w1 := w.erased e1
      have keepA : ∀ j o', o' ≠ b → (joins (edgeAt m1 j) a o' ↔ joins (edgeAt m j) a o') := by
        intro j o' ho'
        by_cases hj : joins (edgeAt m j) o b
        · rw [e1.gone j hj]
          constructor
          · intro h; exact absurd rfl (joins_ne h ham)
          · intro h
            exfalso
            simp only [joins, Prod.ext_iff] at h hj
            omega
        · rw [e1.kept j hj]
      obtain ⟨m2, g2, e2⟩ := ih w1 (by rw [e1.nodes]; exact ha) (by rw [e1.nodes]; exact hb) (by
        intro j hj
        refine ⟨by rw [e1.len]; exact (hl' j hj).1, ?_⟩
        cases e1.cases j with
        | inl h => exact Or.inl h
        | inr h => rw [h]; exact (hl' j hj).2)
      refine ⟨m2, ?_, e1.trans e2 ?_ ?_ ?_⟩
      · simp only [mergeOuter, vget_edge hi.1, Res.ok_bind, hog]
        rw [if_pos ⟨h1, h2⟩, listedEdges_ok w hol]
        simp only [Res.ok_bind, g1, g2]
      · rintro j ⟨i', hi', o', ho', hj1, hj2⟩
        by_cases hj : joins (edgeAt m j) o b
        · exact Or.inl hj
        · right
          simp at hi'
          cases hi' with
          | inl h =>
            subst h
            have := joins_right hj1 hij
            subst this
            exact absurd hj2 hj
          | inr h =>
            exact ⟨i', h, o', ho', (keepA i' o' ho').2 hj1, by rw [e1.kept j hj]; exact hj2⟩
      · intro j hj
        exact Or.inl ⟨i, by simp, o, h2, hij, hj⟩
      · rintro j ⟨i', hi', o', ho', hj1, hj2⟩
        by_cases hj : joins (edgeAt m j) o b
        · exact Or.inl ⟨i, by simp, o, h2, hij, hj⟩
        · rw [e1.kept j hj] at hj2
          exact Or.inl ⟨i', by simp [hi'], o', ho', (keepA i' o' ho').1 hj1, hj2⟩

theorem collectEdges_ok {m : Mesh P} (w : WF m) (l : List Nat) (hl : ∀ i ∈ l, i < m.edges.length) :
    collectEdges m l = .ok (l.filter (fun i => edgeAt m i ≠ noEdge)) := by
  induction l with
  | nil => rfl
  | cons i is ih =>
    have hi := hl i (by simp)
    simp only [collectEdges, vget_edge hi, Res.ok_bind, ih (fun j hj => hl j (by simp [hj]))]
    have : (edgeAt m i).1 ≠ missing ↔ edgeAt m i ≠ noEdge := by
      cases w.bounds i with
      | inl h => rw [h]; simp [noEdge]
      | inr h =>
        have := w.nodesFit
        constructor
        · intro _ h'; rw [h'] at h; simp [noEdge] at h; omega
        · intro _; omega
    by_cases h : edgeAt m i = noEdge
    · have h' : ¬ (edgeAt m i).1 ≠ missing := fun x => this.1 x h
      rw [if_neg h']
      simp [h]
    · have h' := this.2 h
      rw [if_pos h']
      simp [h]

/-- Replace node `a` by `b` in an edge, as `MergeTwoNodes` does. -/
def replaceNode (a b : Nat) (e : Edge) : Edge :=
  if e.1 = a then (b, e.2) else if e.2 = a then (e.1, b) else e

theorem replaceNode_not {a b : Nat} {e : Edge} (h : ¬ touches e a) : replaceNode a b e = e := by
  simp [touches] at h
  simp [replaceNode, h]

theorem replaceNode_idem {a b : Nat} (hab : a ≠ b) {e : Edge} (hl : e.1 ≠ e.2) :
    replaceNode a b (replaceNode a b e) = replaceNode a b e := by
  unfold replaceNode
  by_cases h1 : e.1 = a
  · have : e.2 ≠ a := by omega
    simp [h1, Ne.symm hab, this]
  · by_cases h2 : e.2 = a
    · simp [h1, h2, Ne.symm hab]
    · simp [h1, h2]

theorem redirect_ok {a b : Nat} (ha : a ≠ missing) (hb : b ≠ missing) (l : List Nat) {m : Mesh P}
    (hfst : ∀ i, (edgeAt m i).1 = missing → edgeAt m i = noEdge)
    (hl : ∀ i ∈ l, i < m.edges.length) (hnd : l.Nodup) :
    ∃ m', redirect a b l m = .ok (l.filter (fun i => edgeAt m i ≠ noEdge), m') ∧
      m'.nodes = m.nodes ∧ m'.nodesEdges = m.nodesEdges ∧ m'.numEdges = m.numEdges ∧
      m'.edges.length = m.edges.length ∧
      ∀ j, edgeAt m' j = if j ∈ l then replaceNode a b (edgeAt m j) else edgeAt m j := by
  induction l generalizing m with
  | nil => exact ⟨m, rfl, rfl, rfl, rfl, rfl, fun _ => by simp⟩
  | cons i is ih =>
    have hi := hl i (by simp)
    rw [List.nodup_cons] at hnd
    have hrep : ∀ e : Edge, replaceNode a b e = noEdge ↔ e = noEdge := by
      intro e
      unfold replaceNode
      split
      · rename_i h; simp only [noEdge, Prod.ext_iff]; omega
      · split
        · rename_i h; simp only [noEdge, Prod.ext_iff]; omega
        · exact Iff.rfl
    -- the mesh after treating edge i
    have key : ∃ m1, redirectOne a b i (edgeAt m i) m = Res.ok m1 ∧
        m1.nodes = m.nodes ∧ m1.nodesEdges = m.nodesEdges ∧ m1.numEdges = m.numEdges ∧
        m1.edges.length = m.edges.length ∧
        ∀ j, edgeAt m1 j = if j = i then replaceNode a b (edgeAt m i) else edgeAt m j := by
      by_cases h1 : (edgeAt m i).1 = a
      · refine ⟨{ m with edges := m.edges.set i (b, (edgeAt m i).2) }, ?_, rfl, rfl, rfl, by simp, ?_⟩
        · simp [redirectOne, h1, resetEdge, vset_ok _ hi]
        · intro j; rw [edgeAt_set hi]; simp [replaceNode, h1]
      · by_cases h2 : (edgeAt m i).2 = a
        · refine ⟨{ m with edges := m.edges.set i ((edgeAt m i).1, b) }, ?_, rfl, rfl, rfl, by simp, ?_⟩
          · simp [redirectOne, h1, h2, resetEdge, vset_ok _ hi]
          · intro j; rw [edgeAt_set hi]; simp [replaceNode, h1, h2]
        · refine ⟨m, by simp [redirectOne, h1, h2], rfl, rfl, rfl, rfl, ?_⟩
          intro j
          simp only [replaceNode, h1, h2, if_false]
          split
          · rename_i h; rw [h]
          · rfl
    by_cases h0 : (edgeAt m i).1 = missing
    · have hno := hfst i h0
      obtain ⟨m', g, e1, e2, e3, e4, e5⟩ := ih hfst (fun j hj => hl j (by simp [hj])) hnd.2
      refine ⟨m', ?_, e1, e2, e3, e4, ?_⟩
      · simp only [redirect, vget_edge hi, Res.ok_bind]
        rw [if_neg (by simpa using h0), g]
        simp [hno]
      · intro j
        rw [e5]
        by_cases hj : j = i
        · subst hj; simp [hno, (hrep noEdge).2 rfl]
        · simp [hj]
    · have hno : edgeAt m i ≠ noEdge := by intro h; rw [h] at h0; exact h0 rfl
      obtain ⟨m1, g1, k1, k2, k3, k4, k5⟩ := key
      have hfst1 : ∀ j, (edgeAt m1 j).1 = missing → edgeAt m1 j = noEdge := by
        intro j
        rw [k5]
        split
        · intro h
          unfold replaceNode at h ⊢
          split at h
          · exact absurd h hb
          · split at h
            · exact absurd h h0
            · exact absurd h h0
        · exact hfst j
      obtain ⟨m', g, e1, e2, e3, e4, e5⟩ := ih (m := m1) hfst1
        (fun j hj => by rw [k4]; exact hl j (by simp [hj])) hnd.2
      refine ⟨m', ?_, e1.trans k1, e2.trans k2, e3.trans k3, e4.trans k4, ?_⟩
      · simp only [redirect, vget_edge hi, Res.ok_bind]
        rw [if_pos h0, g1]
        simp only [Res.ok_bind, g]
        have : is.filter (fun i => decide (edgeAt m1 i ≠ noEdge)) = is.filter (fun i => decide (edgeAt m i ≠ noEdge)) := by
          apply List.filter_congr
          intro j hj
          have : j ≠ i := by rintro rfl; exact hnd.1 hj
          rw [k5, if_neg this]
        simp [hno] at this ⊢
        exact this
      · intro j
        rw [e5, k5]
        by_cases hj : j = i
        · subst hj
          simp [hnd.1]
        · simp [hj]

/-- What `MergeTwoNodes` does to the edges: the edge between the two nodes and the edges that would
become duplicates are deleted, all others are redirected. -/
def MergeGone (m : Mesh P) (a b j : Nat) : Prop :=
  joins (edgeAt m j) a b ∨ ∃ o, o ≠ b ∧ o ≠ missing ∧ (∃ i, joins (edgeAt m i) a o) ∧ joins (edgeAt m j) o b

theorem mergeTwoNodes_ok {m : Mesh P} (w : WF m) (sm : Simple m) {a b : Nat} (ha : a < m.nodes.length)
    (hb : b < m.nodes.length) (hab : a ≠ b)
    (hcap : (listAt m a).length + (listAt m b).length ≤ maxEdgesPerNode) :
    ∃ m' la lb, mergeTwoNodes m a b = .ok m' ∧
      m'.nodes = m.nodes.set a none ∧
      m'.edges.length = m.edges.length ∧
      m'.nodesEdges = (m.nodesEdges.set b (lb ++ la)).set a [] ∧
      m'.numEdges = (m.numEdges.set b (lb ++ la).length).set a 0 ∧
      (∀ j, MergeGone m a b j → edgeAt m' j = noEdge) ∧
      (∀ j, ¬ MergeGone m a b j → edgeAt m' j = replaceNode a b (edgeAt m j)) ∧
      la = (listAt m a).filter (fun i => edgeAt m' i ≠ noEdge) ∧
      lb = (listAt m b).filter (fun i => edgeAt m' i ≠ noEdge) := by
  have ham := not_missing w ha
  have hbm := not_missing w hb
  -- delete the edge between the two nodes
  have st1 : ∃ ei m1, findEdge m a b = .ok ei ∧ deleteIfFound m ei = .ok m1 ∧
      Erased m m1 (fun j => joins (edgeAt m j) a b) := by
    cases findEdge_ok w ha hbm with
    | inl h =>
      refine ⟨missing, m, h.1, by simp [deleteIfFound], Erased.refl m ?_⟩
      intro j hj; exact absurd hj (h.2 j)
    | inr h =>
      obtain ⟨i, hi, h1, h2⟩ := h
      obtain ⟨m1, g, e⟩ := deleteEdge_ok hi w.edgesFit
      have him : i ≠ missing := by have := w.edgesFit; omega
      refine ⟨i, m1, h1, by simp [deleteIfFound, him, g], e.congr ?_ ?_⟩
      · intro j hj
        by_cases hji : j = i
        · exact Or.inl hji
        · exfalso
          have hne : edgeAt m i ≠ noEdge := joins_ne h2 ham
          apply sm.noDup i j (fun h => hji h.symm) hne
          simp only [joins, Prod.ext_iff] at h2 hj ⊢
          omega
      · rintro j rfl; exact Or.inl h2
  obtain ⟨ei, m1, hfe, hdel, e1⟩ := st1
  have w1 := w.erased e1
  have ha1 : a < m1.nodes.length := by rw [e1.nodes]; exact ha
  have hb1 : b < m1.nodes.length := by rw [e1.nodes]; exact hb
  obtain ⟨m2, h2, e2⟩ := mergeOuter_ok hab (listAt m1 a) w1 ha1 hb1 (fun i hi => w1.listed a i hi)
  have w2 := w1.erased e2
  have ha2 : a < m2.nodes.length := by rw [e2.nodes]; exact ha1
  have hb2 : b < m2.nodes.length := by rw [e2.nodes]; exact hb1
  have hla : listAt m1 a = listAt m a := e1.listAt a
  have hlb : listAt m2 b = listAt m b := by rw [e2.listAt, e1.listAt]
  have hla2 : listAt m2 a = listAt m a := by rw [e2.listAt, e1.listAt]
  have hcol := collectEdges_ok w2 (listAt m2 b) (fun i hi => (w2.listed b i hi).1)
  have hfst : ∀ i, (edgeAt m2 i).1 = missing → edgeAt m2 i = noEdge := by
    intro i h
    cases w2.bounds i with
    | inl h' => exact h'
    | inr h' => have := w2.nodesFit; omega
  obtain ⟨m3, h3, q1, q2, q3, q4, q5⟩ := redirect_ok (b := b) ham hbm (listAt m2 a) hfst
    (fun i hi => (w2.listed a i hi).1) (w2.nodup a)
  have hrep : ∀ e : Edge, replaceNode a b e = noEdge ↔ e = noEdge := by
    intro e
    unfold replaceNode
    split
    · rename_i h; simp only [noEdge, Prod.ext_iff]; omega
    · split
      · rename_i h; simp only [noEdge, Prod.ext_iff]; omega
      · exact Iff.rfl
  -- all edges
  have q5' : ∀ j, edgeAt m3 j = replaceNode a b (edgeAt m2 j) := by
    intro j
    rw [q5]
    split
    · rfl
    · rename_i h
      by_cases hn : edgeAt m2 j = noEdge
      · rw [(hrep _).2 hn]; exact hn
      · rw [replaceNode_not]
        intro ht
        exact h (w2.complete j a hn ht)
  have e12 : Erased m m2 (MergeGone m a b) := by
    have keepA : ∀ j o', o' ≠ b → (joins (edgeAt m1 j) a o' ↔ joins (edgeAt m j) a o') := by
      intro j o' ho'
      by_cases hj : joins (edgeAt m j) a b
      · rw [e1.gone j hj]
        constructor
        · intro h; exact absurd rfl (joins_ne h ham)
        · intro h
          exact absurd (joins_right h hj) ho'
      · rw [e1.kept j hj]
    refine e1.trans e2 ?_ ?_ ?_
    · intro j hj
      by_cases hj' : joins (edgeAt m j) a b
      · exact Or.inl hj'
      · right
        cases hj with
        | inl h => exact absurd h hj'
        | inr h =>
          obtain ⟨o, ho, hom, ⟨i, hi⟩, hjo⟩ := h
          have hi1 := (keepA i o ho).2 hi
          refine ⟨i, w1.complete i a (joins_ne hi1 ham) (joins_touches hi1).1, o, ho, hi1, ?_⟩
          rw [e1.kept j hj']; exact hjo
    · intro j hj; exact Or.inl (Or.inl hj)
    · rintro j ⟨i, hi, o, ho, hi1, hj1⟩
      by_cases hj' : joins (edgeAt m j) a b
      · exact Or.inl (Or.inl hj')
      · rw [e1.kept j hj'] at hj1
        have him := (keepA i o ho).1 hi1
        have hom : o ≠ missing := by
          rintro rfl
          cases w.bounds i with
          | inl h0 => exact joins_ne him ham h0
          | inr h0 =>
            have := w.nodesFit
            simp only [joins, Prod.ext_iff] at him
            omega
        exact Or.inl (Or.inr ⟨o, ho, hom, ⟨i, him⟩, hj1⟩)
  have hfilt : ∀ l : List Nat, l.filter (fun i => decide (edgeAt m2 i ≠ noEdge)) = l.filter (fun i => decide (edgeAt m3 i ≠ noEdge)) := by
    intro l
    apply List.filter_congr
    intro j _
    rw [q5']
    have := hrep (edgeAt m2 j)
    by_cases hn : edgeAt m2 j = noEdge
    · simp [hn, (hrep noEdge).2 rfl]
    · simp [hn, this]
  rw [hlb] at hcol
  rw [hla2] at h3
  refine ⟨{ m3 with
      nodes := m.nodes.set a none
      nodesEdges := (m.nodesEdges.set b ((listAt m b).filter (fun i => edgeAt m2 i ≠ noEdge) ++ (listAt m a).filter (fun i => edgeAt m2 i ≠ noEdge))).set a []
      numEdges := (m.numEdges.set b ((listAt m b).filter (fun i => edgeAt m2 i ≠ noEdge) ++ (listAt m a).filter (fun i => edgeAt m2 i ≠ noEdge)).length).set a 0 },
    (listAt m a).filter (fun i => edgeAt m2 i ≠ noEdge), (listAt m b).filter (fun i => edgeAt m2 i ≠ noEdge),
    ?_, rfl, ?_, rfl, rfl, ?_, ?_, ?_, ?_⟩
  · have hlen : ((listAt m b).filter (fun i => edgeAt m2 i ≠ noEdge) ++ (listAt m a).filter (fun i => edgeAt m2 i ≠ noEdge)).length ≤ maxEdgesPerNode := by
      rw [List.length_append]
      have f1 := List.length_filter_le (fun i => decide (edgeAt m2 i ≠ noEdge)) (listAt m b)
      have f2 := List.length_filter_le (fun i => decide (edgeAt m2 i ≠ noEdge)) (listAt m a)
      omega
    have n3 : m3.nodesEdges = m.nodesEdges := by rw [q2, e2.nodesEdges, e1.nodesEdges]
    have u3 : m3.numEdges = m.numEdges := by rw [q3, e2.numEdges, e1.numEdges]
    have d3 : m3.nodes = m.nodes := by rw [q1, e2.nodes, e1.nodes]
    have l1 : b < m.nodesEdges.length := by rw [w.lists]; exact hb
    have l2 : a < m.nodesEdges.length := by rw [w.lists]; exact ha
    have l3 : m.numEdges.length = m.nodesEdges.length := by rw [w.counts]; simp
    have hguard : ¬ (a ≥ m.nodes.length ∨ b ≥ m.nodes.length) := by omega
    unfold mergeTwoNodes
    rw [if_neg (by omega), if_neg hguard, if_neg hab, hfe]
    simp only [Res.ok_bind, hdel, listedEdges_ok w1 ha1, hla]
    rw [hla] at h2
    simp only [h2, Res.ok_bind, listedEdges_ok w2 hb2, hlb, hcol, h3]
    rw [if_neg (by omega)]
    rw [n3, u3]
    rw [vset_ok _ l1, vset_ok _ (by rw [l3]; exact l1)]
    simp only [Res.ok_bind]
    rw [vset_ok _ (by simpa using l2), vset_ok _ (by simpa [l3] using l2)]
    simp only [Res.ok_bind, resetNode, d3]
    rw [if_neg (by omega)]
  · rw [q4, e2.len, e1.len]
  · intro j hj
    show edgeAt m3 j = noEdge
    rw [q5', e12.gone j hj]; exact (hrep noEdge).2 rfl
  · intro j hj
    show edgeAt m3 j = _
    rw [q5', e12.kept j hj]
  · exact hfilt _
  · exact hfilt _

end Verif.Mesh
