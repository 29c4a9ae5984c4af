import Verif.Mesh.EditLemmas
/-!
# Consequences of merging two nodes
-/
namespace Verif.Mesh
variable {P : Type}

theorem replaceNode_touches {a b : Nat} (hab : a ≠ b) {e : Edge} (hl : e.1 ≠ e.2) :
    ¬ touches (replaceNode a b e) a := by
  simp only [touches, replaceNode]
  split
  · simp only; omega
  · split
    · simp only; omega
    · omega

theorem replaceNode_joins {a b : Nat} (hab : a ≠ b) {e : Edge} (hl : e.1 ≠ e.2) (hn : ¬ joins e a b) {x y : Nat} :
    joins (replaceNode a b e) x y ↔
      (x ≠ a ∧ y ≠ a) ∧ (joins e x y ∨ (x = b ∧ joins e a y) ∨ (y = b ∧ joins e x a)) := by
  obtain ⟨e1, e2⟩ := e
  simp only [joins, replaceNode, Prod.mk.injEq] at *
  split
  · simp only [Prod.mk.injEq]; omega
  · split
    · simp only [Prod.mk.injEq]; omega
    · simp only [Prod.mk.injEq]; omega

theorem joins_self {e : Edge} : joins e e.1 e.2 := Or.inl rfl

theorem listAt_set {m m' : Mesh P} {n k : Nat} {l : List Nat} (h : m'.nodesEdges = m.nodesEdges.set n l)
    (hn : n < m.nodesEdges.length) : listAt m' k = if k = n then l else listAt m k := by
  unfold listAt
  rw [h]
  by_cases hk : k = n
  · subst hk; simp [hn]
  · simp [Ne.symm hk, hk]

structure Merged (m m' : Mesh P) (a b : Nat) : Prop where
  nodes : m'.nodes = m.nodes.set a none
  len : m'.edges.length = m.edges.length
  gone : ∀ j, MergeGone m a b j → edgeAt m' j = noEdge
  kept : ∀ j, ¬ MergeGone m a b j → edgeAt m' j = replaceNode a b (edgeAt m j)
  nodesEdges : m'.nodesEdges = (m.nodesEdges.set b
    ((listAt m b).filter (fun i => edgeAt m' i ≠ noEdge) ++ (listAt m a).filter (fun i => edgeAt m' i ≠ noEdge))).set a []
  numEdges : m'.numEdges = (m.numEdges.set b
    ((listAt m b).filter (fun i => edgeAt m' i ≠ noEdge) ++ (listAt m a).filter (fun i => edgeAt m' i ≠ noEdge)).length).set a 0

theorem mergeTwoNodes_merged {m : Mesh P} (w : WF m) (sm : Simple m) {a b : Nat} (ha : a < m.nodes.length)
    (hb : b < m.nodes.length) (hab : a ≠ b)
    (hcap : (listAt m a).length + (listAt m b).length ≤ maxEdgesPerNode) :
    ∃ m', mergeTwoNodes m a b = .ok m' ∧ Merged m m' a b := by
  obtain ⟨m', la, lb, h1, h2, h3, h4, h5, h6, h7, h8, h9⟩ := mergeTwoNodes_ok w sm ha hb hab hcap
  subst h8 h9
  exact ⟨m', h1, ⟨h2, h3, h6, h7, h4, h5⟩⟩

theorem replaceNode_ne {a b : Nat} (hb : b ≠ missing) {e : Edge} (h : e ≠ noEdge) (ha : a ≠ missing) :
    replaceNode a b e ≠ noEdge := by
  unfold replaceNode
  split
  · simp only [noEdge, Prod.ext_iff, ne_eq] at *; omega
  · split
    · simp only [noEdge, Prod.ext_iff, ne_eq] at *; omega
    · exact h

theorem replaceNode_noEdge {a b : Nat} (ha : a ≠ missing) : replaceNode a b noEdge = noEdge := by
  simp [replaceNode, noEdge, Ne.symm ha]

theorem Merged.edge {m m' : Mesh P} {a b : Nat} (h : Merged m m' a b) (ha : a ≠ missing) {j : Nat}
    (hj : edgeAt m' j ≠ noEdge) :
    ¬ MergeGone m a b j ∧ edgeAt m j ≠ noEdge ∧ edgeAt m' j = replaceNode a b (edgeAt m j) := by
  have h1 : ¬ MergeGone m a b j := fun hg => hj (h.gone j hg)
  have h2 := h.kept j h1
  refine ⟨h1, ?_, h2⟩
  intro h3
  rw [h3, replaceNode_noEdge ha] at h2
  exact hj h2

theorem Merged.adj {m m' : Mesh P} {a b : Nat} (h : Merged m m' a b) (w : WF m) (sm : Simple m)
    (ha : a < m.nodes.length) (hb : b < m.nodes.length) (hab : a ≠ b) (x y : Nat) :
    Adj m' x y ↔ x ≠ a ∧ y ≠ a ∧ x ≠ y ∧ (Adj m x y ∨ (x = b ∧ Adj m a y) ∨ (y = b ∧ Adj m x a)) := by
  have ham := not_missing w ha
  have hbm := not_missing w hb
  constructor
  · rintro ⟨hx, hy, j, hj⟩
    obtain ⟨h1, h2, h3⟩ := h.edge ham (joins_ne hj hx)
    have hl := sm.noLoop j h2
    have hnj : ¬ joins (edgeAt m j) a b := fun q => h1 (Or.inl q)
    rw [h3, replaceNode_joins hab hl hnj] at hj
    refine ⟨hj.1.1, hj.1.2, ?_, ?_⟩
    · rintro rfl
      rcases hj.2 with q | ⟨rfl, q⟩ | ⟨rfl, q⟩
      · simp only [joins, Prod.ext_iff] at q; omega
      · exact hnj q
      · exact hnj (joins_comm.1 q)
    · rcases hj.2 with q | ⟨e, q⟩ | ⟨e, q⟩
      · exact Or.inl ⟨hx, hy, j, q⟩
      · exact Or.inr (Or.inl ⟨e, ham, hy, j, q⟩)
      · exact Or.inr (Or.inr ⟨e, hx, ham, j, q⟩)
  · rintro ⟨hxa, hya, hxy, hadj⟩
    -- an edge of `a` survives unless its other end is `b`
    have keepA : ∀ j o, o ≠ b → o ≠ a → joins (edgeAt m j) a o → joins (edgeAt m' j) b o := by
      intro j o ho hoa hj
      have hng : ¬ MergeGone m a b j := by
        rintro (q | ⟨o', ho', _, _, q⟩)
        · simp only [joins, Prod.ext_iff] at q hj; omega
        · simp only [joins, Prod.ext_iff] at q hj; omega
      have hl := sm.noLoop j (joins_ne hj ham)
      rw [h.kept j hng, replaceNode_joins hab hl (fun q => hng (Or.inl q))]
      exact ⟨⟨fun q => hab q.symm, hoa⟩, Or.inr (Or.inl ⟨rfl, hj⟩)⟩
    -- an edge of `b` survives, or is replaced by an edge of `a`
    have keepB : ∀ j o, o ≠ b → o ≠ a → o ≠ missing → joins (edgeAt m j) b o → ∃ j', joins (edgeAt m' j') b o := by
      intro j o ho hoa hom hj
      by_cases hdup : ∃ i, joins (edgeAt m i) a o
      · obtain ⟨i, hi⟩ := hdup
        exact ⟨i, keepA i o ho hoa hi⟩
      · refine ⟨j, ?_⟩
        have hng : ¬ MergeGone m a b j := by
          rintro (q | ⟨o', ho', _, hi, q⟩)
          · simp only [joins, Prod.ext_iff] at q hj; omega
          · have : o' = o := joins_right (joins_comm.1 q) hj
            subst this
            exact hdup hi
        have hl := sm.noLoop j (joins_ne hj hbm)
        rw [h.kept j hng, replaceNode_joins hab hl (fun q => hng (Or.inl q))]
        exact ⟨⟨fun q => hab q.symm, hoa⟩, Or.inl hj⟩
    rcases hadj with ⟨hx, hy, j, hj⟩ | ⟨rfl, _, hy, j, hj⟩ | ⟨rfl, hx, _, j, hj⟩
    · refine ⟨hx, hy, ?_⟩
      by_cases hxb : x = b
      · subst hxb
        exact keepB j y (fun q => hxy q.symm) hya hy hj
      · by_cases hyb : y = b
        · subst hyb
          obtain ⟨j', hj'⟩ := keepB j x hxy hxa hx (joins_comm.1 hj)
          exact ⟨j', joins_comm.1 hj'⟩
        · refine ⟨j, ?_⟩
          have hng : ¬ MergeGone m a b j := by
            rintro (q | ⟨o', ho', _, hi, q⟩)
            · simp only [joins, Prod.ext_iff] at q hj; omega
            · simp only [joins, Prod.ext_iff] at q hj; omega
          have hl := sm.noLoop j (joins_ne hj hx)
          rw [h.kept j hng, replaceNode_joins hab hl (fun q => hng (Or.inl q))]
          exact ⟨⟨hxa, hya⟩, Or.inl hj⟩
    · exact ⟨hbm, hy, j, keepA j y (fun q => hxy q.symm) hya hj⟩
    · exact ⟨hx, hbm, j, joins_comm.1 (keepA j x hxy hxa (joins_comm.1 hj))⟩

theorem Merged.simple {m m' : Mesh P} {a b : Nat} (h : Merged m m' a b) (w : WF m) (sm : Simple m)
    (ha : a < m.nodes.length) (hab : a ≠ b) : Simple m' := by
  have ham := not_missing w ha
  refine ⟨?_, ?_⟩
  · intro j hj
    obtain ⟨h1, h2, h3⟩ := h.edge ham hj
    have hl := sm.noLoop j h2
    have hnj : ¬ joins (edgeAt m j) a b := fun q => h1 (Or.inl q)
    rw [h3]
    intro he
    have hs := joins_self (e := replaceNode a b (edgeAt m j))
    rw [← he] at hs
    rw [replaceNode_joins hab hl hnj] at hs
    rcases hs.2 with q | ⟨e, q⟩ | ⟨e, q⟩
    · simp only [joins, Prod.ext_iff] at q; omega
    · rw [e] at q; exact hnj q
    · rw [e] at q; exact hnj (joins_comm.1 q)
  · intro i j hij hi hj
    obtain ⟨i1, i2, i3⟩ := h.edge ham hi
    have hjn : edgeAt m' j ≠ noEdge := by
      intro hq
      rw [hq] at hj
      apply hi
      simp only [joins, noEdge, Prod.ext_iff] at hj ⊢
      omega
    obtain ⟨j1, j2, j3⟩ := h.edge ham hjn
    have hli := sm.noLoop i i2
    have hlj := sm.noLoop j j2
    have hni : ¬ joins (edgeAt m i) a b := fun q => i1 (Or.inl q)
    have hnj : ¬ joins (edgeAt m j) a b := fun q => j1 (Or.inl q)
    have hs : joins (edgeAt m' i) (edgeAt m' i).1 (edgeAt m' i).2 := joins_self
    generalize (edgeAt m' i).1 = x at *
    generalize (edgeAt m' i).2 = y at *
    rw [i3, replaceNode_joins hab hli hni] at hs
    rw [j3, replaceNode_joins hab hlj hnj] at hj
    -- two edges of `m` joining the same nodes are impossible
    have clash : ∀ p q, joins (edgeAt m i) p q → joins (edgeAt m j) p q → False := by
      intro p q h1 h2
      apply sm.noDup i j hij i2
      simp only [joins, Prod.ext_iff] at h1 h2 ⊢
      omega
    -- an edge {a,y} together with an edge {b,y}: the latter was deleted
    have dup : ∀ k k' y, y ≠ b → joins (edgeAt m k) a y → joins (edgeAt m k') y b → MergeGone m a b k' := by
      intro k k' y hy h1 h2
      refine Or.inr ⟨y, hy, ?_, ⟨k, h1⟩, h2⟩
      intro hm
      subst hm
      cases w.bounds k with
      | inl h0 => exact joins_ne h1 ham h0
      | inr h0 =>
        have := w.nodesFit
        simp only [joins, Prod.ext_iff] at h1
        omega
    rcases hs.2 with q | ⟨e, q⟩ | ⟨e, q⟩ <;> rcases hj.2 with r | ⟨f, r⟩ | ⟨f, r⟩
    · exact clash _ _ q r
    · subst f
      by_cases hy : y = x
      · subst hy; exact hnj r
      · exact i1 (dup j i y hy r (joins_comm.1 q))
    · subst f
      by_cases hx : x = y
      · subst hx; exact hnj (joins_comm.1 r)
      · exact i1 (dup j i x hx (joins_comm.1 r) q)
    · subst e
      by_cases hy : y = x
      · subst hy; exact hni q
      · exact j1 (dup i j y hy q (joins_comm.1 r))
    · exact clash _ _ q r
    · subst e f
      exact hni q
    · subst e
      by_cases hx : x = y
      · subst hx; exact hni (joins_comm.1 q)
      · exact j1 (dup i j x hx (joins_comm.1 q) r)
    · subst e f
      exact hni (joins_comm.1 q)
    · exact clash _ _ q r

theorem replaceNode_touches_iff {a b : Nat} (hab : a ≠ b) {e : Edge} (hl : e.1 ≠ e.2) (hn : ¬ joins e a b) {n : Nat} :
    touches (replaceNode a b e) n ↔ n ≠ a ∧ (touches e n ∨ (n = b ∧ touches e a)) := by
  obtain ⟨e1, e2⟩ := e
  simp only [joins, touches, replaceNode, Prod.mk.injEq] at *
  split
  · simp only; omega
  · split
    · simp only; omega
    · simp only; omega

theorem Merged.listAt {m m' : Mesh P} {a b : Nat} (h : Merged m m' a b) (w : WF m)
    (ha : a < m.nodes.length) (hb : b < m.nodes.length) (n : Nat) :
    listAt m' n = if n = a then [] else if n = b then
      (listAt m b).filter (fun i => edgeAt m' i ≠ noEdge) ++ (listAt m a).filter (fun i => edgeAt m' i ≠ noEdge)
      else listAt m n := by
  have la : a < m.nodesEdges.length := by rw [w.lists]; exact ha
  have lb : b < m.nodesEdges.length := by rw [w.lists]; exact hb
  unfold Mesh.listAt
  rw [h.nodesEdges]
  by_cases h1 : n = a
  · subst h1; simp [la]
  · by_cases h2 : n = b
    · subst h2; simp [Ne.symm h1, h1, lb, Mesh.listAt]
    · simp [Ne.symm h1, h1, Ne.symm h2, h2]

theorem Merged.wf {m m' : Mesh P} {a b : Nat} (h : Merged m m' a b) (w : WF m) (sm : Simple m)
    (ha : a < m.nodes.length) (hb : b < m.nodes.length) (hab : a ≠ b) : WF m' := by
  have ham := not_missing w ha
  have hbm := not_missing w hb
  have hL := h.listAt w ha hb
  refine ⟨?_, ?_, ?_, ?_, ?_, ?_, ?_, ?_⟩
  · rw [h.nodes]; simpa using w.nodesFit
  · rw [h.len]; exact w.edgesFit
  · intro i
    by_cases hi : edgeAt m' i = noEdge
    · exact Or.inl hi
    · obtain ⟨i1, i2, i3⟩ := h.edge ham hi
      right
      rw [i3, h.nodes]
      have := w.bounds i
      cases this with
      | inl q => exact absurd q i2
      | inr q =>
        unfold replaceNode
        simp only [List.length_set]
        split
        · exact ⟨hb, q.2⟩
        · split
          · exact ⟨q.1, hb⟩
          · exact q
  · rw [h.nodesEdges, h.nodes]; simpa using w.lists
  · rw [h.numEdges, h.nodesEdges, w.counts, List.map_set, List.map_set]; rfl
  · intro n i hi
    rw [hL] at hi
    have lem : ∀ n', i ∈ Mesh.listAt m n' → (n' = a ∧ n = b ∨ n' = n ∧ n ≠ a) →
        i < m'.edges.length ∧ (edgeAt m' i = noEdge ∨ touches (edgeAt m' i) n) := by
      intro n' hin hnn
      have hl := w.listed n' i hin
      refine ⟨by rw [h.len]; exact hl.1, ?_⟩
      by_cases hno : edgeAt m' i = noEdge
      · exact Or.inl hno
      · obtain ⟨i1, i2, i3⟩ := h.edge ham hno
        right
        rw [i3, replaceNode_touches_iff hab (sm.noLoop i i2) (fun q => i1 (Or.inl q))]
        cases hl.2 with
        | inl q => exact absurd q i2
        | inr q =>
          rcases hnn with ⟨r1, r2⟩ | ⟨r1, r2⟩
          · subst r1 r2; exact ⟨fun q => hab q.symm, Or.inr ⟨rfl, q⟩⟩
          · subst r1; exact ⟨r2, Or.inl q⟩
    by_cases h1 : n = a
    · rw [if_pos h1] at hi; simp at hi
    · rw [if_neg h1] at hi
      by_cases h2 : n = b
      · rw [if_pos h2, List.mem_append] at hi
        cases hi with
        | inl q => exact lem b (List.mem_filter.1 q).1 (Or.inr ⟨h2.symm, h1⟩)
        | inr q => exact lem a (List.mem_filter.1 q).1 (Or.inl ⟨rfl, h2⟩)
      · rw [if_neg h2] at hi
        exact lem n hi (Or.inr ⟨rfl, h1⟩)
  · intro n
    rw [hL]
    split
    · simp
    · split
      · rw [List.nodup_append]
        refine ⟨(w.nodup b).filter _, (w.nodup a).filter _, ?_⟩
        intro x hx y hy hxy
        subst hxy
        rw [List.mem_filter] at hx hy
        have hxn : edgeAt m' x ≠ noEdge := by simpa using hx.2
        obtain ⟨i1, i2, i3⟩ := h.edge ham hxn
        have t1 := (w.listed b x hx.1).2
        have t2 := (w.listed a x hy.1).2
        cases t1 with
        | inl q => exact i2 q
        | inr q =>
          cases t2 with
          | inl q => exact i2 q
          | inr q' =>
            apply i1; left
            simp only [touches, joins, Prod.ext_iff] at *
            omega
      · exact w.nodup n
  · intro i n hi ht
    obtain ⟨i1, i2, i3⟩ := h.edge ham hi
    rw [i3, replaceNode_touches_iff hab (sm.noLoop i i2) (fun q => i1 (Or.inl q))] at ht
    rw [hL, if_neg ht.1]
    by_cases h2 : n = b
    · rw [if_pos h2, List.mem_append, List.mem_filter, List.mem_filter]
      rcases ht.2 with q | ⟨_, q⟩
      · left; subst h2; exact ⟨w.complete i n i2 q, by simpa using hi⟩
      · right; exact ⟨w.complete i a i2 q, by simpa using hi⟩
    · rw [if_neg h2]
      rcases ht.2 with q | ⟨r, q⟩
      · exact w.complete i n i2 q
      · exact absurd r h2

end Verif.Mesh
