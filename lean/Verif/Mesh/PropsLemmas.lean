import Verif.Mesh.AdminLemmas
import Verif.Mesh.MergeLemmas
import Verif.Mesh.CompactLemmas
import Verif.Mesh.AgreeLemmas
import Verif.Mesh.History
/-!
# Lemmas for the property theorems about meshes
-/
namespace Verif.Mesh
variable {P : Type}

/-! ## Executable checks of the invariants, for the examples -/

/-- Executable version of `WF`. -/
def wfCheck (m : Mesh P) : Bool :=
  decide (m.nodes.length ≤ missing) && decide (m.edges.length ≤ missing) &&
  (List.range m.edges.length).all (fun i => decide (edgeAt m i = noEdge ∨
    ((edgeAt m i).1 < m.nodes.length ∧ (edgeAt m i).2 < m.nodes.length))) &&
  decide (m.nodesEdges.length = m.nodes.length) &&
  decide (m.numEdges = m.nodesEdges.map List.length) &&
  (List.range m.nodesEdges.length).all (fun n => (listAt m n).all (fun i =>
    decide (i < m.edges.length ∧ (edgeAt m i = noEdge ∨ touches (edgeAt m i) n)))) &&
  (List.range m.nodesEdges.length).all (fun n => decide (listAt m n).Nodup) &&
  (List.range m.edges.length).all (fun i => decide (edgeAt m i = noEdge ∨
    (i ∈ listAt m (edgeAt m i).1 ∧ i ∈ listAt m (edgeAt m i).2)))

theorem edgeAt_ge {m : Mesh P} {i : Nat} (h : m.edges.length ≤ i) : edgeAt m i = noEdge := by
  unfold edgeAt; rw [List.getElem?_eq_none h]; rfl

theorem listAt_ge {m : Mesh P} {n : Nat} (h : m.nodesEdges.length ≤ n) : listAt m n = [] := by
  unfold listAt; rw [List.getElem?_eq_none h]; rfl

theorem wf_of_check {m : Mesh P} (h : wfCheck m = true) : WF m := by
  simp only [wfCheck, Bool.and_eq_true, decide_eq_true_eq, List.all_eq_true, List.mem_range] at h
  obtain ⟨⟨⟨⟨⟨⟨⟨h1, h2⟩, h3⟩, h4⟩, h5⟩, h6⟩, h7⟩, h8⟩ := h
  refine ⟨h1, h2, ?_, h4, h5, ?_, ?_, ?_⟩
  · intro i
    by_cases hi : i < m.edges.length
    · exact h3 i hi
    · exact Or.inl (edgeAt_ge (by omega))
  · intro n i hi
    by_cases hn : n < m.nodesEdges.length
    · exact h6 n hn i hi
    · rw [listAt_ge (by omega)] at hi; simp at hi
  · intro n
    by_cases hn : n < m.nodesEdges.length
    · exact h7 n hn
    · rw [listAt_ge (by omega)]; simp
  · intro i n hi ht
    have := h8 i (edgeAt_lt hi)
    rcases this with h | h
    · exact absurd h hi
    · rcases ht with ht | ht
      · rw [← ht]; exact h.1
      · rw [← ht]; exact h.2

/-- Executable version of `Simple`. -/
def simpleCheck (m : Mesh P) : Bool :=
  (List.range m.edges.length).all (fun i => decide (edgeAt m i = noEdge ∨ ((edgeAt m i).1 ≠ (edgeAt m i).2 ∧
    (List.range m.edges.length).all (fun j => decide (i = j ∨ ¬ joins (edgeAt m j) (edgeAt m i).1 (edgeAt m i).2)))))

theorem simple_of_check {m : Mesh P} (w : WF m) (h : simpleCheck m = true) : Simple m := by
  simp only [simpleCheck, decide_eq_true_eq, List.all_eq_true, List.mem_range] at h
  refine ⟨?_, ?_⟩
  · intro i hi
    rcases h i (edgeAt_lt hi) with h | h
    · exact absurd h hi
    · exact h.1
  · intro i j hij hi hj
    rcases h i (edgeAt_lt hi) with h | h
    · exact absurd h hi
    · by_cases hjl : j < m.edges.length
      · rcases h.2 j hjl with h | h
        · exact hij h
        · exact h hj
      · rw [edgeAt_ge (by omega)] at hj
        have hb := w.bounds i
        rcases hb with hb | hb
        · exact hi hb
        · have := joins_touches hj
          have h0 : (edgeAt m i).1 = missing := by
            rcases this.1 with h | h <;> exact h.symm
          have := w.nodesFit
          omega

/-! ## Drawing -/

theorem seg_noEdge {nodes : List (Option P)} (hn : nodes.length ≤ missing) : seg nodes noEdge = none := by
  unfold seg noEdge
  simp only
  rw [List.getElem?_eq_none hn]
  rfl

theorem filterMap_range {α β : Type} (l : List α) (f : α → Option β) (d : α) (n : Nat) (hn : l.length ≤ n)
    (hd : f d = none) : l.filterMap f = (List.range n).filterMap (fun i => f ((l[i]?).getD d)) := by
  induction l generalizing n with
  | nil =>
    symm
    rw [List.filterMap_nil, List.filterMap_eq_nil_iff]
    intro i _
    simpa using hd
  | cons a l ih =>
    cases n with
    | zero => simp at hn
    | succ n =>
      rw [List.range_succ_eq_map, List.filterMap_cons, List.filterMap_cons]
      simp only [List.getElem?_cons_zero, Option.getD_some]
      rw [ih n (by simpa using hn), List.filterMap_map]
      rfl

/-- The drawing depends only on the contents. -/
theorem segments_content {m m' : Mesh P} (h : content m = content m') (hn : m.nodes.length ≤ missing)
    (hn' : m'.nodes.length ≤ missing) : segments m = segments m' := by
  have he : ∀ i, edgeAt m i = edgeAt m' i := fun i => congrFun (congrArg Content.edge h) i
  have hv : ∀ i : Nat, (m.nodes[i]?).join = (m'.nodes[i]?).join := fun i => congrFun (congrArg Content.node h) i
  have hseg : ∀ e, seg m.nodes e = seg m'.nodes e := by
    intro e; unfold seg; rw [hv, hv]
  unfold segments
  rw [filterMap_range m.edges _ noEdge (max m.edges.length m'.edges.length) (by omega) (seg_noEdge hn),
    filterMap_range m'.edges _ noEdge (max m.edges.length m'.edges.length) (by omega) (seg_noEdge hn')]
  congr 1
  funext i
  have := he i
  unfold edgeAt at this
  rw [this, hseg]

theorem Used_iff {m : Mesh P} {n : Nat} : Used m n ↔ ∃ i, (seg m.nodes (edgeAt m i)).isSome ∧ i < m.edges.length ∧ touches (edgeAt m i) n := by
  constructor
  · rintro ⟨e, he, hs, ht⟩
    obtain ⟨i, hi, rfl⟩ := List.getElem_of_mem he
    refine ⟨i, ?_, hi, ?_⟩
    · simpa [edgeAt, hi] using hs
    · simpa [edgeAt, hi, touches] using ht
  · rintro ⟨i, hs, hi, ht⟩
    refine ⟨edgeAt m i, ?_, hs, ht⟩
    simp [edgeAt, hi]

theorem inBounds_of {m : Mesh P} (h : ∀ e ∈ m.edges, e.1 = missing ∨ e.2 = missing ∨ (e.1 < m.nodes.length ∧ e.2 < m.nodes.length)) :
    inBounds m = true := by
  unfold inBounds
  rw [List.all_eq_true]
  intro e he
  rcases h e he with h | h | h
  · simp [hasNodes, h]
  · simp [hasNodes, h]
  · simp [h.1, h.2]

theorem seg_bounds {nodes : List (Option P)} {e : Edge} (h : (seg nodes e).isSome) :
    e.1 < nodes.length ∧ e.2 < nodes.length := by
  unfold seg at h
  constructor
  · by_cases h1 : e.1 < nodes.length
    · exact h1
    · rw [List.getElem?_eq_none (by omega : nodes.length ≤ e.1)] at h; simp at h
  · by_cases h1 : e.2 < nodes.length
    · exact h1
    · rw [List.getElem?_eq_none (by omega : nodes.length ≤ e.2)] at h
      cases nodes[e.1]?.join <;> simp at h

theorem admin_pre {m m1 : Mesh P} (h : Manageable m) (hl : m1.edges.length = m.edges.length)
    (he : ∀ i, edgeAt m1 i = if (seg m.nodes (edgeAt m i)).isSome then edgeAt m i else noEdge) :
    AdminPre m1.edges m.nodes.length := by
  have hE : ∀ i, eAt m1.edges i = if (seg m.nodes (edgeAt m i)).isSome then edgeAt m i else noEdge := he
  have hk : ∀ i, eAt m1.edges i ≠ noEdge → (seg m.nodes (edgeAt m i)).isSome ∧ eAt m1.edges i = edgeAt m i := by
    intro i hi
    rw [hE] at hi ⊢
    by_cases hs : (seg m.nodes (edgeAt m i)).isSome
    · simp [hs]
    · simp [hs] at hi
  refine ⟨h.nodesFit, ?_, ?_, ?_, ?_⟩
  · intro i
    by_cases hi : eAt m1.edges i = noEdge
    · exact Or.inl hi
    · obtain ⟨h1, h2⟩ := hk i hi
      rw [h2]
      exact Or.inr (seg_bounds h1)
  · intro i hi
    obtain ⟨h1, h2⟩ := hk i hi
    rw [h2]; exact h.noLoop i h1
  · intro i j hij hi hj
    obtain ⟨h1, h2⟩ := hk i hi
    have hjn : eAt m1.edges j ≠ noEdge := by
      refine joins_ne hj ?_
      rw [h2]
      have := (seg_bounds h1).1
      have := h.nodesFit
      omega
    obtain ⟨h3, h4⟩ := hk j hjn
    rw [h2, h4] at hj
    exact h.noDup i j hij h1 h3 hj
  · intro n hn
    refine Nat.le_trans (Nat.le_of_eq ?_) (h.degree n hn)
    unfold incidentUpTo
    rw [← List.countP_eq_length_filter, hl]
    apply List.countP_congr
    intro i _
    rw [decide_eq_true_eq, hE]
    have hnm : n ≠ missing := by have := h.nodesFit; omega
    by_cases hs : (seg m.nodes (edgeAt m i)).isSome
    · simp [hs, touches]
    · simp [hs, touches, noEdge, Ne.symm hnm]

/-- Description of the result of administration. -/
structure Administrated (m m' : Mesh P) : Prop where
  nodes : ∀ n : Nat, (m'.nodes[n]?).join = if connected m n then (m.nodes[n]?).join else none
  nodesLen : m'.nodes.length = m.nodes.length
  edgesLen : m'.edges.length = m.edges.length
  edges : ∀ i, edgeAt m' i = if (seg m.nodes (edgeAt m i)).isSome then edgeAt m i else noEdge
  lists : m'.nodesEdges.length = m.nodes.length
  counts : m'.numEdges = m'.nodesEdges.map List.length
  mem : ∀ n i, i ∈ listAt m' n ↔ (seg m.nodes (edgeAt m i)).isSome ∧ touches (edgeAt m i) n
  nodup : ∀ n, (listAt m' n).Nodup

theorem administrate_ok {m : Mesh P} (h : Manageable m) (hn : m.nodes ≠ []) (he : m.edges ≠ [])
    (order : Nat → List Nat → List Nat)
    (ho : ∀ n l, (order n l).Perm l) : ∃ m', administrate order m = .ok m' ∧ Administrated m m' := by
  obtain ⟨m1, h1, h2, h3, h4⟩ := setUnconnectedInvalid_ok h.nodesFit (inBounds_of h.bounds)
  have hpre := admin_pre h h3 h4
  obtain ⟨a1, a2⟩ := nodeAdministration_ok hpre
  have hm1n : m1.nodes.length = m.nodes.length := by rw [h2, connectedNodes_length]
  have hm1e : m1.edges ≠ [] := by
    intro hc
    apply he
    have : m1.edges.length = 0 := by simp [hc]
    exact List.length_eq_zero_iff.1 (by omega)
  have hm1n' : m1.nodes ≠ [] := by
    intro hc
    apply hn
    have : m1.nodes.length = 0 := by simp [hc]
    exact List.length_eq_zero_iff.1 (by omega)
  unfold administrate
  simp only [h1]
  have hc1 : (m1.nodes.isEmpty || m1.edges.isEmpty) = false := by
    simp [hm1n', hm1e]
  rw [hc1]
  refine ⟨_, rfl, ?_⟩
  have hL : ∀ n, listAt ({ m1 with
        nodesEdges := (nodeAdministration m1.edges m1.nodes.length).mapIdx
          (fun n l => if validNode m1.nodes n then order n l else l),
        numEdges := ((nodeAdministration m1.edges m1.nodes.length).mapIdx
          (fun n l => if validNode m1.nodes n then order n l else l)).map List.length } : Mesh P) n |>.Perm
      (if n < m.nodes.length then incidentUpTo m1.edges n m1.edges.length else []) := by
    intro n
    unfold listAt
    simp only [List.getElem?_mapIdx]
    by_cases hlt : n < m.nodes.length
    · have h5 := a2 n hlt
      rw [← hm1n] at h5 a1
      rw [if_pos hlt]
      have hl : n < (nodeAdministration m1.edges m1.nodes.length).length := by rw [a1]; omega
      rw [List.getElem?_eq_getElem hl] at h5 ⊢
      simp only [Option.getD_some, Option.map_some] at h5 ⊢
      split
      · rw [← h5]; exact ho _ _
      · rw [h5]
    · rw [if_neg hlt]
      have hl : (nodeAdministration m1.edges m1.nodes.length).length ≤ n := by rw [hm1n, a1]; omega
      rw [List.getElem?_eq_none hl]
      simp
  refine ⟨?_, hm1n, h3, h4, ?_, rfl, ?_, ?_⟩
  · intro n
    show (m1.nodes[n]?).join = _
    rw [h2]; exact connectedNodes_get m n
  · simp only [List.length_mapIdx]
    rw [hm1n]; exact a1
  · intro n i
    rw [(hL n).mem_iff]
    by_cases hlt : n < m.nodes.length
    · rw [if_pos hlt]
      have hnm : n ≠ missing := by have := h.nodesFit; omega
      unfold incidentUpTo
      rw [List.mem_filter, List.mem_range, decide_eq_true_eq]
      have hE : eAt m1.edges i = if (seg m.nodes (edgeAt m i)).isSome then edgeAt m i else noEdge := h4 i
      rw [hE]
      by_cases hs : (seg m.nodes (edgeAt m i)).isSome
      · simp only [hs, if_true, true_and]
        constructor
        · exact fun x => x.2
        · intro x
          refine ⟨?_, x⟩
          rw [h3]
          by_cases hi : i < m.edges.length
          · exact hi
          · rw [edgeAt_ge (by omega), seg_noEdge h.nodesFit] at hs
            simp at hs
      · simp [hs, touches, noEdge, Ne.symm hnm]
    · rw [if_neg hlt]
      simp only [List.not_mem_nil, false_iff, not_and]
      intro hs ht
      have := seg_bounds hs
      rcases ht with ht | ht <;> omega
  · intro n
    rw [(hL n).nodup_iff]
    split
    · exact List.Nodup.sublist List.filter_sublist List.nodup_range
    · simp

theorem Administrated.wf {m m' : Mesh P} (h : Manageable m) (a : Administrated m m') : WF m' := by
  have hk : ∀ i, edgeAt m' i ≠ noEdge → (seg m.nodes (edgeAt m i)).isSome ∧ edgeAt m' i = edgeAt m i := by
    intro i hi
    rw [a.edges] at hi ⊢
    by_cases hs : (seg m.nodes (edgeAt m i)).isSome
    · simp [hs]
    · simp [hs] at hi
  refine ⟨by rw [a.nodesLen]; exact h.nodesFit, by rw [a.edgesLen]; exact h.edgesFit, ?_, by rw [a.lists, a.nodesLen],
    a.counts, ?_, a.nodup, ?_⟩
  · intro i
    by_cases hi : edgeAt m' i = noEdge
    · exact Or.inl hi
    · obtain ⟨h1, h2⟩ := hk i hi
      rw [h2, a.nodesLen]
      exact Or.inr (seg_bounds h1)
  · intro n i hi
    obtain ⟨h1, h2⟩ := (a.mem n i).1 hi
    refine ⟨?_, Or.inr ?_⟩
    · rw [a.edgesLen]
      by_cases hi : i < m.edges.length
      · exact hi
      · rw [edgeAt_ge (by omega), seg_noEdge h.nodesFit] at h1
        simp at h1
    · rw [a.edges, if_pos h1]; exact h2
  · intro i n hi ht
    obtain ⟨h1, h2⟩ := hk i hi
    rw [h2] at ht
    exact (a.mem n i).2 ⟨h1, ht⟩

theorem Administrated.simple {m m' : Mesh P} (h : Manageable m) (a : Administrated m m') : Simple m' := by
  have hk : ∀ i, edgeAt m' i ≠ noEdge → (seg m.nodes (edgeAt m i)).isSome ∧ edgeAt m' i = edgeAt m i := by
    intro i hi
    rw [a.edges] at hi ⊢
    by_cases hs : (seg m.nodes (edgeAt m i)).isSome
    · simp [hs]
    · simp [hs] at hi
  refine ⟨?_, ?_⟩
  · intro i hi
    obtain ⟨h1, h2⟩ := hk i hi
    rw [h2]; exact h.noLoop i h1
  · intro i j hij hi hj
    obtain ⟨h1, h2⟩ := hk i hi
    have hjn : edgeAt m' j ≠ noEdge := by
      refine joins_ne hj ?_
      rw [h2]
      have := (seg_bounds h1).1
      have := h.nodesFit
      omega
    obtain ⟨h3, h4⟩ := hk j hjn
    rw [h2, h4] at hj
    exact h.noDup i j hij h1 h3 hj

theorem Administrated.seg {m m' : Mesh P} (h : Manageable m) (a : Administrated m m') (i : Nat) :
    seg m'.nodes (edgeAt m' i) = seg m.nodes (edgeAt m i) := by
  rw [a.edges]
  by_cases hs : (Mesh.seg m.nodes (edgeAt m i)).isSome
  · rw [if_pos hs]
    have hi : i < m.edges.length := by
      by_cases hi : i < m.edges.length
      · exact hi
      · rw [edgeAt_ge (by omega), seg_noEdge h.nodesFit] at hs
        simp at hs
    have c1 : connected m (edgeAt m i).1 = true :=
      (connected_iff h.nodesFit _).2 (Used_iff.2 ⟨i, hs, hi, Or.inl rfl⟩)
    have c2 : connected m (edgeAt m i).2 = true :=
      (connected_iff h.nodesFit _).2 (Used_iff.2 ⟨i, hs, hi, Or.inr rfl⟩)
    unfold Mesh.seg
    rw [a.nodes, a.nodes, if_pos c1, if_pos c2]
  · rw [if_neg hs, seg_noEdge (by rw [a.nodesLen]; exact h.nodesFit)]
    simp at hs
    rw [hs]

theorem Administrated.segments {m m' : Mesh P} (h : Manageable m) (a : Administrated m m') :
    segments m' = segments m := by
  unfold Mesh.segments
  rw [filterMap_range m.edges _ noEdge m.edges.length (Nat.le_refl _) (seg_noEdge h.nodesFit),
    filterMap_range m'.edges _ noEdge m.edges.length (Nat.le_of_eq a.edgesLen)
      (seg_noEdge (by rw [a.nodesLen]; exact h.nodesFit))]
  congr 1
  funext i
  exact a.seg h i

theorem exists_newIndex (nodes : List (Option P)) (k : Nat) (h : k < (nodes.filter (·.isSome)).length) :
    ∃ i, newIndex nodes i = k ∧ (nodes[i]?.join).isSome := by
  induction nodes generalizing k with
  | nil => simp at h
  | cons v nodes ih =>
    by_cases hv : v.isSome
    · rw [List.filter_cons_of_pos hv, List.length_cons] at h
      cases k with
      | zero => exact ⟨0, by simp [newIndex], by simpa using hv⟩
      | succ k =>
        obtain ⟨i, h1, h2⟩ := ih k (Nat.lt_of_succ_lt_succ h)
        refine ⟨i + 1, ?_, by simpa using h2⟩
        unfold newIndex at h1 ⊢
        rw [List.take_succ_cons, List.countP_cons_of_pos hv, h1]
    · rw [List.filter_cons_of_neg hv] at h
      obtain ⟨i, h1, h2⟩ := ih k h
      refine ⟨i + 1, ?_, by simpa using h2⟩
      unfold newIndex at h1 ⊢
      rw [List.take_succ_cons, List.countP_cons_of_neg hv, h1]

theorem compacted_used {m : Mesh P} (hn : m.nodes.length ≤ missing) (k : Nat)
    (h : k < (compacted m).nodes.length) : Used (compacted m) k := by
  obtain ⟨i, h1, h2⟩ := exists_newIndex (connectedNodes m) k h
  have hc : connected m i = true := by
    rw [connectedNodes_get] at h2
    by_cases hc : connected m i
    · exact hc
    · simp [hc] at h2
  obtain ⟨e, he, hs, ht⟩ := (connected_iff hn i).1 hc
  refine ⟨(newIndex (connectedNodes m) e.1, newIndex (connectedNodes m) e.2), ?_, ?_, ?_⟩
  · rw [compacted_edges hn]
    exact List.mem_map_of_mem (f := fun e : Edge => (newIndex (connectedNodes m) e.1, newIndex (connectedNodes m) e.2))
      (List.mem_filter.2 ⟨he, hs⟩)
  · rw [seg_compacted hn he hs]; exact hs
  · rcases ht with ht | ht
    · left; rw [ht]; exact h1
    · right; rw [ht]; exact h1

theorem compacted_edge_valid {m : Mesh P} (hn : m.nodes.length ≤ missing) :
    ∀ e ∈ (compacted m).edges, (seg (compacted m).nodes e).isSome := by
  intro e he
  have : seg (compacted m).nodes e ∈ (compacted m).edges.map (seg (compacted m).nodes) := List.mem_map_of_mem he
  rw [compacted_segments hn] at this
  rw [List.mem_map] at this
  obtain ⟨e', he', heq⟩ := this
  rw [List.mem_filter] at he'
  rw [← heq]; exact he'.2

theorem compacted_fixed {m : Mesh P} (hn : m.nodes.length ≤ missing) :
    deleteInvalid (compacted m) = .ok (compacted m) := by
  have hl : (compacted m).nodes.length ≤ missing := by
    have : (compacted m).nodes.length ≤ (connectedNodes m).length := List.length_filter_le _ _
    rw [connectedNodes_length] at this
    omega
  have hv := compacted_edge_valid hn
  have h1 : numInvalidEdges (compacted m) = 0 := by
    unfold numInvalidEdges
    rw [List.countP_eq_zero]
    intro e he
    rw [validEdge_iff_seg hl]
    simp [hv e he]
  have h2 : numInvalidNodes (compacted m) = 0 := by
    unfold numInvalidNodes
    rw [List.countP_eq_zero]
    intro v hvm
    obtain ⟨k, hk, rfl⟩ := List.getElem_of_mem hvm
    have hk' : k < (compacted m).nodes.length := by rw [connectedNodes_length] at hk; exact hk
    have hc := (connected_iff hl k).2 (compacted_used hn k hk')
    have hg : (connectedNodes (compacted m))[k] = (compacted m).nodes[k] := by
      simp [connectedNodes, hc]
    rw [hg]
    have : (compacted m).nodes[k] ∈ (connectedNodes m).filter (·.isSome) := List.getElem_mem hk'
    simp [(List.mem_filter.1 this).2]
  have hb : inBounds (compacted m) = true := inBounds_of (fun e he => Or.inr (Or.inr (seg_bounds (hv e he))))
  unfold deleteInvalid
  simp only [hb, Bool.not_true, Bool.false_eq_true, if_false, h1, h2, and_self, if_true]
  rw [connectedNodes_of_counts h2]

/-! ## Joining -/

theorem filterMap_congr' {α β : Type} (l : List α) (f g : α → Option β) (h : ∀ a ∈ l, f a = g a) :
    l.filterMap f = l.filterMap g := by
  induction l with
  | nil => rfl
  | cons a l ih =>
    rw [List.filterMap_cons, List.filterMap_cons, h a (by simp), ih (fun b hb => h b (by simp [hb]))]

theorem seg_append_left {n1 n2 : List (Option P)} {e : Edge} (h : e = noEdge ∨ (e.1 < n1.length ∧ e.2 < n1.length))
    (hl : n1.length + n2.length ≤ missing) :
    seg (n1 ++ n2) e = seg n1 e := by
  rcases h with rfl | h
  · rw [seg_noEdge (by rw [List.length_append]; exact hl), seg_noEdge (by omega)]
  · unfold seg
    rw [List.getElem?_append_left h.1, List.getElem?_append_left h.2]

theorem seg_append_right {n1 n2 : List (Option P)} {e : Edge} :
    seg (n1 ++ n2) (e.1 + n1.length, e.2 + n1.length) = seg n2 e := by
  unfold seg
  simp only
  rw [List.getElem?_append_right (by omega), List.getElem?_append_right (by omega)]
  simp

end Verif.Mesh
