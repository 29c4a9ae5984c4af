import Verif.Mesh.Spec
/-!
# Lemmas about compaction
-/
namespace Verif.Mesh
variable {P : Type}

theorem filter_getElem_countP {α : Type} (p : α → Bool) (l : List α) (i : Nat) (a : α)
    (h : l[i]? = some a) (ha : p a = true) :
    (l.filter p)[(l.take i).countP p]? = some a := by
  induction l generalizing i with
  | nil => simp at h
  | cons b l ih =>
    cases i with
    | zero =>
      simp at h
      subst h
      simp [ha]
    | succ i =>
      simp at h
      have := ih i h
      by_cases hb : p b = true
      · simp [hb, this]
      · simp [hb, this]

theorem validEdge_iff_seg {nodes : List (Option P)} {e : Edge} (hn : nodes.length ≤ missing) :
    validEdge nodes e = (seg nodes e).isSome := by
  have key : ∀ i, i = missing → nodes[i]?.join = none := by
    intro i hi
    have : nodes[i]? = none := by simp; omega
    simp [this]
  unfold validEdge hasNodes validNode seg
  by_cases h1 : e.1 = missing
  · simp [key missing rfl, h1]
  · by_cases h2 : e.2 = missing
    · cases h3 : nodes[e.1]?.join <;> simp [key missing rfl, h2]
    · cases h3 : nodes[e.1]?.join <;> cases h4 : nodes[e.2]?.join <;> simp [h1, h2]

theorem connected_iff {m : Mesh P} (hn : m.nodes.length ≤ missing) (i : Nat) :
    connected m i = true ↔ Used m i := by
  simp [connected, Used, validEdge_iff_seg hn]

theorem connectedNodes_get (m : Mesh P) (i : Nat) :
    (connectedNodes m)[i]?.join = if connected m i then m.nodes[i]?.join else none := by
  simp only [connectedNodes, List.getElem?_mapIdx]
  cases m.nodes[i]? <;> simp

theorem connectedNodes_length (m : Mesh P) : (connectedNodes m).length = m.nodes.length := by
  simp [connectedNodes]

theorem seg_connectedNodes {m : Mesh P} (hn : m.nodes.length ≤ missing) {e : Edge} (he : e ∈ m.edges) :
    seg (connectedNodes m) e = seg m.nodes e := by
  by_cases hv : (seg m.nodes e).isSome
  · have h1 : connected m e.1 = true := (connected_iff hn _).2 ⟨e, he, hv, Or.inl rfl⟩
    have h2 : connected m e.2 = true := (connected_iff hn _).2 ⟨e, he, hv, Or.inr rfl⟩
    simp [seg, connectedNodes_get, h1, h2]
  · have : seg m.nodes e = none := by simpa using hv
    rw [this]
    unfold seg at this ⊢
    simp only [connectedNodes_get]
    split at this
    · simp at this
    · rename_i h
      split
      · rename_i a b ha hb
        exfalso
        by_cases c1 : connected m e.1 = true <;> by_cases c2 : connected m e.2 = true <;>
          simp only [c1, c2, if_true] at ha hb
        · exact h a b ha hb
        all_goals simp at ha hb
      · rfl

theorem connectedNodes_of_counts {m : Mesh P} (h : numInvalidNodes m = 0) :
    connectedNodes m = m.nodes := by
  unfold numInvalidNodes at h
  rw [List.countP_eq_zero] at h
  unfold connectedNodes at *
  apply List.ext_getElem?
  intro i
  simp only [List.getElem?_mapIdx]
  cases hi : m.nodes[i]? with
  | none => simp
  | some v =>
    simp
    intro hc
    have hlt : i < m.nodes.length := (List.getElem?_eq_some_iff.1 hi).1
    have := h ((m.nodes.mapIdx (fun i v => if connected m i then v else none))[i]'(by simpa using hlt))
      (List.getElem_mem _)
    simp [hc] at this

/-- The result of `deleteInvalid` without the early return. -/
def compacted (m : Mesh P) : Mesh P :=
  { m with
    nodes := (connectedNodes m).filter (·.isSome)
    edges := (m.edges.map (fun e =>
      if validEdge (connectedNodes m) e then (newIndex (connectedNodes m) e.1, newIndex (connectedNodes m) e.2)
      else noEdge)).filter hasNodes }

theorem newIndex_lt {nodes : List (Option P)} {i : Nat} (h : validNode nodes i = true) :
    newIndex nodes i < nodes.length := by
  have h1 : i < nodes.length := by
    unfold validNode at h
    by_cases hi : i < nodes.length
    · exact hi
    · have : nodes[i]? = none := by simp; omega
      simp [this] at h
  have h2 : newIndex nodes i ≤ (nodes.take i).length := List.countP_le_length
  simp at h2
  omega

theorem newIndex_get {nodes : List (Option P)} {i : Nat} {p : P} (h : nodes[i]?.join = some p) :
    (nodes.filter (·.isSome))[newIndex nodes i]?.join = some p := by
  have h1 : nodes[i]? = some (some p) := by
    cases hi : nodes[i]? with
    | none => simp [hi] at h
    | some v => simp [hi] at h; simp [h]
  rw [newIndex, filter_getElem_countP _ _ _ _ h1 rfl]
  rfl

theorem newIndex_all {nodes : List (Option P)} (h : ∀ v ∈ nodes, v.isSome) {i : Nat} (hi : i ≤ nodes.length) :
    newIndex nodes i = i := by
  unfold newIndex
  rw [List.countP_eq_length.2]
  · simp; omega
  · intro v hv
    exact h v (List.mem_of_mem_take hv)

/-- Edges of the compacted mesh: the renumbered valid edges. -/
theorem compacted_edges {m : Mesh P} (hn : m.nodes.length ≤ missing) :
    (compacted m).edges = (m.edges.filter (fun e => (seg m.nodes e).isSome)).map
      (fun e => (newIndex (connectedNodes m) e.1, newIndex (connectedNodes m) e.2)) := by
  unfold compacted
  simp only
  have : ∀ l : List Edge, (∀ e ∈ l, e ∈ m.edges) →
      (l.map (fun e => if validEdge (connectedNodes m) e then
        (newIndex (connectedNodes m) e.1, newIndex (connectedNodes m) e.2) else noEdge)).filter hasNodes =
      (l.filter (fun e => (seg m.nodes e).isSome)).map
      (fun e => (newIndex (connectedNodes m) e.1, newIndex (connectedNodes m) e.2)) := by
    intro l hl
    induction l with
    | nil => rfl
    | cons e l ih =>
      have ih' := ih (fun x hx => hl x (by simp [hx]))
      have hv : validEdge (connectedNodes m) e = (seg m.nodes e).isSome := by
        rw [validEdge_iff_seg (by rw [connectedNodes_length]; exact hn), seg_connectedNodes hn (hl e (by simp))]
      by_cases hs : (seg m.nodes e).isSome
      · have hve : validEdge (connectedNodes m) e = true := by rw [hv, hs]
        have h12 : validNode (connectedNodes m) e.1 = true ∧ validNode (connectedNodes m) e.2 = true := by
          unfold validEdge at hve
          simp only [Bool.and_eq_true] at hve
          exact ⟨hve.1.2, hve.2⟩
        have a1 := newIndex_lt h12.1
        have a2 := newIndex_lt h12.2
        rw [connectedNodes_length] at a1 a2
        have hh : hasNodes (newIndex (connectedNodes m) e.1, newIndex (connectedNodes m) e.2) = true := by
          simp [hasNodes]; omega
        simp only [List.map_cons, hve, if_true, List.filter_cons, hh, hs]
        rw [ih']
      · have hve : validEdge (connectedNodes m) e = false := by rw [hv]; simpa using hs
        simp only [List.map_cons, hve, List.filter_cons, hs]
        simpa [hasNodes, noEdge] using ih'
  exact this _ (fun _ h => h)

theorem deleteInvalid_eq {m m' : Mesh P} (hn : m.nodes.length ≤ missing) (h : deleteInvalid m = .ok m') :
    m' = compacted m := by
  unfold deleteInvalid at h
  split at h
  · simp at h
  · simp only at h
    split at h
    · rename_i hc
      obtain ⟨hE, hN⟩ := hc
      simp at h
      have hcn := connectedNodes_of_counts hN
      have hall : ∀ v ∈ connectedNodes m, v.isSome := by
        unfold numInvalidNodes at hN
        rw [List.countP_eq_zero] at hN
        intro v hv
        have := hN v hv
        cases v <;> simp_all
      have hfilter : (connectedNodes m).filter (·.isSome) = connectedNodes m := by
        rw [List.filter_eq_self]; exact hall
      have hvalid : ∀ e ∈ m.edges, (seg m.nodes e).isSome := by
        unfold numInvalidEdges at hE
        rw [List.countP_eq_zero] at hE
        intro e he
        have := hE e he
        rw [validEdge_iff_seg hn] at this
        cases hs : seg m.nodes e <;> simp_all
      have hedges := compacted_edges hn
      have h3 : (compacted m).edges = m.edges := by
        rw [hedges, List.filter_eq_self.2 hvalid]
        apply List.ext_getElem?
        intro i
        simp only [List.getElem?_map]
        cases hi : m.edges[i]? with
        | none => rfl
        | some e =>
          have he : e ∈ m.edges := List.mem_of_getElem? hi
          have hv := hvalid e he
          have hve : validEdge m.nodes e = true := by rw [validEdge_iff_seg hn]; exact hv
          unfold validEdge at hve
          simp only [Bool.and_eq_true] at hve
          have lt : ∀ j, validNode m.nodes j = true → j ≤ m.nodes.length := by
            intro j hj
            by_cases hjl : j ≤ m.nodes.length
            · exact hjl
            · have : m.nodes[j]? = none := by simp; omega
              simp [validNode, this] at hj
          simp only [Option.map_some]
          rw [newIndex_all hall (by rw [connectedNodes_length]; exact lt _ hve.1.2),
            newIndex_all hall (by rw [connectedNodes_length]; exact lt _ hve.2)]
      rw [← h]
      show _ = ({ m with nodes := (compacted m).nodes, edges := (compacted m).edges } : Mesh P)
      rw [h3]
      show _ = ({ m with nodes := (connectedNodes m).filter (·.isSome) } : Mesh P)
      rw [hfilter]
    · simp at h
      exact h.symm

theorem seg_compacted {m : Mesh P} (hn : m.nodes.length ≤ missing) {e : Edge} (he : e ∈ m.edges)
    (hs : (seg m.nodes e).isSome) :
    seg (compacted m).nodes (newIndex (connectedNodes m) e.1, newIndex (connectedNodes m) e.2) = seg m.nodes e := by
  have h0 := seg_connectedNodes hn he
  rw [← h0] at hs ⊢
  unfold seg at hs ⊢
  cases h1 : (connectedNodes m)[e.1]?.join with
  | none => simp [h1] at hs
  | some a =>
    cases h2 : (connectedNodes m)[e.2]?.join with
    | none => simp [h1, h2] at hs
    | some b =>
      have e1 := newIndex_get h1
      have e2 := newIndex_get h2
      simp only [compacted, e1, e2]

theorem compacted_segments {m : Mesh P} (hn : m.nodes.length ≤ missing) :
    (compacted m).edges.map (seg (compacted m).nodes) =
      (m.edges.filter (fun e => (seg m.nodes e).isSome)).map (seg m.nodes) := by
  rw [compacted_edges hn, List.map_map]
  apply List.map_congr_left
  intro e he
  rw [List.mem_filter] at he
  exact seg_compacted hn he.1 he.2

end Verif.Mesh
