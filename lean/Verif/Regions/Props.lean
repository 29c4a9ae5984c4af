import Verif.Regions.RemoveLemmas
import Verif.Mesh.PropsLemmas
/-!
# Properties of removing disconnected regions (C27)
-/
namespace Verif.Regions
open Verif.Mesh
variable {P : Type}

/-! ## Example -/

/-- Two triangles sharing an edge, and a separate triangle. -/
def islands : FaceMesh (Int × Int) where
  mesh :=
    { nodes := [some (0, 0), some (1, 0), some (0, 1), some (1, 1), some (5, 0), some (6, 0), some (5, 1)]
      edges := [(0, 1), (1, 2), (2, 0), (1, 3), (3, 2), (4, 5), (5, 6), (6, 4)]
      nodesEdges := [[0, 2], [0, 1, 3], [1, 2, 4], [3, 4], [5, 7], [5, 6], [6, 7]]
      numEdges := [2, 3, 3, 2, 2, 2, 2] }
  facesEdges := [[5, 6, 7], [0, 1, 2], [3, 4, 1]]
  edgesFaces := [(1, missing), (1, 2), (1, missing), (2, missing), (2, missing), (0, missing), (0, missing),
    (0, missing)]

/-- A check of `Tables`. -/
def checkTables (fe : List (List Nat)) (ef : List (Nat × Nat)) : Bool :=
  decide (fe.length < missing) &&
  ef.all (fun p => (p.1 == missing || decide (p.1 < fe.length)) && (p.2 == missing || decide (p.2 < fe.length))) &&
  fe.all (fun es => es.all (fun e => decide (e < ef.length))) &&
  (List.range fe.length).all (fun f => (List.range ef.length).all (fun e =>
    decide (e ∈ fe[f]?.getD []) == (match ef[e]? with
      | some p => p.1 == f || p.2 == f
      | none => false)))

theorem tables_of_check {fe : List (List Nat)} {ef : List (Nat × Nat)} (h : checkTables fe ef = true) :
    Tables fe ef := by
  simp only [checkTables, Bool.and_eq_true, List.all_eq_true, Bool.or_eq_true, beq_iff_eq, decide_eq_true_eq,
    List.mem_range] at h
  obtain ⟨⟨⟨h1, h2⟩, h3⟩, h4⟩ := h
  refine ⟨h1, ?_, ?_, ?_⟩
  · intro e p hp
    exact h2 p (List.mem_of_getElem? hp)
  · rintro f e ⟨es, h5, h6⟩
    exact h3 es (List.mem_of_getElem? h5) e h6
  · intro f e p hf hp
    have := h4 f hf e (List.getElem?_eq_some_iff.1 hp).1
    rw [hp, List.getElem?_eq_getElem hf] at this
    simp only [Option.getD_some] at this
    rw [Bool.eq_iff_iff] at this
    simp only [decide_eq_true_eq, Bool.or_eq_true, beq_iff_eq] at this
    rw [← this]
    unfold OnFace
    rw [List.getElem?_eq_getElem hf]
    simp

theorem islands_proper : Proper islands where
  tables := tables_of_check (by decide)
  nodesFit := by decide
  edgesFit := by decide
  counts := by decide
  bounds := by decide
  onFaces := by
    rintro f e ⟨es, h1, h2⟩
    have : ∀ es ∈ islands.facesEdges, ∀ e ∈ es, e < islands.mesh.edges.length := by decide
    exact this es (List.mem_of_getElem? h1) e h2

/-! ## Labels -/

/-- The labelling ends, reads and writes nothing out of range, and gives every face a label, such
that two faces have the same label exactly when one can walk from one to the other through shared
edges.  The regions are numbered `1, 2, …, k` without gaps, and the recorded number of faces of a
region is the number of faces with its label. -/
theorem labels_are_regions (fe : List (List Nat)) (ef : List (Nat × Nat)) (t : Tables fe ef) :
    ∃ k label, labelAllDomainRegions fe ef =
        .ok ⟨label, (List.range k).map (fun j => (j + 1, label.count (j + 1))), true⟩ ∧
      label.length = fe.length ∧
      (∀ f (hf : f < label.length), 1 ≤ label[f] ∧ label[f] ≤ k) ∧
      (∀ j, 1 ≤ j → j ≤ k → j ∈ label) ∧
      ∀ f g (hf : f < label.length) (hg : g < label.length), label[f] = label[g] ↔ Joined fe f g := by
  obtain ⟨k, l, h1, h2, h3⟩ := labelAll_spec t
  refine ⟨k, l, h1, h2.len, ?_, ?_, ?_⟩
  · intro f hf
    have := h2.range f
    have := h3 f (by rw [← h2.len]; exact hf)
    rw [← lab_lt hf]
    omega
  · intro j hj1 hj2
    obtain ⟨s, hs, _⟩ := h2.first j hj1 hj2
    have hsl : s < l.length := lt_of_lab (by
      have := h2.budget
      have := t.fit
      omega)
    rw [← hs, lab_lt hsl]
    exact List.getElem_mem hsl
  · intro f g hf hg
    rw [← lab_lt hf, ← lab_lt hg]
    exact h2.same f g (h3 f (by rw [← h2.len]; exact hf)) (h3 g (by rw [← h2.len]; exact hg))

example : labelAllDomainRegions islands.facesEdges islands.edgesFaces =
    .ok ⟨[1, 2, 2], [(1, 1), (2, 2)], true⟩ := by decide

/-! ## Removal -/

/-- When all faces hang together, nothing is removed. -/
theorem one_region_unchanged (order : Nat → List Nat → List Nat) (fm : FaceMesh P) (h : Proper fm)
    (hj : ∀ f g, f < fm.facesEdges.length → g < fm.facesEdges.length → Joined fm.facesEdges f g) :
    compute order fm = .ok ([], fm.mesh) := by
  obtain ⟨k, l, h1, h2, h3⟩ := labelAll_spec h.tables
  unfold compute
  rw [h1, Res.ok_bind]
  have hk : k ≤ 1 := by
    apply Decidable.byContradiction
    intro hk
    obtain ⟨s, s1, _⟩ := h2.first 1 (by omega) (by omega)
    obtain ⟨t, t1, _⟩ := h2.first 2 (by omega) (by omega)
    have hs : lab l s ≠ missing := by rw [s1]; decide
    have ht : lab l t ≠ missing := by rw [t1]; decide
    have := (h2.same s t hs ht).2 (hj s t (by rw [← h2.len]; exact lt_of_lab hs) (by rw [← h2.len]; exact lt_of_lab ht))
    omega
  have : ¬ (sizes k l).length > 1 := by simp [sizes]; omega
  simp only [this, if_false]

/-- When there are several regions, exactly one survives: there is a face `f` whose region is a
largest one (the first one among equals) such that
* every edge on a face outside this region is deleted,
* every edge on a face of this region is kept if its ends are valid,
* every other edge, also one bordering no face, is kept if its ends are valid, and deleted otherwise,
* a node is kept if it is an end of a kept edge and deleted otherwise.
Undoing the returned actions gives back all nodes and edges, redoing them the result. -/
theorem removal_keeps_largest_region (order : Nat → List Nat → List Nat) (fm : FaceMesh P) (h : Proper fm)
    (hj : ¬ ∀ f g, f < fm.facesEdges.length → g < fm.facesEdges.length → Joined fm.facesEdges f g) :
    ∃ as m' f, compute order fm = .ok (as, m') ∧ FirstLargest fm.facesEdges f ∧
      (∀ e, Outside fm.facesEdges f e → edgeAt m' e = noEdge) ∧
      (∀ g e, Joined fm.facesEdges f g → OnFace fm.facesEdges g e → ¬ Outside fm.facesEdges f e) ∧
      (∀ e, ¬ Outside fm.facesEdges f e → (seg fm.mesh.nodes (edgeAt fm.mesh e)).isSome →
        edgeAt m' e = edgeAt fm.mesh e) ∧
      (∀ e, seg fm.mesh.nodes (edgeAt fm.mesh e) = none → edgeAt m' e = noEdge) ∧
      m'.nodes.length = fm.mesh.nodes.length ∧
      (∀ i, (∃ e, edgeAt m' e ≠ noEdge ∧ touches (edgeAt m' e) i) → m'.nodes[i]? = fm.mesh.nodes[i]?) ∧
      (∀ i, i < m'.nodes.length → (¬ ∃ e, edgeAt m' e ≠ noEdge ∧ touches (edgeAt m' e) i) → m'.nodes[i]? = some none) ∧
      ∃ bs m1, Undo.restoreAll (meshSem P) (committed as) (.ok m') = (bs, .ok m1) ∧
        content m1 = content fm.mesh ∧
        ∃ cs m2, Undo.commitAll (meshSem P) bs (.ok m1) = (cs, .ok m2) ∧ content m2 = content m' := by
  obtain ⟨k, l, h1, h2, h3⟩ := labelAll_spec h.tables
  have hfit := h.tables.fit
  have hb := h2.budget
  unfold compute
  rw [h1, Res.ok_bind]
  -- there are at least two regions
  have hk : 1 < k := by
    apply Decidable.byContradiction
    intro hk
    apply hj
    intro f g hf hg
    rw [← h2.same f g (h3 f hf) (h3 g hg)]
    have a := (h2.range f).resolve_left (h3 f hf)
    have b := (h2.range g).resolve_left (h3 g hg)
    omega
  have hlen : (sizes k l).length > 1 := by simp [sizes]; omega
  simp only [hlen, if_true]
  -- the largest
  have hpos : ∀ j, 1 ≤ j → j ≤ k → 0 < l.count j := by
    intro j j1 j2
    obtain ⟨s, s1, _⟩ := h2.first j j1 j2
    have hsl : s < l.length := lt_of_lab (by omega)
    rw [List.count_pos_iff, ← s1, lab_lt hsl]
    exact List.getElem_mem hsl
  obtain ⟨r, r1, r2, r3, r4, r5⟩ : ∃ r, 1 ≤ r ∧ r ≤ k ∧ (mainRegion (sizes k l) (0, 0)).1 = r ∧
      (∀ i, 1 ≤ i → i ≤ k → l.count i ≤ l.count r) ∧ ∀ i, 1 ≤ i → i < r → l.count i < l.count r := by
    rw [sizes_eq]
    rcases mainRegion_spec (fun j => l.count j) k 1 (0, 0) with ⟨_, q⟩ | ⟨j, q1, q2, q3, _, q5, q6⟩
    · have := q 1 (by omega) (by omega)
      have := hpos 1 (by omega) (by omega)
      simp only at *
      omega
    · exact ⟨j, q1, by omega, by rw [q3], fun i i1 i2 => q5 i i1 (by omega), q6⟩
  obtain ⟨f, f1, f2⟩ := h2.first r r1 r2
  have hfm : lab l f ≠ missing := by rw [f1]; omega
  have hfl : f < fm.facesEdges.length := by rw [← h2.len]; exact lt_of_lab hfm
  obtain ⟨as, m1, a1, a2, a3⟩ := removeFaces_spec r h2.len (List.range l.length) fm.mesh
    (by intro i hi; rw [← h2.len]; simpa using hi) h.onFaces h.edgesFit
  simp only [r3]
  rw [a1, Res.ok_bind]
  -- deleted by the loop: exactly the edges outside
  have hout : ∀ e, (∃ g, g ∈ List.range l.length ∧ lab l g ≠ r ∧ OnFace fm.facesEdges g e) ↔
      Outside fm.facesEdges f e := by
    intro e
    constructor
    · rintro ⟨g, g1, g2, g3⟩
      refine ⟨g, g3, ?_⟩
      rw [← h2.same f g hfm (h3 g g3.lt), f1]
      exact fun h => g2 h.symm
    · rintro ⟨g, g1, g2⟩
      refine ⟨g, by simp [h2.len, g1.lt], ?_, g1⟩
      rw [← h2.same f g hfm (h3 g g1.lt), f1] at g2
      exact fun h => g2 h.symm
  have er : Erased fm.mesh m1 (Outside fm.facesEdges f) :=
    a3.congr (fun e he => Or.inl ((hout e).2 he)) (fun e he => Or.inl ((hout e).1 he))
  have hbounds : ∀ e ∈ m1.edges, e.1 = missing ∨ e.2 = missing ∨ (e.1 < m1.nodes.length ∧ e.2 < m1.nodes.length) := by
    intro e he
    obtain ⟨i, hi, hie⟩ := List.getElem_of_mem he
    have e1 : edgeAt m1 i = e := by simp [edgeAt, hi, hie]
    rw [er.nodes]
    rcases er.cases i with q | q
    · rw [e1] at q; rw [q]; simp [noEdge]
    · rw [e1] at q
      have hi' : i < fm.mesh.edges.length := by rw [← er.len]; exact hi
      have : edgeAt fm.mesh i = fm.mesh.edges[i] := by simp [edgeAt, hi']
      rw [q, this]
      exact h.bounds _ (List.getElem_mem hi')
  have hn1 : m1.nodes.length ≤ missing := by rw [er.nodes]; exact h.nodesFit
  obtain ⟨m', b1, b2, b3, b4⟩ := administrate_content order hn1 (inBounds_of hbounds)
  have segNo : seg fm.mesh.nodes noEdge = none := by
    have : fm.mesh.nodes[missing]? = none := by
      have := h.nodesFit
      simp; omega
    simp [seg, noEdge, this]
  rcases administrateU_spec order m1 with ⟨c1, c2⟩ | ⟨bs, m'', c1, c2, c3⟩
  · rw [b1] at c2; cases c2
  rw [b1] at c2
  have em : m'' = m' := (Res.ok.inj c2).symm
  rw [em] at c1 c3
  simp only
  rw [c1, Res.ok_bind]
  have hnot : ∀ e, edgeAt m' e ≠ noEdge → edgeAt m' e = edgeAt m1 e ∧ (seg m1.nodes (edgeAt m1 e)).isSome := by
    intro e he
    rw [b4 e] at he
    rw [b4 e]
    split at he
    · rename_i hs
      rw [if_pos hs]; exact ⟨rfl, hs⟩
    · exact absurd rfl he
  have hused : ∀ i, connected m1 i = true ↔ ∃ e, edgeAt m' e ≠ noEdge ∧ touches (edgeAt m' e) i := by
    intro i
    rw [connected_iff hn1]
    constructor
    · rintro ⟨e, he, hs, ht⟩
      obtain ⟨j, hj', hje⟩ := List.getElem_of_mem he
      have e1 : edgeAt m1 j = e := by simp [edgeAt, hj', hje]
      have e2 : edgeAt m' j = e := by rw [b4 j, e1, if_pos hs]
      refine ⟨j, ?_, by rw [e2]; exact ht⟩
      rw [e2]
      intro hno
      rw [hno, er.nodes, segNo] at hs
      simp at hs
    · rintro ⟨e, he, ht⟩
      obtain ⟨e1, e2⟩ := hnot e he
      rw [e1] at ht
      refine ⟨edgeAt m1 e, ?_, e2, ht⟩
      rw [e1] at he
      unfold edgeAt at he ⊢
      cases hq : m1.edges[e]? with
      | none => rw [hq] at he; exact absurd rfl he
      | some x => rw [Option.getD_some]; exact List.mem_of_getElem? hq
  refine ⟨_, _, f, rfl, ⟨hfl, ?_⟩, ?_, ?_, ?_, ?_, ?_, ?_, ?_, ?_⟩
  · intro g hg rf rg hrf hrg
    rw [count_region h2 h3 hfl hrf, count_region h2 h3 hg hrg, f1]
    have a := (h2.range g).resolve_left (h3 g hg)
    refine ⟨r4 _ a.1 a.2, fun hgf => r5 _ a.1 (f2 g hgf)⟩
  · intro e he
    show edgeAt m' e = noEdge
    rw [b4 e, er.gone e he, er.nodes, segNo]
    simp
  · rintro g e hg ho ⟨g', ho', hn'⟩
    exact hn' (hg.trans (.single ⟨e, ho, ho'⟩))
  · intro e he hs
    show edgeAt m' e = _
    rw [b4 e, er.kept e he, er.nodes, if_pos hs]
  · intro e hs
    show edgeAt m' e = noEdge
    rw [b4 e, er.nodes]
    rcases er.cases e with q | q
    · rw [q, segNo]; simp
    · rw [q, hs]; simp
  · show m'.nodes.length = _
    rw [b2, connectedNodes_length, er.nodes]
  · intro i hi
    show m'.nodes[i]? = _
    have hc := (hused i).2 hi
    rw [b2, connectedNodes, List.getElem?_mapIdx, er.nodes]
    cases fm.mesh.nodes[i]? with
    | none => rfl
    | some v => simp [hc]
  · intro i hi hno
    show m'.nodes[i]? = _
    have hi' : i < m1.nodes.length := by
      have : i < m'.nodes.length := hi
      rw [b2, connectedNodes_length] at this
      exact this
    have hc : connected m1 i = false := by
      cases hc : connected m1 i with
      | false => rfl
      | true => exact absurd ((hused i).1 hc) hno
    rw [b2, connectedNodes, List.getElem?_mapIdx, List.getElem?_eq_getElem hi']
    simp [hc]
  · exact (a2.trans c3).undo_redo h.counts

example : Proper islands ∧
    (¬ ∀ f g, f < islands.facesEdges.length → g < islands.facesEdges.length → Joined islands.facesEdges f g) ∧
    ∃ as m', compute (fun _ l => l) islands = .ok (as, m') ∧ as.length = 9 ∧
      m'.edges = [(0, 1), (1, 2), (2, 0), (1, 3), (3, 2), noEdge, noEdge, noEdge] ∧
      m'.nodes = [some (0, 0), some (1, 0), some (0, 1), some (1, 1), none, none, none] := by
  refine ⟨islands_proper, ?_, ?_⟩
  · intro h
    have e : labelAllDomainRegions islands.facesEdges islands.edgesFaces = .ok ⟨[1, 2, 2], [(1, 1), (2, 2)], true⟩ := by decide
    obtain ⟨k, l, h1, h2, _, _, h5⟩ := labels_are_regions _ _ islands_proper.tables
    rw [e] at h1
    have hl : l = [1, 2, 2] := by injection h1 with h1; injection h1 with a b c; exact a.symm
    subst hl
    have := (h5 0 1 (by decide) (by decide)).2 (h 0 1 (by decide) (by decide))
    simp at this
  · exact ⟨_, _, rfl, by decide, by decide, by decide⟩

/-! ## The call through the API does not refresh the face tables

`mkernel_mesh2d_remove_disconnected_regions` (`MeshKernel.cpp:2774-2796`) calls `Compute` without
`Administrate`, so that after edits of nodes and edges (which do not update `m_facesEdges` and
`m_edgesFaces`) the regions of the mesh before the edits are used. -/

/-- Two separate triangles. -/
def apart : FaceMesh (Int × Int) where
  mesh :=
    { nodes := [some (0, 0), some (2, 0), some (0, 2), some (3, 1), some (1, 3), some (3, 3)]
      edges := [(0, 1), (1, 2), (2, 0), (3, 4), (4, 5), (5, 3)]
      nodesEdges := [[0, 2], [0, 1], [1, 2], [3, 5], [3, 4], [4, 5]]
      numEdges := [2, 2, 2, 2, 2, 2] }
  facesEdges := [[0, 1, 2], [3, 4, 5]]
  edgesFaces := [(0, missing), (0, missing), (0, missing), (1, missing), (1, missing), (1, missing)]

/-- The mesh of `apart` after merging nodes 3 and 4 with nodes 1 and 2: the triangles share an
edge. -/
def sewn : Res (Mesh (Int × Int)) := do
  let r ← runOp apart.mesh (.mergeTwoNodes 3 1)
  let r ← runOp r.2 (.mergeTwoNodes 4 2)
  .ok r.2

/-- Two triangles that were separate are joined by merging nodes; they now share edge 3.  With the
faces of the joined mesh nothing is removed, but with the face tables as the merges leave them, as
the API does, the second triangle is deleted together with the common edge. -/
theorem stale_tables_remove_joined_face :
    ∃ m, sewn = .ok m ∧ m.edges = [(0, 1), noEdge, (2, 0), (1, 2), (2, 5), (5, 1)] ∧
      Tables [[0, 3, 2], [3, 4, 5]] [(0, missing), (missing, missing), (0, missing), (0, 1), (1, missing), (1, missing)] ∧
      compute (fun _ l => l) ⟨m, [[0, 3, 2], [3, 4, 5]],
        [(0, missing), (missing, missing), (0, missing), (0, 1), (1, missing), (1, missing)]⟩ = .ok ([], m) ∧
      ∃ as m', compute (fun _ l => l) ⟨m, apart.facesEdges, apart.edgesFaces⟩ = .ok (as, m') ∧
        m'.edges = [(0, 1), noEdge, (2, 0), noEdge, noEdge, noEdge] :=
  ⟨_, rfl, by decide, tables_of_check (by decide), by rfl, _, _, rfl, by decide⟩

/-- A triangle. -/
def lone : FaceMesh (Int × Int) where
  mesh :=
    { nodes := [some (0, 0), some (2, 0), some (0, 2)]
      edges := [(0, 1), (1, 2), (2, 0)]
      nodesEdges := [[0, 2], [0, 1], [1, 2]]
      numEdges := [2, 2, 2] }
  facesEdges := [[0, 1, 2]]
  edgesFaces := [(0, missing), (0, missing), (0, missing)]

/-- The triangle after drawing a second, separate one. -/
def drawn : Res (Mesh (Int × Int)) := do
  let r ← runOp lone.mesh (.insertNode (some (5, 0)))
  let r ← runOp r.2 (.insertNode (some (6, 0)))
  let r ← runOp r.2 (.insertNode (some (5, 1)))
  let r ← runOp r.2 (.connectNodes 3 4)
  let r ← runOp r.2 (.connectNodes 4 5)
  let r ← runOp r.2 (.connectNodes 5 3)
  .ok r.2

/-- A separate triangle drawn since the faces were last determined is not removed, although with
up to date face tables it is. -/
theorem stale_tables_keep_new_region :
    ∃ m, drawn = .ok m ∧ m.edges = [(0, 1), (1, 2), (2, 0), (3, 4), (4, 5), (5, 3)] ∧
      compute (fun _ l => l) ⟨m, lone.facesEdges, lone.edgesFaces⟩ = .ok ([], m) ∧
      ∃ as m', compute (fun _ l => l) ⟨m, apart.facesEdges, apart.edgesFaces⟩ = .ok (as, m') ∧
        m'.edges = [(0, 1), (1, 2), (2, 0), noEdge, noEdge, noEdge] :=
  ⟨_, rfl, by decide, by rfl, _, _, rfl, by decide⟩

end Verif.Regions
