import Verif.MergeClose.Spec
import Verif.Mesh.MergeLemmas
import Verif.Mesh.AgreeLemmas
import Mathlib.Algebra.Order.BigOperators.Group.Finset
/-!
# Lemmas: one merge, and the invariant of the loop
-/
namespace Verif.MergeClose
open Verif.Mesh
variable {P : Type}

open Classical in
/-- The number of edges listed at the nodes of which `rep` is `n`. -/
noncomputable def load (m1 : Mesh P) (rep : Nat → Nat) (n : Nat) : Nat :=
  ∑ i ∈ (Finset.range m1.nodes.length).filter (fun i => rep i = n), (listAt m1 i).length

open Classical in
/-- The number of edges listed at the nodes that reach `n`. -/
noncomputable def reach (m1 : Mesh P) (nr : Nat → Nat → Prop) (n : Nat) : Nat :=
  ∑ i ∈ (Finset.range m1.nodes.length).filter (fun i => Relation.ReflTransGen nr i n), (listAt m1 i).length

/-- The mesh while nodes are being merged: `m1` is the mesh at the start, `rep` says where the nodes have gone. -/
structure MeshOk (m1 : Mesh P) (nr : Nat → Nat → Prop) (rep : Nat → Nat) (as : List (Act P)) (m : Mesh P) : Prop where
  wf : WF m
  simple : Simple m
  ends : ∀ j, edgeAt m j ≠ noEdge → (seg m.nodes (edgeAt m j)).isSome
  nodesLen : m.nodes.length = m1.nodes.length
  edgesLen : m.edges.length = m1.edges.length
  node : ∀ i : Nat, (rep i = i → (m.nodes[i]?).join = (m1.nodes[i]?).join) ∧ (rep i ≠ i → (m.nodes[i]?).join = none)
  adj : ∀ x y, Adj m x y ↔ x ≠ y ∧ ∃ u v, Adj m1 u v ∧ rep u = x ∧ rep v = y
  idem : ∀ i, rep (rep i) = rep i
  chain : ∀ i, Relation.ReflTransGen nr i (rep i)
  deg : ∀ n, (listAt m n).length ≤ load m1 rep n
  good : Good m1 as m

theorem load_le_reach {m1 : Mesh P} {nr : Nat → Nat → Prop} {rep : Nat → Nat} (h : ∀ i, Relation.ReflTransGen nr i (rep i)) (n : Nat) :
    load m1 rep n ≤ reach m1 nr n := by
  unfold load reach
  apply Finset.sum_le_sum_of_subset
  intro i hi
  simp only [Finset.mem_filter] at hi ⊢
  exact ⟨hi.1, hi.2 ▸ h i⟩

theorem load_two {m1 : Mesh P} {nr : Nat → Nat → Prop} {rep : Nat → Nat} (h : ∀ i, Relation.ReflTransGen nr i (rep i)) {a b : Nat} (hab : a ≠ b)
    (hnr : nr a b) : load m1 rep a + load m1 rep b ≤ reach m1 nr b := by
  classical
  unfold load reach
  rw [← Finset.sum_union]
  · apply Finset.sum_le_sum_of_subset
    intro i hi
    simp only [Finset.mem_union, Finset.mem_filter] at hi ⊢
    rcases hi with ⟨h1, h2⟩ | ⟨h1, h2⟩
    · exact ⟨h1, (h2 ▸ h i).tail hnr⟩
    · exact ⟨h1, h2 ▸ h i⟩
  · rw [Finset.disjoint_left]
    intro i hi hi'
    simp only [Finset.mem_filter] at hi hi'
    exact hab (hi.2.symm.trans hi'.2)

theorem load_redirect {m1 : Mesh P} {rep : Nat → Nat} {a b : Nat} (hab : a ≠ b) (n : Nat) :
    load m1 (fun i => if rep i = a then b else rep i) n = if n = a then 0 else if n = b then load m1 rep b + load m1 rep a else load m1 rep n := by
  classical
  unfold load
  split
  · rename_i hn
    subst hn
    rw [Finset.filter_false_of_mem, Finset.sum_empty]
    intro i _
    simp only
    split <;> omega
  split
  · rename_i hn1 hn2
    subst hn2
    rw [← Finset.sum_union]
    · congr 1
      ext i
      simp only [Finset.mem_union, Finset.mem_filter]
      split <;> simp_all
    · rw [Finset.disjoint_left]
      intro i hi hi'
      simp only [Finset.mem_filter] at hi hi'
      exact hab (hi'.2.symm.trans hi.2)
  · rename_i hn1 hn2
    congr 1
    ext i
    simp only [Finset.mem_filter]
    split
    · rename_i h
      rw [h]
      constructor
      · rintro ⟨_, h⟩; exact absurd h.symm hn2
      · rintro ⟨_, h⟩; exact absurd h.symm hn1
    · rfl

theorem seg_isSome {nodes : List (Option P)} {e : Edge} :
    (seg nodes e).isSome ↔ (nodes[e.1]?).join.isSome ∧ (nodes[e.2]?).join.isSome := by
  unfold seg
  cases (nodes[e.1]?).join <;> cases (nodes[e.2]?).join <;> simp

theorem join_set {nodes : List (Option P)} {a : Nat} (n : Nat) : ((nodes.set a none)[n]?).join = if n = a then none else (nodes[n]?).join := by
  by_cases h : n = a
  · subst h
    by_cases hl : n < nodes.length
    · simp [hl]
    · rw [List.getElem?_eq_none (by rw [List.length_set]; omega), if_pos rfl]; rfl
  · rw [List.getElem?_set_ne (by omega), if_neg h]

/-- The ends of the edges stay valid when `a` is merged into a valid node `b`. -/
theorem merged_ends {m m' : Mesh P} {a b : Nat} (h : Merged m m' a b) (w : WF m) (s : Simple m) (ha : a < m.nodes.length)
    (hab : a ≠ b) (hb : (m.nodes[b]?).join.isSome) (he : ∀ j, edgeAt m j ≠ noEdge → (seg m.nodes (edgeAt m j)).isSome) :
    ∀ j, edgeAt m' j ≠ noEdge → (seg m'.nodes (edgeAt m' j)).isSome := by
  intro j hj
  have ham := not_missing w ha
  obtain ⟨h1, h2, h3⟩ := h.edge ham hj
  have hl := s.noLoop j h2
  have hs := seg_isSome.1 (he j h2)
  rw [h3, h.nodes, seg_isSome, join_set, join_set]
  unfold replaceNode
  split
  · rename_i q
    rw [if_neg (by omega), if_neg (by rw [← q]; exact fun x => hl x.symm)]
    exact ⟨hb, hs.2⟩
  · split
    · simp only [hab.symm, if_false]
      exact ⟨hs.1, hb⟩
    · exact hs

theorem merged_len {m m' : Mesh P} {a b : Nat} (h : Merged m m' a b) (w : WF m) (ha : a < m.nodes.length) (hb : b < m.nodes.length) (n : Nat) :
    (listAt m' n).length ≤ if n = a then 0 else if n = b then (listAt m b).length + (listAt m a).length else (listAt m n).length := by
  rw [h.listAt w ha hb n]
  split
  · simp
  split
  · rw [List.length_append]
    exact Nat.add_le_add (List.length_filter_le _ _) (List.length_filter_le _ _)
  · exact Nat.le_refl _

/-- Merging `a`, which is still there, into `b`. -/
theorem MeshOk.merge {m1 m : Mesh P} {nr : Nat → Nat → Prop} {rep : Nat → Nat} {as : List (Act P)} (h : MeshOk m1 nr rep as m) {a b : Nat}
    (ha : a < m1.nodes.length) (hb : b < m1.nodes.length) (hab : a ≠ b) (hra : rep a = a) (hrb : rep b = b) (hnr : nr a b)
    (hv : (m1.nodes[b]?).join.isSome) (hcap : ∀ n, reach m1 nr n ≤ 16) :
    ∃ bs m', mergeTwoNodesU m a b = .ok (bs, m') ∧ MeshOk m1 nr (fun i => if rep i = a then b else rep i) (as ++ bs) m' := by
  have ha' : a < m.nodes.length := by rw [h.nodesLen]; exact ha
  have hb' : b < m.nodes.length := by rw [h.nodesLen]; exact hb
  have hc : (listAt m a).length + (listAt m b).length ≤ maxEdgesPerNode := by
    have h1 := load_two (m1 := m1) h.chain hab hnr
    have h2 := h.deg a
    have h3 := h.deg b
    have h4 := hcap b
    unfold maxEdgesPerNode
    omega
  obtain ⟨m', e1, mg⟩ := mergeTwoNodes_merged h.wf h.simple ha' hb' hab hc
  rcases meshOf_eq (mergeTwoNodes_agree m a b) with ⟨⟨bs, m''⟩, e2, e3⟩ | ⟨_, e3⟩ | ⟨_, e3⟩
  rotate_left
  · rw [e1] at e3; cases e3
  · rw [e1] at e3; cases e3
  rw [e1] at e3
  have em : m' = m'' := Res.ok.inj e3
  subst em
  refine ⟨bs, m', e2, ?_⟩
  have hvb : (m.nodes[b]?).join.isSome := by rw [(h.node b).1 hrb]; exact hv
  refine
    { wf := mg.wf h.wf h.simple ha' hb' hab
      simple := mg.simple h.wf h.simple ha' hab
      ends := merged_ends mg h.wf h.simple ha' hab hvb h.ends
      nodesLen := by rw [mg.nodes, List.length_set]; exact h.nodesLen
      edgesLen := mg.len.trans h.edgesLen
      node := ?_
      adj := ?_
      idem := ?_
      chain := ?_
      deg := ?_
      good := h.good.trans (mergeTwoNodesU_good e2) }
  · intro i
    rw [mg.nodes, join_set]
    by_cases hi : i = a
    · subst hi
      rw [if_pos rfl]
      refine ⟨fun q => ?_, fun _ => rfl⟩
      simp only [hra, if_true] at q
      exact absurd q.symm hab
    · rw [if_neg hi]
      by_cases hr : rep i = a
      · simp only [hr, if_true]
        refine ⟨fun q => ?_, fun _ => (h.node i).2 (by rw [hr]; exact fun x => hi x.symm)⟩
        exfalso
        subst q
        rw [hrb] at hr
        exact hab hr.symm
      · simp only [hr, if_false]
        exact h.node i
  · intro x y
    rw [mg.adj h.wf h.simple ha' hb' hab]
    constructor
    · rintro ⟨hx, hy, hxy, q⟩
      refine ⟨hxy, ?_⟩
      rcases q with q | ⟨rfl, q⟩ | ⟨rfl, q⟩
      · obtain ⟨_, u, v, q1, q2, q3⟩ := (h.adj x y).1 q
        exact ⟨u, v, q1, by rw [if_neg (by rw [q2]; exact hx)]; exact q2, by rw [if_neg (by rw [q3]; exact hy)]; exact q3⟩
      · obtain ⟨_, u, v, q1, q2, q3⟩ := (h.adj a y).1 q
        exact ⟨u, v, q1, by rw [if_pos q2], by rw [if_neg (by rw [q3]; exact hy)]; exact q3⟩
      · obtain ⟨_, u, v, q1, q2, q3⟩ := (h.adj x a).1 q
        exact ⟨u, v, q1, by rw [if_neg (by rw [q2]; exact hx)]; exact q2, by rw [if_pos q3]⟩
    · rintro ⟨hxy, u, v, q1, q2, q3⟩
      have hxa : x ≠ a := by
        rw [← q2]; split
        · exact hab.symm
        · assumption
      have hya : y ≠ a := by
        rw [← q3]; split
        · exact hab.symm
        · assumption
      refine ⟨hxa, hya, hxy, ?_⟩
      split at q2
      · rename_i r2
        split at q3
        · exact absurd (q2.symm.trans q3) hxy
        · exact Or.inr (Or.inl ⟨q2.symm, (h.adj a y).2 ⟨hya.symm, u, v, q1, r2, q3⟩⟩)
      · split at q3
        · rename_i r3
          exact Or.inr (Or.inr ⟨q3.symm, (h.adj x a).2 ⟨hxa, u, v, q1, q2, r3⟩⟩)
        · exact Or.inl ((h.adj x y).2 ⟨hxy, u, v, q1, q2, q3⟩)
  · intro i
    by_cases hr : rep i = a
    · simp only [hr, if_true, hrb, if_neg hab.symm]
    · simp only [hr, if_false, h.idem]
  · intro i
    by_cases hr : rep i = a
    · simp only [hr, if_true]
      exact (hr ▸ h.chain i).tail hnr
    · simp only [hr, if_false]
      exact h.chain i
  · intro n
    rw [load_redirect hab]
    refine Nat.le_trans (merged_len mg h.wf ha' hb' n) ?_
    split
    · exact Nat.le_refl _
    split
    · exact Nat.add_le_add (h.deg b) (h.deg a)
    · exact h.deg n

theorem load_dead {m1 : Mesh P} {rep : Nat → Nat} (hi : ∀ i, rep (rep i) = rep i) {a : Nat} (ha : rep a ≠ a) : load m1 rep a = 0 := by
  unfold load
  rw [Finset.filter_false_of_mem, Finset.sum_empty]
  intro i _ hr
  have := hi i
  rw [hr] at this
  exact ha this

/-- Merging `a`, which is gone already, changes nothing more. -/
theorem MeshOk.merge_gone {m1 m : Mesh P} {nr : Nat → Nat → Prop} {rep : Nat → Nat} {as : List (Act P)} (h : MeshOk m1 nr rep as m) {a b : Nat}
    (ha : a < m1.nodes.length) (hb : b < m1.nodes.length) (hab : a ≠ b) (hra : rep a ≠ a) (hrb : rep b = b)
    (hv : (m1.nodes[b]?).join.isSome) (hcap : ∀ n, reach m1 nr n ≤ 16) :
    ∃ bs m', mergeTwoNodesU m a b = .ok (bs, m') ∧ MeshOk m1 nr rep (as ++ bs) m' := by
  have ha' : a < m.nodes.length := by rw [h.nodesLen]; exact ha
  have hb' : b < m.nodes.length := by rw [h.nodesLen]; exact hb
  have h0 : (listAt m a).length = 0 := by
    have h2 := h.deg a
    rw [load_dead h.idem hra] at h2
    omega
  have hc : (listAt m a).length + (listAt m b).length ≤ maxEdgesPerNode := by
    have h1 := load_le_reach (m1 := m1) h.chain b
    have h3 := h.deg b
    have h4 := hcap b
    unfold maxEdgesPerNode
    omega
  have hno : ∀ x, ¬ Adj m a x := by
    intro x q
    obtain ⟨_, u, v, _, q2, _⟩ := (h.adj a x).1 q
    have := h.idem u
    rw [q2] at this
    exact hra this
  have hno' : ∀ x, ¬ Adj m x a := by
    intro x q
    obtain ⟨_, u, v, _, _, q2⟩ := (h.adj x a).1 q
    have := h.idem v
    rw [q2] at this
    exact hra this
  obtain ⟨m', e1, mg⟩ := mergeTwoNodes_merged h.wf h.simple ha' hb' hab hc
  rcases meshOf_eq (mergeTwoNodes_agree m a b) with ⟨⟨bs, m''⟩, e2, e3⟩ | ⟨_, e3⟩ | ⟨_, e3⟩
  rotate_left
  · rw [e1] at e3; cases e3
  · rw [e1] at e3; cases e3
  rw [e1] at e3
  have em : m' = m'' := Res.ok.inj e3
  subst em
  refine ⟨bs, m', e2, ?_⟩
  have hvb : (m.nodes[b]?).join.isSome := by rw [(h.node b).1 hrb]; exact hv
  refine
    { wf := mg.wf h.wf h.simple ha' hb' hab
      simple := mg.simple h.wf h.simple ha' hab
      ends := merged_ends mg h.wf h.simple ha' hab hvb h.ends
      nodesLen := by rw [mg.nodes, List.length_set]; exact h.nodesLen
      edgesLen := mg.len.trans h.edgesLen
      node := ?_
      adj := ?_
      idem := h.idem
      chain := h.chain
      deg := ?_
      good := h.good.trans (mergeTwoNodesU_good e2) }
  · intro i
    rw [mg.nodes, join_set]
    by_cases hi : i = a
    · subst hi
      rw [if_pos rfl]
      exact ⟨fun q => absurd q hra, fun _ => rfl⟩
    · rw [if_neg hi]
      exact h.node i
  · intro x y
    rw [mg.adj h.wf h.simple ha' hb' hab, ← h.adj x y]
    constructor
    · rintro ⟨_, _, _, q | ⟨_, q⟩ | ⟨_, q⟩⟩
      · exact q
      · exact absurd q (hno y)
      · exact absurd q (hno' x)
    · intro q
      refine ⟨?_, ?_, ((h.adj x y).1 q).1, Or.inl q⟩
      · rintro rfl; exact hno y q
      · rintro rfl; exact hno' x q
  · intro n
    refine Nat.le_trans (merged_len mg h.wf ha' hb' n) ?_
    split
    · exact Nat.zero_le _
    split
    · rename_i q
      rw [h0, q]
      exact h.deg b
    · exact h.deg n

end Verif.MergeClose
