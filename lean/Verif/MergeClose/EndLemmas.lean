import Verif.MergeClose.LoopLemmas
import Verif.Delete.Props
/-!
# Lemmas: the administration before and after
-/
namespace Verif.MergeClose
open Verif.Mesh
variable {P : Type}

theorem drawn_iff (m : Mesh P) (hn : m.nodes.length ≤ missing) (x y : Nat) :
    Drawn m x y ↔ ∃ i, (seg m.nodes (edgeAt m i)).isSome ∧ joins (edgeAt m i) x y := by
  constructor
  · rintro ⟨e, he, h1, h2⟩
    obtain ⟨i, hi, rfl⟩ := List.getElem_of_mem he
    have : edgeAt m i = m.edges[i] := by simp [edgeAt, hi]
    exact ⟨i, by rw [this]; exact h1, by rw [this]; exact h2⟩
  · rintro ⟨i, h1, h2⟩
    have hi : i < m.edges.length := by
      apply edgeAt_lt
      intro hno
      rw [hno, seg_noEdge hn] at h1
      cases h1
    have : edgeAt m i = m.edges[i] := by simp [edgeAt, hi]
    rw [this] at h1 h2
    exact ⟨_, List.getElem_mem hi, h1, h2⟩

theorem drawn_ends {m : Mesh P} {x y : Nat} (h : Drawn m x y) : (m.nodes[x]?).join.isSome ∧ (m.nodes[y]?).join.isSome := by
  obtain ⟨e, _, h1, h2⟩ := h
  have := seg_isSome.1 h1
  rcases h2 with rfl | rfl
  · exact this
  · exact ⟨this.2, this.1⟩

theorem join_lt {nodes : List (Option P)} {x : Nat} (h : (nodes[x]?).join.isSome) : x < nodes.length := by
  by_contra hx
  rw [List.getElem?_eq_none (by omega)] at h
  cases h

theorem used_iff_drawn {m : Mesh P} {i : Nat} : Used m i ↔ ∃ y, Drawn m i y := by
  constructor
  · rintro ⟨e, he, h1, rfl | rfl⟩
    · exact ⟨e.2, e, he, h1, Or.inl rfl⟩
    · exact ⟨e.1, e, he, h1, Or.inr rfl⟩
  · rintro ⟨y, e, he, h1, rfl | rfl⟩
    · exact ⟨_, he, h1, Or.inl rfl⟩
    · exact ⟨_, he, h1, Or.inr rfl⟩

theorem adj_of_administrated {m m' : Mesh P} (hm : Manageable m) (a : Administrated m m') (x y : Nat) : Adj m' x y ↔ Drawn m x y := by
  rw [drawn_iff m hm.nodesFit]
  constructor
  · rintro ⟨hx, hy, i, hi⟩
    rw [a.edges i] at hi
    split at hi
    · rename_i hs; exact ⟨i, hs, hi⟩
    · exact absurd rfl (joins_ne hi hx)
  · rintro ⟨i, hs, hi⟩
    have hb := seg_bounds hs
    have := hm.nodesFit
    have hxy : x < m.nodes.length ∧ y < m.nodes.length := by
      rcases hi with q | q
      · rw [q] at hb; exact hb
      · rw [q] at hb; exact ⟨hb.2, hb.1⟩
    refine ⟨by omega, by omega, i, ?_⟩
    rw [a.edges i, if_pos hs]
    exact hi

/-- The administration keeps the drawing. -/
theorem drawn_of_administrated {m m' : Mesh P} (hm : Manageable m) (a : Administrated m m') (x y : Nat) : Drawn m' x y ↔ Drawn m x y := by
  have hn' : m'.nodes.length ≤ missing := by rw [a.nodesLen]; exact hm.nodesFit
  constructor
  · intro h
    rw [drawn_iff m' hn'] at h
    obtain ⟨i, h1, h2⟩ := h
    have hb := seg_bounds h1
    have hx : x ≠ missing := by
      rcases h2 with q | q
      · rw [q] at hb; have := hb.1; omega
      · rw [q] at hb; have := hb.2; omega
    have hy : y ≠ missing := by
      rcases h2 with q | q
      · rw [q] at hb; have := hb.2; omega
      · rw [q] at hb; have := hb.1; omega
    exact (adj_of_administrated hm a x y).1 ⟨hx, hy, i, h2⟩
  · intro h
    have hux : Used m x := used_iff_drawn.2 ⟨y, h⟩
    have huy : Used m y := by
      obtain ⟨e, he, h1, h2⟩ := h
      exact used_iff_drawn.2 ⟨x, e, he, h1, joins_comm.1 h2⟩
    have hends := drawn_ends h
    obtain ⟨i, hs, hi⟩ := (drawn_iff m hm.nodesFit x y).1 h
    rw [drawn_iff m' hn']
    have he : edgeAt m' i = edgeAt m i := by rw [a.edges i, if_pos hs]
    refine ⟨i, ?_, by rw [he]; exact hi⟩
    rw [he, seg_isSome, a.nodes, a.nodes]
    have cx := (connected_iff hm.nodesFit x).2 hux
    have cy := (connected_iff hm.nodesFit y).2 huy
    rcases hi with q | q
    · rw [q]; simp only [cx, cy, if_true]; exact hends
    · rw [q]; simp only [cx, cy, if_true]; exact ⟨hends.2, hends.1⟩

theorem degree_eq {m m' : Mesh P} (hm : Manageable m) (a : Administrated m m') (n : Nat) : (listAt m' n).length = degree m n := by
  unfold degree
  rw [List.countP_eq_length_filter]
  apply List.Perm.length_eq
  rw [List.perm_ext_iff_of_nodup (a.nodup n) (List.nodup_range.filter _)]
  intro i
  rw [a.mem, List.mem_filter, List.mem_range, Bool.and_eq_true, Bool.or_eq_true, decide_eq_true_eq, decide_eq_true_eq]
  constructor
  · rintro ⟨h1, h2⟩
    refine ⟨?_, h1, h2⟩
    apply edgeAt_lt
    intro hno
    rw [hno, seg_noEdge hm.nodesFit] at h1
    cases h1
  · rintro ⟨_, h1, h2⟩
    exact ⟨h1, h2⟩

theorem reach_eq {m m1 : Mesh P} (hm : Manageable m) (a : Administrated m m1) (close : P → P → Bool) (polygons : List (P → Bool)) (n : Nat) :
    reach m1 (Near close polygons m) n = clusterDegree close polygons m n := by
  unfold reach clusterDegree Chain
  rw [a.nodesLen]
  apply Finset.sum_congr rfl
  intro i _
  exact degree_eq hm a i

/-- The mesh after the loop can be administrated. -/
theorem MeshOk.manageable {m1 m : Mesh P} {nr : Nat → Nat → Prop} {rep : Nat → Nat} {as : List (Act P)} (h : MeshOk m1 nr rep as m)
    (hcap : ∀ n, reach m1 nr n ≤ 16) : Manageable m := by
  have hne : ∀ i, (seg m.nodes (edgeAt m i)).isSome → edgeAt m i ≠ noEdge := by
    intro i hs hno
    rw [hno, seg_noEdge h.wf.nodesFit] at hs
    cases hs
  refine ⟨h.wf.nodesFit, h.wf.edgesFit, ?_, fun i hs => h.simple.noLoop i (hne i hs), fun i j hij hi _ => h.simple.noDup i j hij (hne i hi), ?_⟩
  · intro e he
    obtain ⟨i, hi, rfl⟩ := List.getElem_of_mem he
    have : edgeAt m i = m.edges[i] := by simp [edgeAt, hi]
    rcases h.wf.bounds i with q | q
    · rw [← this, q]; exact Or.inl rfl
    · rw [← this]; exact Or.inr (Or.inr q)
  · intro n hn
    refine Nat.le_trans ?_ (Nat.le_trans (h.deg n) (Nat.le_trans (load_le_reach h.chain n) (hcap n)))
    rw [List.countP_eq_length_filter]
    apply (List.subperm_of_subset (List.nodup_range.filter _) ?_).length_le
    intro i hi
    rw [List.mem_filter, List.mem_range, Bool.and_eq_true, Bool.or_eq_true, decide_eq_true_eq, decide_eq_true_eq] at hi
    exact h.wf.complete i n (hne i hi.2.1) hi.2.2

theorem MeshOk.start {m m1 : Mesh P} (hm : Manageable m) (a : Administrated m m1) (nr : Nat → Nat → Prop) : MeshOk m1 nr id [] m1 := by
  refine
    { wf := a.wf hm
      simple := a.simple hm
      ends := ?_
      nodesLen := rfl
      edgesLen := rfl
      node := fun i => ⟨fun _ => rfl, fun h => absurd rfl h⟩
      adj := ?_
      idem := fun _ => rfl
      chain := fun _ => .refl
      deg := ?_
      good := Good.refl _ }
  · intro j hj
    have h1 : (seg m.nodes (edgeAt m j)).isSome := by
      rw [a.edges j] at hj
      split at hj
      · assumption
      · exact absurd rfl hj
    have h2 : edgeAt m1 j = edgeAt m j := by rw [a.edges j, if_pos h1]
    have hd : Drawn m1 (edgeAt m j).1 (edgeAt m j).2 :=
      (drawn_of_administrated hm a _ _).2 ((drawn_iff m hm.nodesFit _ _).2 ⟨j, h1, joins_self⟩)
    rw [h2, seg_isSome]
    exact drawn_ends hd
  · intro x y
    constructor
    · intro h
      refine ⟨?_, x, y, h, rfl, rfl⟩
      rintro rfl
      obtain ⟨hx, _, i, hi⟩ := h
      have := (a.simple hm).noLoop i (joins_ne hi hx)
      rcases hi with q | q <;> rw [q] at this <;> exact this rfl
    · rintro ⟨_, u, v, h, rfl, rfl⟩
      exact h
  · intro n
    unfold load
    by_cases hn : n < m1.nodes.length
    · exact Finset.single_le_sum (f := fun i => (listAt m1 i).length) (fun _ _ => Nat.zero_le _) (by simp [hn])
    · have : listAt m1 n = [] := by
        unfold listAt
        rw [List.getElem?_eq_none (by rw [(a.wf hm).lists]; omega)]
        rfl
      rw [this]
      exact Nat.zero_le _

/-- The administrated mesh can be administrated again. -/
theorem manageable_of_administrated {m m1 : Mesh P} (hm : Manageable m) (a : Administrated m m1) : Manageable m1 := by
  refine (MeshOk.start hm a (fun _ _ => False)).manageable ?_
  intro n
  unfold reach
  by_cases hn : n < m1.nodes.length
  · rw [Finset.sum_eq_single_of_mem n (by simp [hn, Relation.ReflTransGen.refl]), degree_eq hm a]
    · exact hm.degree n (by rw [← a.nodesLen]; exact hn)
    · intro i hi hne
      exfalso
      simp only [Finset.mem_filter] at hi
      rcases Relation.ReflTransGen.cases_tail hi.2 with h | ⟨_, _, h⟩
      · exact hne h.symm
      · exact h
  · rw [Finset.sum_eq_zero]
    · omega
    · intro i hi
      exfalso
      simp only [Finset.mem_filter, Finset.mem_range] at hi
      rcases Relation.ReflTransGen.cases_tail hi.2 with h | ⟨_, _, h⟩
      · omega
      · exact h

end Verif.MergeClose
