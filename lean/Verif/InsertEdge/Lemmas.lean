import Verif.InsertEdge.Spec
import Verif.Cache.Lemmas
import Verif.Mesh.EditLemmas
import Verif.Mesh.History
import Mathlib.Tactic.Linarith
/-!
# Lemmas: inserting an edge between two points
-/
namespace Verif.InsertEdge
open Verif.Mesh Verif.Cache
variable {P B K : Type}

theorem Tidy.of_wf {m : Mesh P} (w : WF m) : Tidy m := ⟨w.nodesFit, w.edgesFit, w.bounds, w.lists, w.counts, w.listed⟩

theorem insertNode_nodes (m : Mesh P) (p : P) : (insertNode m (some p)).2.nodes = m.nodes ++ [some p] := rfl
theorem insertNode_edges (m : Mesh P) (p : P) : (insertNode m (some p)).2.edges = m.edges := rfl

theorem insertNode_lists {m : Mesh P} (h : m.nodesEdges.length = m.nodes.length) (p : P) :
    (insertNode m (some p)).2.nodesEdges = m.nodesEdges ++ [[]] := by
  have e : m.nodes.length + 1 - m.nodesEdges.length = 1 := by omega
  simp only [insertNode, e]
  rw [List.take_of_length_le (by omega)]
  rfl

theorem insertNode_counts {m : Mesh P} (h : m.numEdges.length = m.nodes.length) (p : P) :
    (insertNode m (some p)).2.numEdges = m.numEdges ++ [0] := by
  have e : m.nodes.length + 1 - m.numEdges.length = 1 := by omega
  simp only [insertNode, e]
  rw [List.take_of_length_le (by omega), ← h]
  simp

theorem listAt_insert {m : Mesh P} (h : m.nodesEdges.length = m.nodes.length) (p : P) (n : Nat) :
    listAt (insertNode m (some p)).2 n = listAt m n := by
  unfold listAt
  rw [insertNode_lists h]
  rcases Nat.lt_trichotomy n m.nodesEdges.length with hn | hn | hn
  · rw [List.getElem?_append_left hn]
  · rw [hn]; simp
  · rw [List.getElem?_eq_none (by simp; omega), List.getElem?_eq_none (by omega)]

theorem edgeAt_insert (m : Mesh P) (p : P) (i : Nat) : edgeAt (insertNode m (some p)).2 i = edgeAt m i := rfl

theorem Tidy.insertNode {m : Mesh P} (w : Tidy m) (hn : m.nodes.length < missing) (p : P) : Tidy (insertNode m (some p)).2 := by
  have hc : m.numEdges.length = m.nodes.length := by rw [w.counts, List.length_map, w.lists]
  refine ⟨?_, w.edgesFit, ?_, ?_, ?_, ?_⟩
  · rw [insertNode_nodes]; simp; omega
  · intro i
    rw [edgeAt_insert, insertNode_nodes]
    rcases w.bounds i with h | h
    · exact Or.inl h
    · right; simp; omega
  · rw [insertNode_nodes, insertNode_lists w.lists]; simp [w.lists]
  · rw [insertNode_counts hc, insertNode_lists w.lists, w.counts]; simp
  · intro n i hi
    rw [listAt_insert w.lists] at hi
    exact w.listed n i hi

theorem edgeAt_append (m : Mesh P) (e : Edge) (i : Nat) :
    edgeAt { m with edges := m.edges ++ [e] } i = if i = m.edges.length then e else edgeAt m i := by
  unfold edgeAt
  simp only
  split
  · rename_i h; subst h; simp
  · rename_i h
    rcases Nat.lt_or_ge i m.edges.length with hi | hi
    · rw [List.getElem?_append_left hi]
    · rw [List.getElem?_eq_none (by simp; omega), List.getElem?_eq_none (by omega)]

theorem Tidy.addEdge {m : Mesh P} (w : Tidy m) (he : m.edges.length < missing) {a b : Nat} (ha : a < m.nodes.length)
    (hb : b < m.nodes.length) : Tidy { m with edges := m.edges ++ [(a, b)] } := by
  refine ⟨w.nodesFit, by simp; omega, ?_, w.lists, w.counts, ?_⟩
  · intro i
    rw [edgeAt_append]
    split
    · exact Or.inr ⟨ha, hb⟩
    · exact w.bounds i
  · intro n i hi
    obtain ⟨h1, h2⟩ := w.listed n i hi
    rw [edgeAt_append, if_neg (by omega)]
    exact ⟨by simp; omega, h2⟩

/-! ### Finding the edge -/

theorem tidy_list {m : Mesh P} (w : Tidy m) {n : Nat} (hn : n < m.nodes.length) : vget m.nodesEdges n = .ok (listAt m n) := by
  rw [← w.lists] at hn
  simp [vget, listAt, hn]

theorem tidy_count {m : Mesh P} (w : Tidy m) {n : Nat} (hn : n < m.nodes.length) : vget m.numEdges n = .ok (listAt m n).length := by
  rw [← w.lists] at hn
  simp [vget, listAt, w.counts, hn]

theorem findEdge_tidy {m : Mesh P} (w : Tidy m) {a b : Nat} (ha : a < m.nodes.length) (hb : b < m.nodes.length) :
    (findEdge m a b = .ok missing ∧ ¬ Known m a b) ∨
    (∃ i, i < m.edges.length ∧ findEdge m a b = .ok i ∧ joins (edgeAt m i) a b ∧ i ∈ listAt m a) := by
  have ham : a ≠ missing := by have := w.nodesFit; omega
  have hbm : b ≠ missing := by have := w.nodesFit; omega
  have hf : findEdge m a b = findEdgeLoop m.edges a b (listAt m a) := by
    simp [findEdge, ham, hbm, tidy_list w ha, tidy_count w ha]
  rw [hf]
  rcases findEdgeLoop_ok (m := m) a b hbm (listAt m a) (fun i hi => w.listed a i hi) with h | ⟨i, h1, h3, h4⟩
  · left
    exact ⟨h.1, fun ⟨i, hi, hj⟩ => h.2 i hi hj⟩
  · exact Or.inr ⟨i, (w.listed a i h1).1, h3, h4, h1⟩

/-! ### The trees -/

/-- The nodes tree shows the nodes. -/
def TreeOk (g : Geo P B) (whole : B) (s : Cached P B) : Prop := s.nodesTree = buildPoints g s.mesh.nodes whole

theorem TreeOk.current {g : Geo P B} {whole : B} {s : Cached P B} (h : TreeOk g whole s) : Current g whole s := fun _ _ => h

/-- The nodes tree shows the nodes, or is marked for rebuilding. -/
def Ready (g : Geo P B) (whole : B) (s : Cached P B) : Prop := s.nodesDirty = true ∨ TreeOk g whole s

theorem Ready.current {g : Geo P B} {whole : B} {s : Cached P B} (h : Ready g whole s) : Current g whole s := by
  intro hd _
  rcases h with h | h
  · rw [h] at hd; cases hd
  · exact h

theorem buildNodes {g : Geo P B} {whole : B} {s : Cached P B} (h : Current g whole s) :
    ∃ s1, buildTree g s .nodes whole = .ok s1 ∧ s1.mesh = s.mesh ∧ TreeOk g whole s1 := by
  unfold buildTree
  simp only
  rcases Bool.eq_false_or_eq_true s.nodesDirty with hd | hd
  · rw [if_pos (by simp [hd])]; exact ⟨_, rfl, rfl, rfl⟩
  · rcases Bool.eq_false_or_eq_true (g.sameBox s.box whole) with hb | hb
    · exact ⟨s, by rw [if_neg (by simp [hd, hb])], rfl, h hd hb⟩
    · rw [if_pos (by simp [hb])]; exact ⟨_, rfl, rfl, rfl⟩

theorem edgeCentres_ok (g : Geo P B) (ns : List (Option P)) : ∀ es : List Edge,
    (∀ e ∈ es, e = noEdge ∨ (e.1 < ns.length ∧ e.2 < ns.length)) → ∃ cs, edgeCentres g ns es = .ok cs := by
  intro es
  induction es with
  | nil => intro _; exact ⟨[], rfl⟩
  | cons e es ih =>
    intro h
    obtain ⟨cs, hcs⟩ := ih (fun x hx => h x (List.mem_cons_of_mem _ hx))
    have hc : ∃ c, edgeCentre g ns e = .ok c := by
      rcases h e (by simp) with h | h
      · subst h; exact ⟨none, by simp [edgeCentre, noEdge]⟩
      · by_cases hm : e.1 = missing ∨ e.2 = missing
        · exact ⟨none, by simp [edgeCentre, hm]⟩
        · exact ⟨g.mid ns[e.1] ns[e.2], by simp only [edgeCentre, if_neg hm, vget, List.getElem?_eq_getElem h.1, List.getElem?_eq_getElem h.2, Res.ok_bind]⟩
    obtain ⟨c, hc⟩ := hc
    exact ⟨c :: cs, by simp [edgeCentres, hc, hcs]⟩

theorem tidy_edges {m : Mesh P} (w : Tidy m) : ∀ e ∈ m.edges, e = noEdge ∨ (e.1 < m.nodes.length ∧ e.2 < m.nodes.length) := by
  intro e he
  obtain ⟨i, hi, rfl⟩ := List.mem_iff_getElem.1 he
  have := w.bounds i
  simpa [edgeAt, hi] using this

theorem buildEdges {g : Geo P B} {whole : B} {s : Cached P B} (w : Tidy s.mesh) :
    ∃ s1, buildTree g s .edges whole = .ok s1 ∧ s1.mesh = s.mesh ∧ (Ready g whole s → Ready g whole s1) := by
  obtain ⟨cs, hcs⟩ := edgeCentres_ok g s.mesh.nodes s.mesh.edges (tidy_edges w)
  unfold buildTree
  simp only
  split
  · rw [hcs, Res.ok_bind]; exact ⟨_, rfl, rfl, fun h => h⟩
  · exact ⟨s, rfl, rfl, id⟩

variable [LinearOrder K]

/-- There is a valid node, or none at all. -/
def Searchable (m : Mesh P) : Prop := m.nodes = [] ∨ ∃ i x, NodeIs m i x

theorem nearNode_ok {g : Geo P B} {whole : B} {close : List (P × Nat) → P → K → Option Nat} {dist : P → P → K}
    (hw : Whole g whole) (hcl : CloseOk close dist) {s : Cached P B} (hc : Current g whole s) (hs : Searchable s.mesh)
    (p : P) (r : K) :
    ∃ i s1, nearNode g whole close s p r = .ok (i, s1) ∧ s1.mesh = s.mesh ∧
      ((i = missing ∧ Alone dist s.mesh p r) ∨ (i < s.mesh.nodes.length ∧ Reused dist s.mesh p r i ∧ TreeOk g whole s1)) := by
  unfold nearNode
  by_cases he : s.mesh.nodes = []
  · refine ⟨missing, s, by simp [he], rfl, Or.inl ⟨rfl, ?_⟩⟩
    intro j y hj
    simp [NodeIs, he] at hj
  · rw [if_neg (by simpa using he)]
    obtain ⟨s1, h1, h2, h3⟩ := buildNodes hc
    rw [h1, Res.ok_bind]
    have hmem : ∀ i x, NodeIs s.mesh i x → (x, i) ∈ s1.nodesTree := by
      intro i x hx
      rw [h3, h2]
      exact mem_buildPoints.2 ⟨hx, hw.all x⟩
    have hne : s1.nodesTree.isEmpty = false := by
      rcases hs with h | ⟨i, x, hx⟩
      · exact absurd h he
      · have := hmem i x hx
        cases ht : s1.nodesTree with
        | nil => rw [ht] at this; simp at this
        | cons => rfl
    rw [if_neg (by simp [hne])]
    cases hcc : close s1.nodesTree p r with
    | none =>
      refine ⟨missing, s1, rfl, h2, Or.inl ⟨rfl, ?_⟩⟩
      intro j y hj
      exact (hcl s1.nodesTree p r).2 hcc (y, j) (hmem j y hj)
    | some i =>
      obtain ⟨q, hq1, hq2, hq3⟩ := (hcl s1.nodesTree p r).1 i hcc
      have hq : NodeIs s.mesh i q := by
        rw [h3, h2] at hq1
        exact (mem_buildPoints.1 hq1).1
      refine ⟨i, s1, rfl, h2, Or.inr ⟨?_, ⟨q, hq, hq2, ?_⟩, h3⟩⟩
      · have := List.getElem?_eq_some_iff.1 hq
        exact this.1
      · intro j y hj
        exact hq3 (y, j) (hmem j y hj)

/-- The mesh after an end has been looked for: unchanged, or with a node at `p`. -/
def Ended (dist : P → P → K) (m m' : Mesh P) (p : P) (r : K) (i : Nat) (as : List (Act P)) : Prop :=
  (i < m.nodes.length ∧ Reused dist m p r i ∧ m' = m ∧ as = []) ∨
  (i = m.nodes.length ∧ Alone dist m p r ∧ m' = (insertNode m (some p)).2 ∧ as = [.addNode m.nodes.length (some p)])

theorem firstEnd_ok {g : Geo P B} {whole : B} {close : List (P × Nat) → P → K → Option Nat} {dist : P → P → K}
    (hw : Whole g whole) (hcl : CloseOk close dist) {s : Cached P B} (hc : Current g whole s) (hs : Searchable s.mesh)
    (hfit : s.mesh.nodes.length ≤ missing) (p : P) (r : K) :
    ∃ i as s1, firstEnd g whole close s p r = .ok (i, as, s1) ∧ Ready g whole s1 ∧ Ended dist s.mesh s1.mesh p r i as := by
  obtain ⟨i, s1, h1, h2, h4⟩ := nearNode_ok hw hcl hc hs p r
  unfold firstEnd
  rw [h1, Res.ok_bind]
  rcases h4 with ⟨rfl, h4⟩ | ⟨h4, h5, h3⟩
  · simp only [if_true]
    have hcu : Current g whole (withNode s1 p) := fun h => by simp [withNode] at h
    obtain ⟨s2, q1, q2, q3⟩ := buildNodes hcu
    rw [q1, Res.ok_bind]
    refine ⟨_, _, s2, rfl, Or.inr q3, Or.inr ⟨by rw [h2], h4, ?_, by rw [h2]⟩⟩
    rw [q2, ← h2]; rfl
  · rw [if_neg (by simp only; omega)]
    exact ⟨i, [], s1, rfl, Or.inr h3, Or.inl ⟨h4, h5, h2, rfl⟩⟩

theorem secondEnd_ok {g : Geo P B} {whole : B} {close : List (P × Nat) → P → K → Option Nat} {dist : P → P → K}
    (hw : Whole g whole) (hcl : CloseOk close dist) {s : Cached P B} (hc : Current g whole s) (hs : Searchable s.mesh)
    (hfit : s.mesh.nodes.length ≤ missing) (p : P) (r : K) :
    ∃ i as s1, secondEnd g whole close s p r = .ok (i, as, s1) ∧ Ready g whole s1 ∧ Ended dist s.mesh s1.mesh p r i as := by
  obtain ⟨i, s1, h1, h2, h4⟩ := nearNode_ok hw hcl hc hs p r
  unfold secondEnd
  rw [h1, Res.ok_bind]
  rcases h4 with ⟨rfl, h4⟩ | ⟨h4, h5, h3⟩
  · simp only [if_true]
    refine ⟨_, _, _, rfl, Or.inl rfl, Or.inr ⟨by rw [h2], h4, ?_, by rw [h2]⟩⟩
    rw [← h2]; rfl
  · rw [if_neg (by simp only; omega)]
    exact ⟨i, [], s1, rfl, Or.inr h3, Or.inl ⟨h4, h5, h2, rfl⟩⟩

theorem Ended.tidy {dist : P → P → K} {m m' : Mesh P} {p : P} {r : K} {i : Nat} {as : List (Act P)}
    (h : Ended dist m m' p r i as) (w : Tidy m) (hn : m.nodes.length < missing) :
    Tidy m' ∧ i < m'.nodes.length ∧ m.nodes.length ≤ m'.nodes.length ∧ m'.nodes.length ≤ m.nodes.length + 1 ∧ m'.edges = m.edges ∧
      m'.nodes = m.nodes ++ (if i < m.nodes.length then [] else [some p]) ∧ (∀ n, listAt m' n = listAt m n) ∧ Searchable m' ∧
      Good m as m' ∧ (∃ x, NodeIs m' i x ∧ dist p x ≤ max r (dist p p)) := by
  rcases h with ⟨h1, h2, rfl, rfl⟩ | ⟨h1, h2, rfl, rfl⟩
  · obtain ⟨x, hx1, hx2, -⟩ := h2
    exact ⟨w, h1, Nat.le_refl _, by omega, rfl, by simp [h1], fun _ => rfl, Or.inr ⟨i, x, hx1⟩, Good.refl _, x, hx1, le_max_of_le_left hx2⟩
  · have hp : NodeIs (insertNode m (some p)).2 i p := by
      unfold NodeIs; rw [insertNode_nodes, h1]; simp
    refine ⟨w.insertNode hn p, ?_, ?_, ?_, rfl, ?_, listAt_insert w.lists p, Or.inr ⟨i, p, hp⟩, insertNodeU_good rfl, p, hp, le_max_right _ _⟩
    · rw [insertNode_nodes, h1]; simp
    · rw [insertNode_nodes]; simp
    · rw [insertNode_nodes]; simp
    · rw [insertNode_nodes, h1]; simp

theorem connect_ok {s : Cached P B} (w : Tidy s.mesh) (he : s.mesh.edges.length < missing) {a b : Nat} (ha : a < s.mesh.nodes.length)
    (hb : b < s.mesh.nodes.length) :
    (Known s.mesh a b ∧ connect s a b = .ok (missing, [], s)) ∨
    (¬ Known s.mesh a b ∧ connect s a b = .ok (s.mesh.edges.length, [.addEdge s.mesh.edges.length (a, b)],
      { s with mesh := { s.mesh with edges := s.mesh.edges ++ [(a, b)] }, edgesDirty := true })) := by
  rcases findEdge_tidy w ha hb with ⟨h1, h2⟩ | ⟨i, h1, h2, h3, h4⟩
  · right
    refine ⟨h2, ?_⟩
    have hc : connectNodes s.mesh a b = .ok (s.mesh.edges.length, { s.mesh with edges := s.mesh.edges ++ [(a, b)] }) := by
      simp [connectNodes, h1]
    unfold connect
    rw [hc, Res.ok_bind, if_neg (by simp only; omega)]
  · left
    refine ⟨⟨i, h4, h3⟩, ?_⟩
    have hc : connectNodes s.mesh a b = .ok (missing, s.mesh) := by
      have : i ≠ missing := by omega
      simp [connectNodes, h2, this]
    unfold connect
    rw [hc, Res.ok_bind, if_pos rfl]

theorem foldl_min_le (a : K) : ∀ l : List K, l.foldl min a ≤ a ∧ (∀ x ∈ l, l.foldl min a ≤ x) ∧ (l.foldl min a = a ∨ l.foldl min a ∈ l) := by
  intro l
  induction l generalizing a with
  | nil => simp
  | cons b l ih =>
    obtain ⟨h1, h2, h3⟩ := ih (min a b)
    simp only [List.foldl_cons]
    refine ⟨h1.trans (min_le_left _ _), ?_, ?_⟩
    · intro x hx
      rcases List.mem_cons.1 hx with rfl | hx
      · exact h1.trans (min_le_right _ _)
      · exact h2 x hx
    · rcases h3 with h3 | h3
      · rcases min_choice a b with h | h
        · left; rw [h3, h]
        · right; rw [h3, h]; simp
      · right; exact List.mem_cons_of_mem _ h3

end Verif.InsertEdge
