import Verif.SplitRow.CollectLemmas
/-!
# Lemmas: splitting the elements of a row
-/
namespace Verif.SplitRow
open Verif.Mesh Verif.Faces
open Verif.Polygons (Pt)
open Verif.Flip (Exact Linked)

/-- The work so far: nodes and edges have been added, and nothing else has changed. -/
structure Grown (m : Mesh Pt) (w : Work Pt) (ns : List (Option Pt)) (es : List Edge) (del : List Nat) : Prop where
  mesh : w.mesh = ⟨m.nodes ++ ns, m.edges ++ es, m.nodesEdges ++ List.replicate ns.length [], m.numEdges ++ List.replicate ns.length 0⟩
  good : Good m w.acts w.mesh
  del : w.del = del

variable {numEdges : Nat} {edges : List Edge} {m : Mesh Pt} {s : State} {w : Work Pt} {ns : List (Option Pt)} {es : List Edge} {del : List Nat}

theorem Grown.start (m : Mesh Pt) : Grown m ⟨m, [], []⟩ [] [] [] := ⟨by simp, Good.refl m, rfl⟩

theorem Grown.length (h : Grown m w ns es del) : w.mesh.nodes.length = m.nodes.length + ns.length := by
  rw [h.mesh]; simp

/-- The ends of an edge of the old mesh. -/
theorem ends_lt (x : Exact m s) {e : Nat} {p : Edge} (he : m.edges[e]? = some p) {n : Nat} (hn : n < m.nodes.length) (ht : p.1 = n ∨ p.2 = n) :
    p.1 < m.nodes.length ∧ p.2 < m.nodes.length := by
  rcases x.ends e p he with rfl | ⟨h1, h2, _⟩
  · have := x.nodesFit
    rcases ht with h | h <;> simp only [noEdge] at h <;> omega
  · exact ⟨validNode_lt h1, validNode_lt h2⟩

/-- A new node is not joined with another node yet, as far as the lists tell. -/
theorem findEdge_new (x : Exact m s) (h : Grown m w ns es del) {a b : Nat} (ha : a < m.nodes.length + ns.length) (hb : b < m.nodes.length + ns.length)
    (hnew : m.nodes.length ≤ a ∨ m.nodes.length ≤ b) (hfit : m.nodes.length + ns.length ≤ missing) : findEdge w.mesh a b = .ok missing := by
  unfold findEdge
  rw [if_neg (by omega), h.mesh]
  simp only []
  have hl := x.lists
  have hc : m.numEdges.length = m.nodes.length := by rw [x.counts, List.length_map, hl]
  by_cases hna : m.nodes.length ≤ a
  · have h1 : (m.numEdges ++ List.replicate ns.length 0)[a]? = some 0 := by
      rw [List.getElem?_append_right (by omega), List.getElem?_replicate, if_pos (by omega)]
    have h2 : (m.nodesEdges ++ List.replicate ns.length [])[a]? = some [] := by
      rw [List.getElem?_append_right (by omega), List.getElem?_replicate, if_pos (by omega)]
    rw [vget_eq_ok.2 h1, Res.ok_bind, vget_eq_ok.2 h2, Res.ok_bind]
    rfl
  · have hal : a < m.nodesEdges.length := by omega
    have h2 : (m.nodesEdges ++ List.replicate ns.length [])[a]? = some m.nodesEdges[a] := by
      rw [List.getElem?_append_left (by omega), List.getElem?_eq_getElem hal]
    have h1 : (m.numEdges ++ List.replicate ns.length 0)[a]? = some m.nodesEdges[a].length := by
      rw [List.getElem?_append_left (by omega), x.counts, List.getElem?_map, List.getElem?_eq_getElem hal]
      rfl
    rw [vget_eq_ok.2 h1, Res.ok_bind, vget_eq_ok.2 h2, Res.ok_bind, if_neg (by omega), List.take_length]
    have hall : ∀ i ∈ m.nodesEdges[a], ∃ p, m.edges[i]? = some p ∧ (p.1 = a ∨ p.2 = a) :=
      fun i hi => (x.listed a _ (List.getElem?_eq_getElem hal) i).1 hi
    generalize m.nodesEdges[a] = l at hall
    induction l with
    | nil => rfl
    | cons i is ih =>
      obtain ⟨p, hp, ht⟩ := hall i List.mem_cons_self
      have hi := (List.getElem?_eq_some_iff.1 hp).1
      have hlt := ends_lt x hp (by omega) ht
      rw [findEdgeLoop, vget_eq_ok.2 (by rw [List.getElem?_append_left hi, hp]), Res.ok_bind, if_neg]
      · exact ih fun j hj => hall j (List.mem_cons_of_mem _ hj)
      · unfold otherNode
        split <;> omega

theorem connect_new (x : Exact m s) (h : Grown m w ns es del) {a b : Nat} (ha : a < m.nodes.length + ns.length) (hb : b < m.nodes.length + ns.length)
    (hnew : m.nodes.length ≤ a ∨ m.nodes.length ≤ b) (hfit : m.nodes.length + ns.length ≤ missing) :
    ∃ w', connect a b w = .ok w' ∧ Grown m w' ns (es ++ [(a, b)]) del := by
  have hf := findEdge_new x h ha hb hnew hfit
  have hc : connectNodesU w.mesh a b = .ok ([.addEdge w.mesh.edges.length (a, b)], { w.mesh with edges := w.mesh.edges ++ [(a, b)] }) := by
    unfold connectNodesU
    rw [hf, Res.ok_bind, if_neg (by simp)]
  refine ⟨⟨{ w.mesh with edges := w.mesh.edges ++ [(a, b)] }, w.acts ++ [.addEdge w.mesh.edges.length (a, b)], w.del⟩, ?_, ?_, ?_, h.del⟩
  · unfold connect
    rw [hc]
    rfl
  · simp only [h.mesh, List.append_assoc]
  · exact h.good.trans (connectNodesU_good hc)

theorem fork_new (x : Exact m s) (h : Grown m w ns es del) {p : Edge} {n : Nat} (h1 : p.1 < m.nodes.length) (h2 : p.2 < m.nodes.length)
    (hn : m.nodes.length ≤ n) (hn' : n < m.nodes.length + ns.length) (hfit : m.nodes.length + ns.length ≤ missing) :
    ∃ w', fork p n w = .ok w' ∧ Grown m w' ns (es ++ [(p.1, n), (n, p.2)]) del := by
  obtain ⟨w1, c1, g1⟩ := connect_new x h (a := p.1) (b := n) (by omega) (by omega) (Or.inr hn) hfit
  obtain ⟨w2, c2, g2⟩ := connect_new x g1 (a := n) (b := p.2) (by omega) (by omega) (Or.inl hn) hfit
  refine ⟨w2, ?_, by simpa using g2⟩
  unfold fork
  rw [c1, Res.ok_bind, c2]

theorem insert_new (x : Exact m s) (h : Grown m w ns es del) (v : Option Pt) :
    ∃ r, insertNodeU w.mesh v = .ok r ∧ Grown m { w with mesh := r.2, acts := w.acts ++ r.1 } (ns ++ [v]) es del := by
  refine ⟨_, rfl, ?_, h.good.trans (insertNodeU_good rfl), h.del⟩
  simp only [h.mesh, insertNode]
  have hl := x.lists
  have hc : m.numEdges.length = m.nodes.length := by rw [x.counts, List.length_map, hl]
  have e1 : (m.nodesEdges ++ List.replicate ns.length []).length = (m.nodes ++ ns).length := by simp [hl]
  have e2 : (m.numEdges ++ List.replicate ns.length 0).length = (m.nodes ++ ns).length := by simp [hc]
  rw [List.take_of_length_le (by omega), List.take_of_length_le (by omega)]
  congr 1
  · simp
  · rw [e1, Nat.add_sub_cancel_left, List.append_assoc]
    simp [List.replicate_add]
  · rw [e2, Nat.add_sub_cancel_left, List.set_append_right _ _ (by omega), e2, Nat.sub_self]
    simp [List.replicate_add]

variable {mid : Pt → Pt → Pt}

theorem edge_of (x : Exact m s) {e f : Nat} (hb : Borders s f e) :
    ∃ p, m.edges[e]? = some p ∧ edgeAt m e = p ∧ p.1 < m.nodes.length ∧ p.2 < m.nodes.length ∧ validNode m.nodes p.1 = true ∧ validNode m.nodes p.2 = true := by
  obtain ⟨es, h1, h2⟩ := hb
  have hlt := (List.getElem?_eq_some_iff.1 h1).1
  have hl := x.linked.lengths
  have h3 : s.facesNodes[f]? = some s.facesNodes[f] := List.getElem?_eq_getElem (by omega)
  have hp := x.linked.proper f _ es h3 h1
  obtain ⟨i, hi⟩ := List.mem_iff_getElem?.1 h2
  obtain ⟨a, b, e', p, k1, k2, k3, k4, k5⟩ := hp.sides i (by rw [← hp.len]; exact (List.getElem?_eq_some_iff.1 hi).1)
  rw [hi] at k3
  obtain rfl := Option.some.inj k3
  refine ⟨p, k4, by simp [edgeAt, k4], ?_⟩
  have v1 := x.corners f _ h3 a (List.mem_of_getElem? k1)
  have v2 := x.corners f _ h3 b (List.mem_of_getElem? k2)
  rcases k5 with k5 | k5 <;> obtain ⟨rfl, rfl⟩ := k5
  · exact ⟨validNode_lt v1, validNode_lt v2, v1, v2⟩
  · exact ⟨validNode_lt v2, validNode_lt v1, v2, v1⟩

theorem splitEdge_new (x : Exact m s) (h : Grown m w ns es del) {e f : Nat} (hb : Borders s f e) (hfit : m.nodes.length + ns.length + 1 ≤ missing) :
    ∃ w', splitEdge mid e w = .ok (m.nodes.length + ns.length, w') ∧ Grown m w' (ns ++ [middle mid m e])
      (es ++ [((edgeAt m e).1, m.nodes.length + ns.length), (m.nodes.length + ns.length, (edgeAt m e).2)]) (del ++ [e]) := by
  obtain ⟨p, hp, hpe, l1, l2, _, _⟩ := edge_of x hb
  have hi := (List.getElem?_eq_some_iff.1 hp).1
  have g1 : getEdge w.mesh e = .ok p := by
    unfold getEdge
    rw [h.mesh]
    simp only [List.getElem?_append_left hi, hp]
  have gn : ∀ n, n < m.nodes.length → getNode w.mesh n = .ok (m.nodes[n]?).join := by
    intro n hn
    unfold getNode
    rw [h.mesh]
    simp only [List.getElem?_append_left hn, List.getElem?_eq_getElem hn, Option.join_some]
  have hmid : middle mid m e = mean mid (m.nodes[p.1]?).join (m.nodes[p.2]?).join := by unfold middle; rw [hpe]
  obtain ⟨r, i1, i2⟩ := insert_new x h (middle mid m e)
  have hlen : m.nodes.length + (ns ++ [middle mid m e]).length = m.nodes.length + ns.length + 1 := by simp; omega
  obtain ⟨w1, c1, g2⟩ := connect_new x i2 (a := p.1) (b := m.nodes.length + ns.length) (by omega) (by omega) (Or.inr (by omega)) (by omega)
  obtain ⟨w2, c2, g3⟩ := connect_new x g2 (a := m.nodes.length + ns.length) (b := p.2) (by omega) (by omega) (Or.inl (by omega)) (by omega)
  refine ⟨{ w2 with del := w2.del ++ [e] }, ?_, ?_, g3.good, by simp only [g3.del]⟩
  · unfold splitEdge
    rw [g1, Res.ok_bind, gn _ l1, Res.ok_bind, gn _ l2, Res.ok_bind, ← hmid, i1, Res.ok_bind, h.length, c1, Res.ok_bind, c2, Res.ok_bind]
  · rw [hpe]
    simpa using g3.mesh

/-- An edge is cut if its faces are quadrilaterals. -/
theorem cut_iff (x : Exact m s) {e : Nat} : cut s e = true ↔ Cut s e := by
  have hl := x.linked.lengths
  unfold cut facesAt Cut
  rw [List.all_eq_true]
  constructor
  · rintro h f ⟨es, h1, h2⟩
    have := h f (by
      rw [List.mem_filter, List.mem_range]
      exact ⟨(List.getElem?_eq_some_iff.1 h1).1, by rw [h1]; exact decide_eq_true h2⟩)
    exact of_decide_eq_true this
  · intro h f hf
    rw [List.mem_filter, List.mem_range] at hf
    apply decide_eq_true
    apply h f
    refine ⟨_, List.getElem?_eq_getElem hf.1, ?_⟩
    have := of_decide_eq_true hf.2
    rwa [List.getElem?_eq_getElem hf.1] at this

theorem cut_across (x : Exact m s) (t : Tab numEdges m.edges s) {e f g : Nat} (hq : Quadrilateral s f) (hb : Borders s f e) (a : Across s e f g) :
    cut s e = true ↔ g = missing ∨ Quadrilateral s g := by
  rw [cut_iff x]
  obtain ⟨p, g0, h1, _, h3, h4, h5, _, _, h8⟩ := Across.of t hb
  obtain rfl := Across.unique t hb a h3
  constructor
  · intro h
    rcases h5 with h5 | h5
    · exact Or.inl h5
    · exact Or.inr (h _ h5)
  · intro h k hk
    rcases h8 k hk with rfl | rfl
    · exact hq
    · refine h.resolve_left fun hm => ?_
      have := Borders.known t hk
      have := t.facesFit
      omega

/-- The face before, computed from the sum of the two faces of the edge. -/
theorem prev_eq (t : Tab numEdges edges s) {e f g : Nat} (hb : Borders s f e) (a : Across s e f g) :
    ∃ p, s.edgesFaces[e]? = some p ∧ (p.1 + p.2 + 2 ^ 32 - f) % 2 ^ 32 = g := by
  obtain ⟨p, g0, h1, _, h3, h4, _, _, h7, _⟩ := Across.of t hb
  obtain rfl := Across.unique t hb a h3
  refine ⟨p, h1, ?_⟩
  have hf := Borders.known t hb
  have := t.facesFit
  have hm : missing = 2 ^ 32 - 1 := rfl
  have hg : g ≤ missing := by rcases h4 with h4 | h4 <;> omega
  rcases h7 with rfl | rfl <;> simp only [] <;> omega

end Verif.SplitRow
