import Verif.Refine.RoundLemmas
/-!
# Lemmas: the exact result of a round without hanging nodes
-/
namespace Verif.Refine
open Verif.Mesh Verif.Faces Verif.Circular
variable {P : Type} {mid : P → P → P}

theorem markedUpTo_succ (mask : List Int) (n : Nat) :
    markedUpTo mask (n + 1) = markedUpTo mask n ++ (if mask.getD n 0 = 0 then [] else [n]) := by
  unfold markedUpTo
  rw [List.range_succ, List.filter_append]
  congr 1
  by_cases h : mask.getD n 0 = 0 <;> simp [List.filter_cons, h]

theorem markedUpTo_mono (mask : List Int) {a b : Nat} (h : a ≤ b) : (markedUpTo mask a).length ≤ (markedUpTo mask b).length := by
  induction b with
  | zero => rw [Nat.le_zero.1 h]
  | succ b ih =>
    rcases Nat.lt_or_eq_of_le h with h | rfl
    · have := ih (by omega)
      rw [markedUpTo_succ, List.length_append]
      omega
    · exact Nat.le_refl _

theorem markedUpTo_lt (mask : List Int) {a b : Nat} (h : a < b) (hm : mask.getD a 0 ≠ 0) :
    (markedUpTo mask a).length < (markedUpTo mask b).length := by
  have := markedUpTo_mono mask (show a + 1 ≤ b from h)
  rw [markedUpTo_succ, if_neg hm] at this
  simp at this
  omega

/-- The nodes from `k` on have no edges listed. -/
structure Fresh (k : Nat) (m : Mesh P) : Prop where
  lists : m.nodesEdges.length = m.nodes.length
  counts : m.numEdges.length = m.nodes.length
  none : ∀ n, k ≤ n → n < m.nodes.length → m.numEdges[n]? = some 0

theorem insertNode_fresh {k : Nat} {m : Mesh P} (h : Fresh k m) (v : Option P) : Fresh k (insertNode m v).2 := by
  have e1 : (insertNode m v).2.nodesEdges = m.nodesEdges ++ [[]] := by
    simp [insertNode, h.lists]
    rw [List.take_of_length_le (by rw [h.lists]; omega)]
  have e2 : (insertNode m v).2.numEdges = m.numEdges ++ [0] := by
    simp [insertNode, h.counts]
    rw [List.take_of_length_le (by rw [h.counts]; omega)]
  have e3 : (insertNode m v).2.nodes = m.nodes ++ [v] := rfl
  refine ⟨by rw [e1, e3]; simp [h.lists], by rw [e2, e3]; simp [h.counts], ?_⟩
  intro n h1 h2
  rw [e3] at h2
  simp only [List.length_append, List.length_cons, List.length_nil] at h2
  rw [e2]
  rcases Nat.lt_succ_iff_lt_or_eq.1 h2 with h2 | rfl
  · rw [List.getElem?_append_left (by rw [h.counts]; exact h2)]
    exact h.none n h1 h2
  · rw [List.getElem?_append_right (by rw [h.counts]), h.counts]; simp

theorem connectNodesU_fresh {k : Nat} {m : Mesh P} (h : Fresh k m) {x y : Nat} (hx : k ≤ x) (hx' : x < m.nodes.length)
    (hxm : x ≠ missing) (hy : y ≠ missing) :
    connectNodes m x y = .ok (m.edges.length, { m with edges := m.edges ++ [(x, y)] }) ∧
    connectNodesU m x y = .ok ([.addEdge m.edges.length (x, y)], { m with edges := m.edges ++ [(x, y)] }) := by
  have : findEdge m x y = .ok missing := by
    unfold findEdge
    rw [if_neg (by simp [hxm, hy]), vget_eq_ok.2 (h.none x hx hx'), Res.ok_bind, vget_ok (by rw [h.lists]; exact hx'), Res.ok_bind]
    simp [findEdgeLoop]
  unfold connectNodes connectNodesU
  rw [this]
  simp

theorem connectAll_fresh {k : Nat} : ∀ (l : List (Nat × Nat)) (s : Split P), Fresh k s.mesh →
    (∀ p ∈ l, k ≤ p.1 ∧ p.1 < s.mesh.nodes.length ∧ p.1 ≠ missing ∧ p.2 ≠ missing) →
    ∃ as, connectAll l s = .ok { s with acts := as, mesh := { s.mesh with edges := s.mesh.edges ++ l } }
  | [], s, _, _ => ⟨s.acts, by simp [connectAll]⟩
  | p :: l, s, h, hl => by
    obtain ⟨h1, h2, h3, h4⟩ := hl p List.mem_cons_self
    have e := (connectNodesU_fresh h h1 h2 h3 h4).2
    obtain ⟨as, ha⟩ := connectAll_fresh l { s with acts := s.acts ++ [.addEdge s.mesh.edges.length (p.1, p.2)], mesh := { s.mesh with edges := s.mesh.edges ++ [(p.1, p.2)] } }
      ⟨h.lists, h.counts, h.none⟩ (fun q hq => hl q (List.mem_cons_of_mem _ hq))
    refine ⟨as, ?_⟩
    simp only [connectAll, connect, e, Res.ok_bind, ha]
    simp

/-! ## First loop -/

/-- The edge mask when the edges before `j` have got their middles. -/
def aim (m : Mesh P) (mask : List Int) (j e : Nat) : Int :=
  if e < j ∧ mask.getD e 0 ≠ 0 then (middleNo m mask e : Int) else mask.getD e 0

structure Inv1 (mid : P → P → P) (s : Split P) (j : Nat) (u : Split P) : Prop where
  edges : u.mesh.edges = s.mesh.edges
  nodes : u.mesh.nodes = s.mesh.nodes ++ (markedUpTo s.edge j).map (midPoint mid s.mesh)
  edge : u.edge = (List.range s.mesh.edges.length).map (aim s.mesh s.edge j)
  node : u.node = s.node ++ (markedUpTo s.edge j).map (fun e => middleMark s.node (edgeAt s.mesh e))
  bro : u.bro = s.bro
  fresh : Fresh s.mesh.nodes.length u.mesh

theorem midMask_eq (node : List Int) (a : Edge) : midMask (node.getD a.1 0) (node.getD a.2 0) = middleMark node a := by
  unfold midMask middleMark
  by_cases h1 : node.getD a.1 0 = 0 <;> by_cases h2 : node.getD a.2 0 = 0 <;> by_cases h3 : node.getD a.1 0 = 1 <;>
    by_cases h4 : node.getD a.2 0 = 1 <;> simp_all

theorem aim_succ (m : Mesh P) (mask : List Int) (j e : Nat) (h : e ≠ j) : aim m mask (j + 1) e = aim m mask j e := by
  unfold aim
  by_cases h1 : e < j
  · simp [h1, Nat.lt_succ_of_lt h1]
  · simp [h1, show ¬ e < j + 1 by omega]

theorem getElem?_of_lt {l : List Int} {j : Nat} (h : j < l.length) : l[j]? = some (l.getD j 0) := by
  rw [List.getD_eq_getElem?_getD, List.getElem?_eq_getElem h]; rfl

theorem middleStep_exact {s u : Split P} {st : State} {face : List Int} (r : Ready s.mesh st s.edge face s.node s.bro) {j : Nat}
    (hj : j < s.mesh.edges.length) (h : Inv1 mid s j u) : ∃ v, middleStep mid j u = .ok v ∧ Inv1 mid s (j + 1) v := by
  have hget : u.edge[j]? = some (s.edge.getD j 0) := by
    rw [h.edge, List.getElem?_map, List.getElem?_range hj]
    simp [aim]
  unfold middleStep
  rw [vget_eq_ok.2 hget, Res.ok_bind]
  by_cases h0 : s.edge.getD j 0 = 0
  · rw [if_pos h0]
    refine ⟨u, rfl, h.edges, ?_, ?_, ?_, h.bro, h.fresh⟩
    · rw [markedUpTo_succ, if_pos h0, List.append_nil]; exact h.nodes
    · rw [h.edge]
      apply List.map_congr_left
      intro e _
      by_cases he : e = j
      · subst he; simp only [aim, h0]; simp
      · rw [aim_succ _ _ _ _ he]
    · rw [markedUpTo_succ, if_pos h0, List.append_nil]; exact h.node
  · rw [if_neg h0]
    have hs := r.placed j hj h0
    have he : s.mesh.edges[j]? = some (edgeAt s.mesh j) := by
      simp [edgeAt, List.getElem?_eq_getElem hj]
    have hpq : ∃ p q, s.mesh.nodes[(edgeAt s.mesh j).1]? = some (some p) ∧ s.mesh.nodes[(edgeAt s.mesh j).2]? = some (some q) := by
      unfold seg at hs
      cases ha : s.mesh.nodes[(edgeAt s.mesh j).1]?.join with
      | none => simp [ha] at hs
      | some p =>
        cases hb : s.mesh.nodes[(edgeAt s.mesh j).2]?.join with
        | none => simp [ha, hb] at hs
        | some q => exact ⟨p, q, Option.join_eq_some_iff.1 ha, Option.join_eq_some_iff.1 hb⟩
    obtain ⟨p, q, hp, hq⟩ := hpq
    have ext : Extends s.mesh u.mesh := extends_append h.nodes
    have hmid : midPoint mid s.mesh j = some (mid p q) := by simp [midPoint, seg, hp, hq]
    have l1 := (List.getElem?_eq_some_iff.1 hp).1
    have l2 := (List.getElem?_eq_some_iff.1 hq).1
    have hnl : u.node.length = u.mesh.nodes.length := by rw [h.node, h.nodes]; simp [r.marks]
    have hul : u.mesh.nodes.length = middleNo s.mesh s.edge j := by rw [h.nodes]; simp [middleNo]
    have rd : ∀ x, x < s.mesh.nodes.length → (u.node ++ [1])[x]? = some (s.node.getD x 0) := by
      intro x hx
      rw [List.getElem?_append_left (by rw [hnl, hul]; unfold middleNo; omega), h.node,
        List.getElem?_append_left (by rw [r.marks]; exact hx), getElem?_of_lt (by rw [r.marks]; exact hx)]
    have pt : ∀ x v, s.mesh.nodes[x]? = some (some v) → pointOf u.mesh x = .ok v := by
      intro x v hx
      unfold pointOf
      rw [vget_eq_ok.2 (ext _ _ hx)]; rfl
    have hel : j < u.edge.length := (List.getElem?_eq_some_iff.1 hget).1
    refine ⟨⟨u.acts ++ [.addNode u.mesh.nodes.length (some (mid p q))], (insertNode u.mesh (some (mid p q))).2,
      u.edge.set j (u.mesh.nodes.length : Int), (u.node ++ [1]).set u.mesh.nodes.length (middleMark s.node (edgeAt s.mesh j)), u.bro⟩, ?_, ?_⟩
    · unfold addMiddle
      rw [h.edges, vget_eq_ok.2 he, Res.ok_bind, pt _ _ hp, Res.ok_bind, pt _ _ hq, Res.ok_bind]
      simp only [insertNodeU, Res.ok_bind]
      rw [vset_ok _ hel, Res.ok_bind, vget_eq_ok.2 (rd _ l1), Res.ok_bind, vget_eq_ok.2 (rd _ l2), Res.ok_bind, midMask_eq,
        vset_ok _ (by simp [hnl]), Res.ok_bind]
    · refine ⟨h.edges, ?_, ?_, ?_, h.bro, insertNode_fresh h.fresh _⟩
      · rw [markedUpTo_succ, if_neg h0, List.map_append, ← List.append_assoc, ← h.nodes]
        simp [insertNode, hmid]
      · apply List.ext_getElem?
        intro i
        show (u.edge.set j _)[i]? = _
        by_cases hij : i = j
        · subst hij
          rw [List.getElem?_set_self hel, List.getElem?_map, List.getElem?_range hj, hul, Option.map_some, aim,
            if_pos ⟨Nat.lt_succ_self i, h0⟩]
        · rw [List.getElem?_set_ne (Ne.symm hij), h.edge, List.getElem?_map, List.getElem?_map]
          cases hr : (List.range s.mesh.edges.length)[i]? with
          | none => rfl
          | some x =>
            have : x = i := by
              have := List.getElem?_eq_some_iff.1 hr
              obtain ⟨h1, h2⟩ := this
              simp at h2; omega
            subst this
            simp only [Option.map_some, aim_succ _ _ _ _ hij]
      · show (u.node ++ [1]).set u.mesh.nodes.length _ = _
        rw [← hnl, List.set_append_right _ _ (Nat.le_refl _), markedUpTo_succ, if_neg h0, List.map_append, ← List.append_assoc, ← h.node]
        simp

theorem middles_exact {s : Split P} {st : State} {face : List Int} (r : Ready s.mesh st s.edge face s.node s.bro) :
    ∃ u, forRange 0 s.mesh.edges.length (middleStep mid) s = .ok u ∧ Inv1 mid s s.mesh.edges.length u := by
  refine forRange_inv (f := middleStep mid) (Inv1 mid s) (Nat.zero_le _) ?_ (fun i t _ hi h => middleStep_exact r hi h)
  refine ⟨rfl, by simp [markedUpTo], ?_, by simp [markedUpTo], rfl, r.lists, r.counts, fun n h1 h2 => absurd h2 (by omega)⟩
  apply List.ext_getElem?
  intro i
  rw [List.getElem?_map]
  by_cases hi : i < s.mesh.edges.length
  · rw [List.getElem?_range hi, getElem?_of_lt (by rw [r.masks]; exact hi)]
    simp [aim]
  · rw [List.getElem?_eq_none (by rw [r.masks]; omega), List.getElem?_eq_none (by simp; omega)]; rfl

/-! ## Second loop -/

theorem cyclic_ok {i n : Nat} (h : i < n) : (∃ a, nextBackward i n = .ok a ∧ a < n) ∧ ∃ b, nextForward i n = .ok b ∧ b < n := by
  constructor
  · unfold nextBackward
    rw [if_neg (by omega), if_neg (by omega)]
    refine ⟨_, rfl, ?_⟩
    split <;> omega
  · unfold nextForward
    rw [if_neg (by omega), if_neg (by omega)]
    refine ⟨_, rfl, ?_⟩
    split <;> omega

theorem aim_get {m : Mesh P} {mask : List Int} {n e : Nat} (he : e < n) :
    ((List.range n).map (aim m mask n))[e]? = some (if mask.getD e 0 = 0 then 0 else (middleNo m mask e : Int)) := by
  rw [List.getElem?_map, List.getElem?_range he, Option.map_some, aim]
  by_cases h : mask.getD e 0 = 0
  · rw [if_neg (fun hh => hh.2 h), if_pos h, h]
  · rw [if_pos ⟨he, h⟩, if_neg h]

/-- The new node at a side, if any. -/
def sideOne (m : Mesh P) (mask : List Int) (e : Nat) : List Nat := if mask.getD e 0 = 0 then [] else [middleNo m mask e]

theorem sideMiddles_eq (m : Mesh P) (mask : List Int) (es : List Nat) : sideMiddles m mask es = es.flatMap (sideOne m mask) := by
  unfold sideMiddles
  induction es with
  | nil => rfl
  | cons e l ih =>
    rw [List.flatMap_cons, ← ih, List.filter_cons]
    by_cases h : mask.getD e 0 = 0
    · rw [if_neg (by rw [h]; decide), sideOne, if_pos h]; rfl
    · rw [if_pos (by rw [bne_iff_ne]; exact h), sideOne, if_neg h]; rfl

theorem sideMiddles_length (m : Mesh P) (mask : List Int) (es : List Nat) :
    (sideMiddles m mask es).length = (es.filter (fun e => mask.getD e 0 != 0)).length := by
  unfold sideMiddles; simp

theorem sideNode_exact {m : Mesh P} {mask : List Int} {n : Nat} {edges : List Edge} {es : List Nat} (hes : ∀ e ∈ es, e < n)
    (hpos : ∀ e, e < n → mask.getD e 0 ≠ 0 → 0 < m.nodes.length) {i e : Nat} (hi : es[i]? = some e) :
    sideNode edges ((List.range n).map (aim m mask n)) (List.replicate n missing) es i = .ok (sideOne m mask e) := by
  have hil := (List.getElem?_eq_some_iff.1 hi).1
  obtain ⟨⟨a, ha, ha'⟩, b, hb, hb'⟩ := cyclic_ok hil
  have he := hes e (List.mem_of_getElem? hi)
  unfold sideNode sideOne
  rw [ha, Res.ok_bind, hb, Res.ok_bind, vget_eq_ok.2 hi, Res.ok_bind, vget_ok ha', Res.ok_bind, vget_ok hb', Res.ok_bind,
    vget_eq_ok.2 (show (List.replicate n missing)[e]? = some missing by simp [he]), Res.ok_bind, vget_eq_ok.2 (aim_get he), Res.ok_bind]
  rw [if_neg (by rintro ⟨h1, h2⟩; exact h2 h1.symm)]
  by_cases h : mask.getD e 0 = 0
  · rw [if_pos h, if_pos h, if_neg (by simp)]
  · have := hpos e he h
    rw [if_neg h, if_neg h, if_pos ⟨Or.inr rfl, by unfold middleNo; omega⟩]
    simp

theorem getD_of_lt {l : List Nat} {j : Nat} (h : j < l.length) : l[j]? = some (l.getD j 0) := by
  rw [List.getD_eq_getElem?_getD, List.getElem?_eq_getElem h]; rfl

theorem sideNodes_exact {m : Mesh P} {mask : List Int} {n : Nat} {edges : List Edge} {es : List Nat} (hes : ∀ e ∈ es, e < n)
    (hpos : ∀ e, e < n → mask.getD e 0 ≠ 0 → 0 < m.nodes.length) : ∀ (l acc : List Nat), (∀ i ∈ l, i < es.length) →
    (acc ++ l.flatMap (fun i => sideOne m mask (es.getD i 0))).length < 6 →
    sideNodes edges ((List.range n).map (aim m mask n)) (List.replicate n missing) es l acc =
      .ok (some (acc ++ l.flatMap (fun i => sideOne m mask (es.getD i 0))))
  | [], acc, _, _ => by simp [sideNodes]
  | i :: l, acc, hl, h6 => by
    rw [List.flatMap_cons, ← List.append_assoc] at h6 ⊢
    rw [sideNodes, sideNode_exact hes hpos (getD_of_lt (hl i List.mem_cons_self)), Res.ok_bind, if_neg (by
      rw [List.length_append] at h6; omega)]
    exact sideNodes_exact hes hpos l _ (fun j hj => hl j (List.mem_cons_of_mem _ hj)) h6

theorem sideNodes_full {m : Mesh P} {mask : List Int} {n : Nat} {edges : List Edge} {es : List Nat} (hes : ∀ e ∈ es, e < n)
    (hpos : ∀ e, e < n → mask.getD e 0 ≠ 0 → 0 < m.nodes.length) : ∀ (l acc : List Nat), (∀ i ∈ l, i < es.length) → acc.length < 6 →
    6 ≤ (acc ++ l.flatMap (fun i => sideOne m mask (es.getD i 0))).length →
    sideNodes edges ((List.range n).map (aim m mask n)) (List.replicate n missing) es l acc = .ok none
  | [], acc, _, h, h6 => by simp at h6; omega
  | i :: l, acc, hl, h, h6 => by
    rw [List.flatMap_cons, ← List.append_assoc] at h6
    rw [sideNodes, sideNode_exact hes hpos (getD_of_lt (hl i List.mem_cons_self)), Res.ok_bind]
    by_cases hc : (acc ++ sideOne m mask (es.getD i 0)).length ≥ 6
    · rw [if_pos hc]
    · rw [if_neg hc]
      exact sideNodes_full hes hpos l _ (fun j hj => hl j (List.mem_cons_of_mem _ hj)) (by omega) h6

theorem flatMap_positions (es : List Nat) (g : Nat → List Nat) : (List.range es.length).flatMap (fun i => g (es.getD i 0)) = es.flatMap g := by
  have : es = (List.range es.length).map (fun i => es.getD i 0) := by
    apply List.ext_getElem?
    intro i
    rw [List.getElem?_map]
    by_cases h : i < es.length
    · rw [List.getElem?_range h, getD_of_lt h]; rfl
    · rw [List.getElem?_eq_none (by omega), List.getElem?_eq_none (by simp; omega)]; rfl
  conv_rhs => rw [this]
  rw [List.flatMap_map]

theorem sidesKept_exact {n : Nat} {es : List Nat} (hes : ∀ e ∈ es, e < n) (hn : n ≤ missing) :
    sidesKept (List.replicate n missing) es = .ok es.length := by
  unfold sidesKept
  refine forRange_eq (F := fun i => i) (Nat.zero_le _) ?_
  intro i _ hi
  obtain ⟨a, ha, ha'⟩ := (cyclic_ok hi).1
  have he := hes _ (List.getElem_mem hi)
  have hf := hes _ (List.getElem_mem ha')
  rw [ha, Res.ok_bind, vget_ok hi, Res.ok_bind, vget_ok ha', Res.ok_bind,
    vget_eq_ok.2 (show (List.replicate n missing)[es[i]]? = some missing by simp [he]), Res.ok_bind, if_pos (Or.inr (by omega))]

/-- What is known after the first `k` faces; `s` is the state at the beginning, `s1` the state after the first loop. -/
structure Inv2 (centre : Nat → P) (st : State) (face : List Int) (s s1 : Split P) (k : Nat) (u : Split P) : Prop where
  edges : u.mesh.edges = s1.mesh.edges ++ (List.range k).flatMap (faceEdges s.mesh st s.edge face)
  nodes : u.mesh.nodes = s1.mesh.nodes ++ (centresUpTo st s.edge face k).map (fun f => some (centre f))
  edge : u.edge = s1.edge
  node : u.node = s1.node ++ (centresUpTo st s.edge face k).map (fun f => centreMark s.node ((st.facesNodes[f]?).getD []))
  bro : u.bro = s1.bro
  fresh : Fresh s.mesh.nodes.length u.mesh

theorem centresUpTo_succ (st : State) (mask face : List Int) (n : Nat) :
    centresUpTo st mask face (n + 1) = centresUpTo st mask face n ++ (if hasCentre st mask face n then [n] else []) := by
  unfold centresUpTo
  rw [List.range_succ, List.filter_append]
  congr 1
  by_cases h : hasCentre st mask face n <;> simp [List.filter_cons, h]

theorem centresUpTo_mono (st : State) (mask face : List Int) {a b : Nat} (h : a ≤ b) :
    (centresUpTo st mask face a).length ≤ (centresUpTo st mask face b).length := by
  induction b with
  | zero => rw [Nat.le_zero.1 h]
  | succ b ih =>
    rcases Nat.lt_or_eq_of_le h with h | rfl
    · have := ih (by omega)
      rw [centresUpTo_succ, List.length_append]
      omega
    · exact Nat.le_refl _

theorem mem_sideMiddles {m : Mesh P} {mask : List Int} {es : List Nat} {n x : Nat} (hes : ∀ e ∈ es, e < n) (hx : x ∈ sideMiddles m mask es) :
    m.nodes.length ≤ x ∧ x < m.nodes.length + (markedUpTo mask n).length := by
  unfold sideMiddles at hx
  obtain ⟨e, he, rfl⟩ := List.mem_map.1 hx
  obtain ⟨h1, h2⟩ := List.mem_filter.1 he
  have := markedUpTo_lt mask (hes e h1) (by simpa using h2)
  unfold middleNo
  omega

theorem mem_ring {l : List Nat} {p : Edge} (h : p ∈ ring l) : p.1 ∈ l ∧ p.2 ∈ l := by
  have := List.of_mem_zip h
  refine ⟨this.1, ?_⟩
  rcases List.mem_append.1 this.2 with h | h
  · exact List.mem_of_mem_drop h
  · exact List.mem_of_mem_take h

theorem Ready.pos {m : Mesh P} {st : State} {mask face node : List Int} {bro : List Nat} (r : Ready m st mask face node bro) :
    ∀ e, e < m.edges.length → mask.getD e 0 ≠ 0 → 0 < m.nodes.length := by
  intro e he hme
  have hs := r.placed e he hme
  rcases Nat.eq_zero_or_pos m.nodes.length with h0 | h0
  · have : m.nodes = [] := List.length_eq_zero_iff.1 h0
    rw [this] at hs
    simp [seg] at hs
  · exact h0

theorem refineFace_exact {centre : Nat → P} {st : State} {face : List Int} {s s1 u : Split P}
    (r : Ready s.mesh st s.edge face s.node s.bro) (h1 : Inv1 mid s s.mesh.edges.length s1) {k : Nat} (hk : k < st.facesEdges.length)
    (hm : face.getD k 0 ≠ 0) (hroom : ¬ Full st s.edge face k) (h : Inv2 centre st face s s1 k u) :
    ∃ v, refineFace centre st k u = .ok (some v) ∧ Inv2 centre st face s s1 (k + 1) v := by
  have hes : st.facesEdges[k]? = some (sidesOf st k) := by simp [sidesOf, List.getElem?_eq_getElem hk]
  have hns : st.facesNodes[k]? = some ((st.facesNodes[k]?).getD []) := by
    rw [List.getElem?_eq_getElem (by rw [r.corners]; exact hk)]; rfl
  have hin := r.sides k _ hes
  have hpos := r.pos
  have hroom : ((sidesOf st k).filter (fun e => s.edge.getD e 0 != 0)).length < 6 := Nat.lt_of_not_le (fun hh => hroom ⟨hm, hh⟩)
  have hside : sideNodes u.mesh.edges u.edge u.bro (sidesOf st k) (List.range (sidesOf st k).length) [] =
      .ok (some (sideMiddles s.mesh s.edge (sidesOf st k))) := by
    rw [h.edge, h1.edge, h.bro, h1.bro, r.noHanging, sideMiddles_eq, ← flatMap_positions]
    have := sideNodes_exact (edges := u.mesh.edges) hin hpos (List.range (sidesOf st k).length) [] (fun i hi => List.mem_range.1 hi)
    rw [List.nil_append] at this
    apply this
    rw [flatMap_positions, ← sideMiddles_eq, sideMiddles_length]
    exact hroom
  have hkept : sidesKept u.bro (sidesOf st k) = .ok (sidesOf st k).length := by
    rw [h.bro, h1.bro, r.noHanging]
    exact sidesKept_exact hin r.edgesFit
  have hfresh : ∀ x ∈ sideMiddles s.mesh s.edge (sidesOf st k), s.mesh.nodes.length ≤ x ∧ x < u.mesh.nodes.length ∧ x ≠ missing := by
    intro x hx
    have := mem_sideMiddles hin hx
    have hf := r.fits
    refine ⟨this.1, ?_, by omega⟩
    rw [h.nodes, h1.nodes]
    simp
    omega
  have hcrossed : ((st.facesNodes[k]?).getD []).any (fun n => u.node.getD n 0 != 1) =
      !decide (∀ n ∈ (st.facesNodes[k]?).getD [], s.node.getD n 0 = 1) := by
    have hrd : ∀ n ∈ (st.facesNodes[k]?).getD [], u.node.getD n 0 = s.node.getD n 0 := by
      intro n hn
      have hlt := r.ends k _ hns n hn
      rw [h.node, h1.node, List.append_assoc, List.getD_eq_getElem?_getD, List.getD_eq_getElem?_getD,
        List.getElem?_append_left (by rw [r.marks]; exact hlt)]
    rw [Bool.eq_iff_iff]
    simp only [List.any_eq_true, bne_iff_ne, ne_eq, Bool.not_eq_true', decide_eq_false_iff_not, not_forall]
    constructor
    · rintro ⟨n, h2, h3⟩
      exact ⟨n, h2, by rw [← hrd n h2]; exact h3⟩
    · rintro ⟨n, h2, h3⟩
      exact ⟨n, h2, by rw [hrd n h2]; exact h3⟩
  have hlen : u.mesh.nodes.length = centreNo s.mesh st s.edge face k := by
    rw [h.nodes, h1.nodes]; simp [centreNo]; omega
  have hnode : u.node.length = u.mesh.nodes.length := by
    rw [h.node, h.nodes, h1.node, h1.nodes]; simp [r.marks]
  have hcfit : centreNo s.mesh st s.edge face k ≤ missing := by
    have := centresUpTo_mono st s.edge face (Nat.le_of_lt hk)
    have := r.fits
    unfold centreNo
    omega
  -- the step on mesh and node mask
  suffices hs : ∃ v, connectFace (centre k) (((st.facesNodes[k]?).getD []).any (fun n => u.node.getD n 0 != 1)) (sidesOf st k).length
      (sideMiddles s.mesh s.edge (sidesOf st k)) u = .ok v ∧ Inv2 centre st face s s1 (k + 1) v by
    obtain ⟨v, hv, hi⟩ := hs
    refine ⟨v, ?_, hi⟩
    unfold refineFace
    rw [vget_eq_ok.2 hns, Res.ok_bind, vget_eq_ok.2 hes, Res.ok_bind, hside, Res.ok_bind]
    show (sidesKept u.bro (sidesOf st k) >>= _) = _
    rw [hkept, Res.ok_bind, hv, Res.ok_bind]
  have hplain : ∀ l : List Edge, hasCentre st s.edge face k = false → faceEdges s.mesh st s.edge face k = l → ∀ as,
      Inv2 centre st face s s1 (k + 1) { u with acts := as, mesh := { u.mesh with edges := u.mesh.edges ++ l } } := by
    intro l hc hl as
    refine ⟨?_, ?_, h.edge, ?_, h.bro, h.fresh.lists, h.fresh.counts, h.fresh.none⟩
    · show u.mesh.edges ++ l = _
      rw [h.edges, List.range_succ, List.flatMap_append, ← hl]
      simp
    · show u.mesh.nodes = _
      rw [h.nodes, centresUpTo_succ, hc]; simp
    · show u.node = _
      rw [h.node, centresUpTo_succ, hc]; simp
  unfold connectFace
  by_cases h4 : (sidesOf st k).length ≥ 4
  · rw [if_pos h4]
    by_cases h2 : (sideMiddles s.mesh s.edge (sidesOf st k)).length > 2
    · rw [if_pos h2]
      have hc : hasCentre st s.edge face k = true := by
        unfold hasCentre
        rw [← sideMiddles_length s.mesh]
        simp only [Bool.and_eq_true, bne_iff_ne, decide_eq_true_eq]
        exact ⟨⟨hm, h4⟩, h2⟩
      have hfe : faceEdges s.mesh st s.edge face k = (sideMiddles s.mesh s.edge (sidesOf st k)).map (fun n => (n, u.mesh.nodes.length)) := by
        simp only [faceEdges]
        rw [if_neg hm, if_neg (by omega), hlen]
        split
        · rename_i heq; rw [heq] at h2; simp at h2
        · rename_i heq; rw [heq] at h2; simp at h2
        · rename_i heq; rw [heq] at h2; simp at h2
        · rfl
      have hlt : centreNo s.mesh st s.edge face k < missing := by
        have h5 := centresUpTo_mono st s.edge face (show k + 1 ≤ _ from hk)
        rw [centresUpTo_succ, hc] at h5
        simp at h5
        have := r.fits
        unfold centreNo
        omega
      have hif := insertNode_fresh h.fresh (some (centre k))
      obtain ⟨as, ha⟩ := connectAll_fresh ((sideMiddles s.mesh s.edge (sidesOf st k)).map (fun n => (n, u.mesh.nodes.length)))
        { u with acts := u.acts ++ [.addNode u.mesh.nodes.length (some (centre k))], mesh := (insertNode u.mesh (some (centre k))).2 } hif (by
          intro p hp
          obtain ⟨x, hx, rfl⟩ := List.mem_map.1 hp
          obtain ⟨a1, a2, a3⟩ := hfresh x hx
          refine ⟨a1, ?_, a3, by omega⟩
          show x < (u.mesh.nodes ++ [some (centre k)]).length
          simp; omega)
      unfold addCentre
      simp only [insertNodeU, Res.ok_bind]
      rw [ha, Res.ok_bind]
      have hset : setIf (((st.facesNodes[k]?).getD []).any (fun n => u.node.getD n 0 != 1)) (u.node ++ [1]) u.mesh.nodes.length (-1) =
          .ok (u.node ++ [centreMark s.node ((st.facesNodes[k]?).getD [])]) := by
        rw [hcrossed]
        unfold setIf centreMark
        by_cases ha : ∀ n ∈ (st.facesNodes[k]?).getD [], s.node.getD n 0 = 1
        · rw [if_pos ha, decide_eq_true ha]; rfl
        · rw [if_neg ha, decide_eq_false ha]
          simp only [Bool.not_false, if_true]
          rw [vset_ok _ (by simp [hnode]), ← hnode, List.set_append_right _ _ (Nat.le_refl _)]
          simp
      simp only []
      rw [hset, Res.ok_bind]
      refine ⟨_, rfl, ?_, ?_, h.edge, ?_, h.bro, hif.lists, hif.counts, hif.none⟩
      · show u.mesh.edges ++ _ = _
        rw [h.edges, List.range_succ, List.flatMap_append]
        simp [hfe]
      · show u.mesh.nodes ++ [_] = _
        rw [h.nodes, centresUpTo_succ, hc]
        simp
      · show u.node ++ [_] = _
        rw [h.node, centresUpTo_succ, hc]
        simp
    · rw [if_neg h2]
      have hc : hasCentre st s.edge face k = false := by
        unfold hasCentre
        rw [← sideMiddles_length s.mesh]
        simp [h2]
      by_cases h3 : (sideMiddles s.mesh s.edge (sidesOf st k)).length = 2
      · rw [if_pos h3]
        obtain ⟨x, y, hxy⟩ := List.length_eq_two.1 h3
        have hfe : faceEdges s.mesh st s.edge face k = [(x, y)] := by
          simp only [faceEdges]
          rw [if_neg hm, if_neg (by omega), hxy]
        rw [hxy] at hfresh ⊢
        obtain ⟨as, ha⟩ := connectAll_fresh [(x, y)] u h.fresh (by
          intro p hp
          obtain rfl := List.mem_singleton.1 hp
          obtain ⟨a1, a2, a3⟩ := hfresh x (by simp)
          exact ⟨a1, a2, a3, (hfresh y (by simp)).2.2⟩)
        exact ⟨_, ha, hplain _ hc hfe _⟩
      · rw [if_neg h3]
        have hfe : faceEdges s.mesh st s.edge face k = [] := by
          simp only [faceEdges]
          rw [if_neg hm, if_neg (by omega)]
          split
          · rfl
          · rfl
          · rename_i heq; rw [heq] at h3; simp at h3
          · rename_i h5 h6 h7
            exfalso
            match hq : sideMiddles s.mesh s.edge (sidesOf st k), h2, h3, h5, h6, h7 with
            | [], _, _, h5, _, _ => exact h5 rfl
            | [a], _, _, _, h6, _ => exact h6 a rfl
            | [a, b], _, h3, _, _, _ => exact h3 rfl
            | a :: b :: c :: l, h2, _, _, _, _ => simp at h2
        have := hplain [] hc hfe u.acts
        simp only [List.append_nil] at this
        exact ⟨u, rfl, this⟩
  · rw [if_neg h4]
    have hc : hasCentre st s.edge face k = false := by
      unfold hasCentre
      simp [h4]
    have hfe : faceEdges s.mesh st s.edge face k = ring (sideMiddles s.mesh s.edge (sidesOf st k)) := by
      simp only [faceEdges]
      rw [if_neg hm, if_pos (by omega)]
    obtain ⟨as, ha⟩ := connectAll_fresh (ring (sideMiddles s.mesh s.edge (sidesOf st k))) u h.fresh (by
      intro p hp
      obtain ⟨p1, p2⟩ := mem_ring hp
      obtain ⟨a1, a2, a3⟩ := hfresh p.1 p1
      exact ⟨a1, a2, a3, (hfresh p.2 p2).2.2⟩)
    exact ⟨_, ha, hplain _ hc hfe _⟩

theorem refineFaces_append {centre : Nat → P} {st : State} {face : List Int} {gs : List Nat} : ∀ {fs : List Nat} {s u : Split P},
    refineFaces centre st face fs s = .ok (false, u) → refineFaces centre st face (fs ++ gs) s = refineFaces centre st face gs u
  | [], s, u, h => by
    simp only [refineFaces, Res.ok.injEq, Prod.mk.injEq] at h
    rw [h.2]; rfl
  | g :: fs, s, u, h => by
    simp only [refineFaces, Res.bind_eq_ok] at h
    obtain ⟨k, hk, h⟩ := h
    rw [List.cons_append, refineFaces, hk, Res.ok_bind]
    split at h
    · rename_i h0
      rw [if_pos h0]
      exact refineFaces_append h
    · rename_i h0
      rw [if_neg h0]
      simp only [Res.bind_eq_ok] at h
      obtain ⟨r, hr, h⟩ := h
      rw [hr, Res.ok_bind]
      cases r with
      | none => simp at h
      | some v => exact refineFaces_append (s := v) h

theorem refineFaces_exact {centre : Nat → P} {st : State} {face : List Int} {s s1 : Split P}
    (r : Ready s.mesh st s.edge face s.node s.bro) (h1 : Inv1 mid s s.mesh.edges.length s1) : ∀ k, k ≤ st.facesEdges.length →
    (∀ f, f < k → ¬ Full st s.edge face f) → ∃ u, refineFaces centre st face (List.range k) s1 = .ok (false, u) ∧ Inv2 centre st face s s1 k u
  | 0, _, _ => ⟨s1, rfl, by simp, by simp [centresUpTo], rfl, by simp [centresUpTo], rfl, h1.fresh⟩
  | k + 1, hk, hroom => by
    obtain ⟨u, hu, hi⟩ := refineFaces_exact r h1 k (by omega) (fun f hf => hroom f (by omega))
    have hf : face[k]? = some (face.getD k 0) := getElem?_of_lt (by rw [r.faces]; omega)
    rw [List.range_succ, refineFaces_append hu]
    simp only [refineFaces]
    rw [vget_eq_ok.2 hf, Res.ok_bind]
    by_cases h0 : face.getD k 0 = 0
    · rw [if_pos h0]
      have hc : hasCentre st s.edge face k = false := by unfold hasCentre; rw [h0]; rfl
      have hfe : faceEdges s.mesh st s.edge face k = [] := by simp only [faceEdges]; rw [if_pos h0]
      refine ⟨u, rfl, ?_, ?_, hi.edge, ?_, hi.bro, hi.fresh⟩
      · rw [hi.edges, List.range_succ, List.flatMap_append]
        simp [hfe]
      · rw [hi.nodes, centresUpTo_succ, hc]; simp
      · rw [hi.node, centresUpTo_succ, hc]; simp
    · rw [if_neg h0]
      obtain ⟨v, hv, hw⟩ := refineFace_exact r h1 (by omega) h0 (hroom k (by omega)) hi
      rw [hv, Res.ok_bind]
      exact ⟨v, rfl, hw⟩

/-! ## Third loop -/

/-- The old edges when those before `j` have been cut. -/
def halvedUpTo (m : Mesh P) (mask : List Int) (j e : Nat) : Edge := if e < j then halved m mask e else edgeAt m e

structure Inv3 (s s2 : Split P) (inner : List Edge) (j : Nat) (u : Split P) : Prop where
  edges : u.mesh.edges = (List.range s.mesh.edges.length).map (halvedUpTo s.mesh s.edge j) ++ inner ++
    (markedUpTo s.edge j).map (fun e => (middleNo s.mesh s.edge e, (edgeAt s.mesh e).2))
  nodes : u.mesh.nodes = s2.mesh.nodes
  edge : u.edge = s2.edge
  node : u.node = s2.node
  fresh : Fresh s.mesh.nodes.length u.mesh

theorem halvedUpTo_succ (m : Mesh P) (mask : List Int) {j e : Nat} (h : e ≠ j) : halvedUpTo m mask (j + 1) e = halvedUpTo m mask j e := by
  unfold halvedUpTo
  by_cases h1 : e < j
  · rw [if_pos h1, if_pos (by omega)]
  · rw [if_neg h1, if_neg (by omega)]

theorem cutStep_exact {s s2 u : Split P} {st : State} {face : List Int} {inner : List Edge} (r : Ready s.mesh st s.edge face s.node s.bro)
    (he : s2.edge = (List.range s.mesh.edges.length).map (aim s.mesh s.edge s.mesh.edges.length))
    (hl : s2.mesh.nodes.length = s.mesh.nodes.length + (markedUpTo s.edge s.mesh.edges.length).length +
      (centresUpTo st s.edge face st.facesEdges.length).length)
    {j : Nat} (hj : j < s.mesh.edges.length) (h : Inv3 s s2 inner j u) : ∃ v, cutStep j u = .ok v ∧ Inv3 s s2 inner (j + 1) v := by
  unfold cutStep
  rw [h.edge, he, vget_eq_ok.2 (aim_get hj), Res.ok_bind]
  by_cases h0 : s.edge.getD j 0 = 0
  · rw [if_pos h0, if_neg (by omega)]
    refine ⟨u, rfl, ?_, h.nodes, h.edge, h.node, h.fresh⟩
    rw [h.edges, markedUpTo_succ, if_pos h0, List.append_nil]
    congr 2
    apply List.map_congr_left
    intro e _
    by_cases hej : e = j
    · subst hej
      unfold halvedUpTo halved
      rw [if_neg (Nat.lt_irrefl _), if_pos (Nat.lt_succ_self _), if_pos h0]
    · rw [halvedUpTo_succ _ _ hej]
  · have hs := r.placed j hj h0
    have hpq : (edgeAt s.mesh j).1 < s.mesh.nodes.length ∧ (edgeAt s.mesh j).2 < s.mesh.nodes.length := by
      unfold seg at hs
      cases ha : s.mesh.nodes[(edgeAt s.mesh j).1]?.join with
      | none => simp [ha] at hs
      | some p =>
        cases hb : s.mesh.nodes[(edgeAt s.mesh j).2]?.join with
        | none => simp [ha, hb] at hs
        | some q =>
          exact ⟨(List.getElem?_eq_some_iff.1 (Option.join_eq_some_iff.1 ha)).1, (List.getElem?_eq_some_iff.1 (Option.join_eq_some_iff.1 hb)).1⟩
    have hfit := r.fits
    have hmj : middleNo s.mesh s.edge j < s2.mesh.nodes.length := by
      have := markedUpTo_lt s.edge hj h0
      unfold middleNo
      omega
    have hge : s.mesh.nodes.length ≤ middleNo s.mesh s.edge j := by unfold middleNo; omega
    rw [if_neg h0, if_pos (by omega)]
    unfold cutEdge
    have hget : u.mesh.edges[j]? = some (edgeAt s.mesh j) := by
      rw [h.edges, List.append_assoc, List.getElem?_append_left (by simpa using hj), List.getElem?_map, List.getElem?_range hj]
      simp [halvedUpTo]
    have hjl := (List.getElem?_eq_some_iff.1 hget).1
    obtain ⟨c1, c2⟩ := connectNodesU_fresh h.fresh hge (show middleNo s.mesh s.edge j < u.mesh.nodes.length by rw [h.nodes]; exact hmj)
      (by omega) (show (edgeAt s.mesh j).2 ≠ missing by omega)
    rw [vget_eq_ok.2 hget, Res.ok_bind, Int.toNat_natCast, c1, Res.ok_bind, c2, Res.ok_bind]
    have hre : resetEdgeU { u.mesh with edges := u.mesh.edges ++ [(middleNo s.mesh s.edge j, (edgeAt s.mesh j).2)] } j
        ((edgeAt s.mesh j).1, middleNo s.mesh s.edge j) = .ok ([.resetEdge j (edgeAt s.mesh j) ((edgeAt s.mesh j).1, middleNo s.mesh s.edge j)],
          { u.mesh with edges := (u.mesh.edges.set j ((edgeAt s.mesh j).1, middleNo s.mesh s.edge j)) ++ [(middleNo s.mesh s.edge j, (edgeAt s.mesh j).2)] }) := by
      unfold resetEdgeU resetEdge
      rw [vget_eq_ok.2 (show (u.mesh.edges ++ _)[j]? = some (edgeAt s.mesh j) by rw [List.getElem?_append_left hjl, hget]), Res.ok_bind]
      rw [vset_ok _ (by simp; omega), Res.ok_bind, List.set_append_left _ _ hjl]
      rfl
    rw [hre, Res.ok_bind]
    simp only []
    rw [vset_ok _ (by rw [resize_length]; simp), Res.ok_bind, vset_ok _ (by rw [List.length_set, resize_length]; simp; omega), Res.ok_bind]
    refine ⟨_, rfl, ?_, h.nodes, h.edge, h.node, h.fresh.lists, h.fresh.counts, h.fresh.none⟩
    show u.mesh.edges.set j _ ++ _ = _
    rw [markedUpTo_succ, if_neg h0, List.map_append, ← List.append_assoc]
    congr 1
    rw [h.edges, List.append_assoc, List.set_append_left _ _ (by simpa using hj), List.append_assoc]
    congr 1
    apply List.ext_getElem?
    intro i
    by_cases hij : i = j
    · subst hij
      rw [List.getElem?_set_self (by simpa using hj), List.getElem?_map, List.getElem?_range hj, Option.map_some, halvedUpTo,
        if_pos (Nat.lt_succ_self _), halved, if_neg h0]
    · rw [List.getElem?_set_ne (Ne.symm hij), List.getElem?_map, List.getElem?_map]
      cases hr : (List.range s.mesh.edges.length)[i]? with
      | none => rfl
      | some x =>
        have : x = i := by
          obtain ⟨h1, h2⟩ := List.getElem?_eq_some_iff.1 hr
          simp at h2; omega
        subst this
        simp only [Option.map_some, halvedUpTo_succ _ _ hij]

theorem round_exact_aux {centre : Nat → P} {s : Split P} {st : State} {face : List Int} (r : Ready s.mesh st s.edge face s.node s.bro)
    (hroom : ∀ f, f < st.facesEdges.length → ¬ Full st s.edge face f) :
    ∃ u, refineBySplitting mid centre st face s = .ok u ∧ u.mesh.nodes = roundNodes mid centre s.mesh st s.edge face ∧
      u.mesh.edges = roundEdges s.mesh st s.edge face ∧ u.node = roundMarks s.mesh st s.edge face s.node := by
  obtain ⟨s1, h1, i1⟩ := middles_exact (mid := mid) r
  obtain ⟨s2, h2, i2⟩ := refineFaces_exact (centre := centre) r i1 _ (Nat.le_refl _) hroom
  have hl : s2.mesh.nodes.length = s.mesh.nodes.length + (markedUpTo s.edge s.mesh.edges.length).length +
      (centresUpTo st s.edge face st.facesEdges.length).length := by
    rw [i2.nodes, i1.nodes]; simp; omega
  obtain ⟨u, h3, i3⟩ := forRange_inv (f := cutStep)
    (Inv3 s s2 ((List.range st.facesEdges.length).flatMap (faceEdges s.mesh st s.edge face))) (Nat.zero_le s.mesh.edges.length) (s := s2)
    ⟨by
      rw [i2.edges, i1.edges]
      simp only [markedUpTo, List.range_zero, List.filter_nil, List.map_nil, List.append_nil]
      congr 1
      apply List.ext_getElem?
      intro i
      rw [List.getElem?_map]
      by_cases hi : i < s.mesh.edges.length
      · rw [List.getElem?_range hi, List.getElem?_eq_getElem hi]
        simp [halvedUpTo, edgeAt, hi]
      · rw [List.getElem?_eq_none (by omega), List.getElem?_eq_none (by simp; omega)]; rfl, rfl, rfl, rfl, i2.fresh⟩
    (fun j t _ hj ht => cutStep_exact r (by rw [i2.edge, i1.edge]) hl hj ht)
  refine ⟨u, ?_, ?_, ?_, ?_⟩
  · unfold refineBySplitting
    rw [h1, Res.ok_bind, r.corners, h2, Res.ok_bind]
    exact h3
  · rw [i3.nodes, i2.nodes, i1.nodes]; rfl
  · rw [i3.edges]
    unfold roundEdges
    congr 2
    apply List.map_congr_left
    intro e he
    rw [halvedUpTo, if_pos (List.mem_range.1 he)]
  · rw [i3.node, i2.node, i1.node]; rfl

/-! ## The function returns early -/

theorem round_gives_up_aux {centre : Nat → P} {s : Split P} {st : State} {face : List Int} (r : Ready s.mesh st s.edge face s.node s.bro)
    {k : Nat} (hk : k < st.facesEdges.length) (hfull : Full st s.edge face k) (hroom : ∀ f, f < k → ¬ Full st s.edge face f) :
    ∃ u, refineBySplitting mid centre st face s = .ok u ∧
      u.mesh.nodes = s.mesh.nodes ++ (markedUpTo s.edge s.mesh.edges.length).map (midPoint mid s.mesh) ++
        (centresUpTo st s.edge face k).map (fun f => some (centre f)) ∧
      u.mesh.edges = s.mesh.edges ++ (List.range k).flatMap (faceEdges s.mesh st s.edge face) := by
  obtain ⟨s1, h1, i1⟩ := middles_exact (mid := mid) r
  obtain ⟨s2, h2, i2⟩ := refineFaces_exact (centre := centre) r i1 k (Nat.le_of_lt hk) hroom
  refine ⟨s2, ?_, ?_, ?_⟩
  · unfold refineBySplitting
    rw [h1, Res.ok_bind, r.corners]
    have hsplit : List.range st.facesEdges.length = List.range k ++ k :: (List.range (st.facesEdges.length - k - 1)).map (fun i => k + 1 + i) := by
      conv_lhs => rw [show st.facesEdges.length = (k + 1) + (st.facesEdges.length - k - 1) by omega, List.range_add, List.range_succ]
      simp
    have hes : st.facesEdges[k]? = some (sidesOf st k) := by simp [sidesOf, List.getElem?_eq_getElem hk]
    have hns : st.facesNodes[k]? = some ((st.facesNodes[k]?).getD []) := by
      rw [List.getElem?_eq_getElem (by rw [r.corners]; exact hk)]; rfl
    have hin := r.sides k _ hes
    have hside : sideNodes s2.mesh.edges s2.edge s2.bro (sidesOf st k) (List.range (sidesOf st k).length) [] = .ok none := by
      rw [i2.edge, i1.edge, i2.bro, i1.bro, r.noHanging]
      apply sideNodes_full hin r.pos _ _ (fun i hi => List.mem_range.1 hi) (by simp)
      rw [List.nil_append, flatMap_positions, ← sideMiddles_eq, sideMiddles_length]
      exact hfull.2
    have hrf : refineFace centre st k s2 = .ok none := by
      unfold refineFace
      rw [vget_eq_ok.2 hns, Res.ok_bind, vget_eq_ok.2 hes, Res.ok_bind, hside, Res.ok_bind]
    have : refineFaces centre st face (List.range st.facesEdges.length) s1 = .ok (true, s2) := by
      rw [hsplit, refineFaces_append h2, refineFaces,
        vget_eq_ok.2 (getElem?_of_lt (by rw [r.faces]; exact hk)), Res.ok_bind, if_neg hfull.1, hrf, Res.ok_bind]
    rw [this, Res.ok_bind]
    rfl
  · rw [i2.nodes, i1.nodes]
  · rw [i2.edges, i1.edges]

end Verif.Refine
