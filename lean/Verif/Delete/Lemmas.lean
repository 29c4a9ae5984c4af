import Verif.Delete.Spec
import Verif.Regions.RemoveLemmas
import Verif.Mesh.PropsLemmas
import Verif.Faces.PropsLemmas
/-!
# Lemmas about the deletion of a part of a mesh
-/
namespace Verif.Delete
open Verif.Mesh Verif.Faces Verif.Regions
variable {P : Type}

/-! ### Edges and nodes -/

theorem deleteEdgeU_ok {m : Mesh P} {e : Nat} (h : e < m.edges.length) (hfit : m.edges.length ≤ missing) :
    ∃ as m', deleteEdgeU m e = .ok (as, m') ∧ Good m as m' ∧ Erased m m' (fun j => j = e) := by
  obtain ⟨m', h1, h2⟩ := deleteEdge_ok h hfit
  rcases meshOf_eq (deleteEdge_agree m e) with ⟨r, a, b⟩ | ⟨a, b⟩ | ⟨a, b⟩
  · rw [h1] at b
    refine ⟨r.1, m', ?_, ?_, h2⟩
    · rw [a, Res.ok.inj b]
    · rw [Res.ok.inj b]; exact deleteEdgeU_good a
  · rw [h1] at b; cases b
  · rw [h1] at b; cases b

theorem deleteNodeU_ok {m : Mesh P} {n : Nat} {l : List Nat} (hn : n < m.nodes.length) (hl : m.nodesEdges[n]? = some l)
    (h : ∀ e ∈ l, e < m.edges.length) (hfit : m.edges.length ≤ missing) :
    ∃ as m' m0, deleteNodeU m n = .ok (as, m') ∧ Good m as m' ∧ Erased m m0 (fun j => j ∈ l) ∧ m' = { m0 with nodes := m.nodes.set n none } := by
  obtain ⟨as, m0, h1, h2, h3⟩ := deleteEdgesU_ok l h hfit
  have hs : setNode m0 n none = .ok { m0 with nodes := m.nodes.set n none } := by
    unfold setNode
    rw [h3.nodes, vset_ok _ hn, Res.ok_bind]
  have hd : deleteNodeU m n = .ok (as ++ [.deleteNode n m.nodes[n]], { m0 with nodes := m.nodes.set n none }) := by
    unfold deleteNodeU
    have : vget m.nodesEdges n = .ok l := by simp [vget, hl]
    rw [if_neg (by omega), vget_ok hn, Res.ok_bind, this, Res.ok_bind, h1, Res.ok_bind, hs, Res.ok_bind]
  exact ⟨_, _, m0, hd, deleteNodeU_good hd, h3, rfl⟩

/-- A mesh whose edges are deleted or join valid nodes. -/
structure Sound (m : Mesh P) : Prop where
  nodesFit : m.nodes.length ≤ missing
  edgesFit : m.edges.length ≤ missing
  drawn : ∀ e, edgeAt m e ≠ noEdge → (seg m.nodes (edgeAt m e)).isSome

theorem seg_ends {nodes : List (Option P)} {e : Edge} (h : (seg nodes e).isSome) :
    ∃ a b, nodes[e.1]? = some (some a) ∧ nodes[e.2]? = some (some b) := by
  unfold seg at h
  have join : ∀ (i : Nat) a, nodes[i]?.join = some a → nodes[i]? = some (some a) := by
    intro i a h
    cases h1 : nodes[i]? with
    | none => rw [h1] at h; cases h
    | some v => rw [h1] at h; simp at h; rw [h]
  split at h
  · rename_i a b ha hb
    exact ⟨a, b, join _ _ ha, join _ _ hb⟩
  · cases h

theorem seg_of_ends {nodes : List (Option P)} {e : Edge} {a b : P} (h1 : nodes[e.1]? = some (some a)) (h2 : nodes[e.2]? = some (some b)) :
    seg nodes e = some (a, b) := by
  simp [seg, h1, h2]

theorem Sound.lt {m : Mesh P} (h : Sound m) {e n : Nat} (he : edgeAt m e ≠ noEdge) (ht : touches (edgeAt m e) n) :
    ∃ p, m.nodes[n]? = some (some p) := by
  obtain ⟨a, b, h1, h2⟩ := seg_ends (h.drawn e he)
  rcases ht with ht | ht
  · exact ⟨a, ht ▸ h1⟩
  · exact ⟨b, ht ▸ h2⟩

theorem seg_noEdge {nodes : List (Option P)} (h : nodes.length ≤ missing) : seg nodes noEdge = none := by
  have : nodes[missing]? = none := by simp; omega
  simp [seg, noEdge, this]

/-! ### The administration at the end -/

/-- The final administration keeps the edges that are left and invalidates the nodes they do not use. -/
theorem finish {m m2 : Mesh P} {keep : Nat → Prop} [DecidablePred keep] (hs : Sound m) (hk : ∀ e, keep e → edgeAt m e ≠ noEdge)
    (hlen : m2.edges.length = m.edges.length) (hnl : m2.nodes.length = m.nodes.length)
    (he : ∀ e, edgeAt m2 e = if keep e then edgeAt m e else noEdge)
    (hnode : ∀ i, (∃ e, keep e ∧ touches (edgeAt m e) i) → m2.nodes[i]? = m.nodes[i]?)
    (order : Nat → List Nat → List Nat) :
    ∃ as m', administrateU order m2 = .ok (as, m') ∧ Good m2 as m' ∧ Reduced m m' keep := by
  have hseg : ∀ e, keep e → (seg m2.nodes (edgeAt m e)).isSome := by
    intro e hke
    obtain ⟨a, b, h1, h2⟩ := seg_ends (hs.drawn e (hk e hke))
    rw [seg_of_ends (a := a) (b := b)]
    · rfl
    · rw [hnode _ ⟨e, hke, Or.inl rfl⟩]; exact h1
    · rw [hnode _ ⟨e, hke, Or.inr rfl⟩]; exact h2
  have hfit : m2.nodes.length ≤ missing := by rw [hnl]; exact hs.nodesFit
  have hb : inBounds m2 = true := by
    apply inBounds_of
    intro e hmem
    obtain ⟨i, hi, hie⟩ := List.getElem_of_mem hmem
    have e1 : edgeAt m2 i = e := by simp [edgeAt, hi, hie]
    rw [he i] at e1
    split at e1
    · rename_i hki
      obtain ⟨a, b, h1, h2⟩ := seg_ends (hseg i hki)
      rw [e1] at h1 h2
      exact Or.inr (Or.inr ⟨(List.getElem?_eq_some_iff.1 h1).1, (List.getElem?_eq_some_iff.1 h2).1⟩)
    · rw [← e1]; simp [noEdge]
  obtain ⟨m', b1, b2, b3, b4⟩ := administrate_content order hfit hb
  rcases administrateU_spec order m2 with ⟨c1, c2⟩ | ⟨as, m'', c1, c2, c3⟩
  · rw [b1] at c2; cases c2
  rw [b1] at c2
  have em : m'' = m' := (Res.ok.inj c2).symm
  rw [em] at c1 c3
  have used : ∀ i, connected m2 i = true ↔ ∃ e, keep e ∧ touches (edgeAt m e) i := by
    intro i
    rw [connected_iff hfit]
    constructor
    · rintro ⟨e, hmem, hsg, ht⟩
      obtain ⟨j, hj, hje⟩ := List.getElem_of_mem hmem
      have e1 : edgeAt m2 j = e := by simp [edgeAt, hj, hje]
      rw [he j] at e1
      split at e1
      · rename_i hkj
        exact ⟨j, hkj, by rw [e1]; exact ht⟩
      · rw [← e1, seg_noEdge hfit] at hsg; cases hsg
    · rintro ⟨e, hke, ht⟩
      have h1 : edgeAt m2 e = edgeAt m e := by rw [he e, if_pos hke]
      refine ⟨edgeAt m e, ?_, hseg e hke, ht⟩
      have hne := hk e hke
      rw [← h1] at hne ⊢
      have hlt := edgeAt_lt hne
      simp [edgeAt, hlt]
  refine ⟨as, m', c1, c3, ?_, b3.trans hlen, ?_, ?_, ?_, ?_⟩
  · rw [b2, connectedNodes_length, hnl]
  · intro e hke
    rw [b4 e, he e, if_pos hke, if_pos (hseg e hke)]
  · intro e hke
    rw [b4 e, he e, if_neg hke, seg_noEdge hfit]
    simp
  · intro i hi
    have hc := (used i).2 hi
    rw [b2, connectedNodes, List.getElem?_mapIdx, ← hnode i hi]
    cases m2.nodes[i]? with
    | none => rfl
    | some v => simp [hc]
  · intro i hi hno
    have hc : connected m2 i = false := by
      cases hc : connected m2 i with
      | false => rfl
      | true => exact absurd ((used i).1 hc) hno
    have hi' : i < m2.nodes.length := by rw [hnl]; exact hi
    rw [b2, connectedNodes, List.getElem?_mapIdx, List.getElem?_eq_getElem hi']
    simp [hc]

/-! ### The loop over the edges -/

/-- The edges at node `n` that are left when the edges before `e` are done. -/
def remaining (m : Mesh P) (keep : Nat → Bool) (e n : Nat) : Nat := ((listAt m n).filter (fun j => decide (e ≤ j) || keep j)).length

theorem filter_length_lt {α : Type} {p q : α → Bool} (hpq : ∀ x, q x = true → p x = true) :
    ∀ (l : List α), (l.filter q).length ≤ (l.filter p).length ∧
      ∀ x ∈ l, p x = true → q x = false → (l.filter q).length + 1 ≤ (l.filter p).length
  | [] => ⟨Nat.le_refl _, by intro x hx; cases hx⟩
  | y :: l => by
    obtain ⟨h1, h2⟩ := filter_length_lt hpq l
    have hle : ((y :: l).filter q).length ≤ ((y :: l).filter p).length := by
      cases hq : q y with
      | true => simp [hq, hpq y hq, h1]
      | false =>
        cases hp : p y with
        | true => simp [hq, hp]; omega
        | false => simp [hq, hp]; exact h1
    refine ⟨hle, ?_⟩
    intro x hx px qx
    rcases List.mem_cons.1 hx with rfl | hx
    · simp [qx, px]; exact h1
    · have := h2 x hx px qx
      cases hq : q y with
      | true => simp [hq, hpq y hq]; omega
      | false =>
        cases hp : p y with
        | true => simp [hq, hp]; omega
        | false => simp [hq, hp]; exact this

theorem remaining_le (m : Mesh P) (keep : Nat → Bool) (e n : Nat) : remaining m keep (e + 1) n ≤ remaining m keep e n := by
  refine (filter_length_lt (fun x h => ?_) _).1
  simp only [Bool.or_eq_true, decide_eq_true_eq] at h ⊢
  rcases h with h | h
  · exact Or.inl (by omega)
  · exact Or.inr h

theorem remaining_lt {m : Mesh P} {keep : Nat → Bool} {e n : Nat} (h : e ∈ listAt m n) (hk : keep e = false) :
    remaining m keep (e + 1) n + 1 ≤ remaining m keep e n := by
  refine (filter_length_lt (fun x h => ?_) _).2 e h ?_ ?_
  · simp only [Bool.or_eq_true, decide_eq_true_eq] at h ⊢
    rcases h with h | h
    · exact Or.inl (by omega)
    · exact Or.inr h
  · simp
  · simp [hk]

theorem countDown_ok {count : List Nat} {n : Nat} (h : n = missing ∨ n < count.length) :
    ∃ c, countDown count n = .ok c ∧ c.length = count.length ∧ (∀ i, i ≠ n → c[i]? = count[i]?) ∧
      (n ≠ missing → c[n]? = (count[n]?).map (· - 1)) := by
  unfold countDown
  by_cases hm : n = missing
  · exact ⟨count, by rw [if_pos hm], rfl, fun _ _ => rfl, fun h => absurd hm h⟩
  · have hn : n < count.length := h.resolve_left hm
    rw [if_neg hm, vget_ok hn, Res.ok_bind]
    by_cases hp : count[n] > 0
    · rw [if_pos hp, vset_ok _ hn]
      refine ⟨_, rfl, by simp, fun i hi => by rw [List.getElem?_set_ne (Ne.symm hi)], fun _ => ?_⟩
      rw [List.getElem?_set_self hn, List.getElem?_eq_getElem hn]
      rfl
    · rw [if_neg hp]
      refine ⟨_, rfl, rfl, fun _ _ => rfl, fun _ => ?_⟩
      rw [List.getElem?_eq_getElem hn]
      have : count[n] = 0 := by omega
      simp [this]

/-- The state of the loop before edge `e`. -/
structure EdgeInv (m : Mesh P) (keep : Nat → Bool) (e : Nat) (l : Loop P) : Prop where
  good : Good m l.acts l.mesh
  erased : Erased m l.mesh (fun j => j < e ∧ keep j = false)
  flagsLen : l.flags.length = m.nodes.length
  flags : ∀ j, j < e → keep j = true → ∀ n, touches (edgeAt m j) n → l.flags[n]? = some false
  countLen : l.count.length = m.nodes.length
  count : ∀ n k, l.count[n]? = some k → remaining m keep e n ≤ k

theorem edgeStep_ok {m : Mesh P} {keep : Nat → Bool} {K : Nat → Res Bool} (w : WF m) (hsimple : Simple m) (hs : Sound m)
    (hK : ∀ e, e < m.edges.length → K e = .ok (keep e)) (hk : ∀ e, keep e = true → edgeAt m e ≠ noEdge) {e : Nat} (he : e < m.edges.length)
    {l : Loop P} (inv : EdgeInv m keep e l) : ∃ l', edgeStep K e l = .ok l' ∧ EdgeInv m keep (e + 1) l' := by
  unfold edgeStep
  rw [hK e he, Res.ok_bind]
  have hel : e < l.mesh.edges.length := by rw [inv.erased.len]; exact he
  rw [vget_edge hel, Res.ok_bind]
  have hsame : edgeAt l.mesh e = edgeAt m e := inv.erased.kept e (by omega)
  rw [hsame]
  cases hke : keep e with
  | true =>
    simp only [if_true]
    have hne := hk e hke
    obtain ⟨a, b, h1, h2⟩ := seg_ends (hs.drawn e hne)
    have l1 : (edgeAt m e).1 < l.flags.length := by rw [inv.flagsLen]; exact (List.getElem?_eq_some_iff.1 h1).1
    have l2 : (edgeAt m e).2 < (l.flags.set (edgeAt m e).1 false).length := by
      rw [List.length_set, inv.flagsLen]; exact (List.getElem?_eq_some_iff.1 h2).1
    rw [vset_ok _ l1, Res.ok_bind, vset_ok _ l2, Res.ok_bind]
    refine ⟨_, rfl, inv.good, ?_, ?_, ?_, inv.countLen, ?_⟩
    · refine inv.erased.congr ?_ ?_
      · rintro j ⟨h3, h4⟩
        left
        refine ⟨?_, h4⟩
        rcases Nat.lt_succ_iff_lt_or_eq.1 h3 with h | rfl
        · exact h
        · rw [hke] at h4; cases h4
      · rintro j ⟨h3, h4⟩
        exact Or.inl ⟨by omega, h4⟩
    · simp [inv.flagsLen]
    · intro j hj hkj n ht
      show ((l.flags.set _ false).set _ false)[n]? = _
      have hlen : n < l.flags.length := by
        rw [inv.flagsLen]
        obtain ⟨p, hp⟩ := hs.lt (hk j hkj) ht
        exact (List.getElem?_eq_some_iff.1 hp).1
      by_cases q2 : (edgeAt m e).2 = n
      · rw [q2, List.getElem?_set_self (by simpa using hlen)]
      · rw [List.getElem?_set_ne q2]
        by_cases q1 : (edgeAt m e).1 = n
        · rw [q1, List.getElem?_set_self hlen]
        · rw [List.getElem?_set_ne q1]
          rcases Nat.lt_succ_iff_lt_or_eq.1 hj with h | rfl
          · exact inv.flags j h hkj n ht
          · rcases ht with h | h
            · exact absurd h q1
            · exact absurd h q2
    · intro n k hn
      exact Nat.le_trans (remaining_le m keep e n) (inv.count n k hn)
  | false =>
    simp only [Bool.false_eq_true, if_false]
    have bnd : ((edgeAt m e).1 = missing ∨ (edgeAt m e).1 < l.count.length) ∧ ((edgeAt m e).2 = missing ∨ (edgeAt m e).2 < l.count.length) := by
      rw [inv.countLen]
      rcases w.bounds e with h | h
      · rw [h]; exact ⟨Or.inl rfl, Or.inl rfl⟩
      · exact ⟨Or.inr h.1, Or.inr h.2⟩
    obtain ⟨c1, a1, a2, a3, a4⟩ := countDown_ok bnd.1
    obtain ⟨c2, b1, b2, b3, b4⟩ := countDown_ok (count := c1) (n := (edgeAt m e).2) (by rw [a2]; exact bnd.2)
    obtain ⟨as, m', d1, d2, d3⟩ := deleteEdgeU_ok hel (by rw [inv.erased.len]; exact w.edgesFit)
    rw [a1, Res.ok_bind, b1, Res.ok_bind, d1, Res.ok_bind]
    refine ⟨_, rfl, inv.good.trans d2, ?_, inv.flagsLen, ?_, ?_, ?_⟩
    · refine inv.erased.trans d3 ?_ ?_ ?_
      · rintro j ⟨h3, h4⟩
        rcases Nat.lt_succ_iff_lt_or_eq.1 h3 with h | rfl
        · exact Or.inl ⟨h, h4⟩
        · exact Or.inr rfl
      · rintro j ⟨h3, h4⟩
        exact Or.inl ⟨by omega, h4⟩
      · rintro j rfl
        exact Or.inl ⟨by omega, hke⟩
    · intro j hj hkj n ht
      rcases Nat.lt_succ_iff_lt_or_eq.1 hj with h | rfl
      · exact inv.flags j h hkj n ht
      · rw [hke] at hkj; cases hkj
    · show c2.length = _
      rw [b2, a2, inv.countLen]
    · intro n k hn
      have hn' : c2[n]? = some k := hn
      have hle := remaining_le m keep e n
      by_cases hno : edgeAt m e = noEdge
      · -- nothing is counted down
        have hnm : n ≠ missing := by
          have := (List.getElem?_eq_some_iff.1 hn').1
          rw [b2, a2, inv.countLen] at this
          have := w.nodesFit
          omega
        rw [b3 n (by rw [hno]; exact hnm), a3 n (by rw [hno]; exact hnm)] at hn'
        exact Nat.le_trans hle (inv.count n k hn')
      · have hl := hsimple.noLoop e hno
        have m1 : (edgeAt m e).1 ≠ missing := by
          rcases w.bounds e with h | h
          · exact absurd h hno
          · have := w.nodesFit; omega
        have m2 : (edgeAt m e).2 ≠ missing := by
          rcases w.bounds e with h | h
          · exact absurd h hno
          · have := w.nodesFit; omega
        by_cases q2 : n = (edgeAt m e).2
        · rw [q2, b4 m2, a3 _ (Ne.symm hl), ← q2] at hn'
          obtain ⟨k', hk', hkk⟩ := Option.map_eq_some_iff.1 hn'
          have := inv.count n k' hk'
          have := remaining_lt (m := m) (n := n) (w.complete e n hno (Or.inr q2.symm)) hke
          omega
        · rw [b3 n q2] at hn'
          by_cases q1 : n = (edgeAt m e).1
          · rw [q1, a4 m1, ← q1] at hn'
            obtain ⟨k', hk', hkk⟩ := Option.map_eq_some_iff.1 hn'
            have := inv.count n k' hk'
            have := remaining_lt (m := m) (n := n) (w.complete e n hno (Or.inl q1.symm)) hke
            omega
          · rw [a3 n q1] at hn'
            exact Nat.le_trans hle (inv.count n k hn')

/-! ### The loop over the nodes -/

/-- The state of the loop before node `n`. -/
structure NodeInv (m : Mesh P) (keep : Nat → Bool) (n : Nat) (r : List (Act P) × Mesh P) : Prop where
  good : Good m r.1 r.2
  lists : r.2.nodesEdges = m.nodesEdges
  edgesLen : r.2.edges.length = m.edges.length
  edges : ∀ j, edgeAt r.2 j = if keep j then edgeAt m j else noEdge
  nodesLen : r.2.nodes.length = m.nodes.length
  nodes : ∀ i, (∃ e, keep e = true ∧ touches (edgeAt m e) i) → r.2.nodes[i]? = m.nodes[i]?

theorem nodeStep_ok {m : Mesh P} {keep : Nat → Bool} (w : WF m) (hk : ∀ e, keep e = true → edgeAt m e ≠ noEdge) {l : Loop P}
    (inv : EdgeInv m keep m.edges.length l) {n : Nat} (hn : n < m.nodes.length) {r : List (Act P) × Mesh P} (nv : NodeInv m keep n r) :
    ∃ r', nodeStep l.flags l.count n r = .ok r' ∧ NodeInv m keep (n + 1) r' := by
  have n1 : n < l.flags.length := by rw [inv.flagsLen]; exact hn
  have n2 : n < l.count.length := by rw [inv.countLen]; exact hn
  have n3 : n < r.2.nodes.length := by rw [nv.nodesLen]; exact hn
  unfold nodeStep
  rw [vget_ok n1, Res.ok_bind, vget_ok n2, Res.ok_bind, vget_ok n3, Res.ok_bind]
  split
  · rename_i hc
    have hfree : ∀ j, keep j = true → ¬ touches (edgeAt m j) n := by
      intro j hkj ht
      have hne := hk j hkj
      have hlt := edgeAt_lt hne
      simp only [Bool.and_eq_true, Bool.or_eq_true, beq_iff_eq] at hc
      rcases hc.1 with h | h
      · have := inv.flags j hlt hkj n ht
        rw [List.getElem?_eq_getElem n1, h] at this
        cases this
      · have := inv.count n _ (List.getElem?_eq_getElem n2)
        rw [h] at this
        have hmem := w.complete j n hne ht
        have : j ∈ (listAt m n).filter (fun i => decide (m.edges.length ≤ i) || keep i) := List.mem_filter.2 ⟨hmem, by simp [hkj]⟩
        have := List.length_pos_of_mem this
        unfold remaining at *
        omega
    have hl : r.2.nodesEdges[n]? = some (listAt m n) := by
      rw [nv.lists]
      have : n < m.nodesEdges.length := by rw [w.lists]; exact hn
      simp [listAt, this]
    have hlist : ∀ e ∈ listAt m n, e < r.2.edges.length := by
      intro e he
      rw [nv.edgesLen]
      exact (w.listed n e he).1
    obtain ⟨as, m', m0, d1, d2, d3, d4⟩ := deleteNodeU_ok n3 hl hlist (by rw [nv.edgesLen]; exact w.edgesFit)
    rw [d1, Res.ok_bind]
    refine ⟨_, rfl, nv.good.trans d2, ?_, ?_, ?_, ?_, ?_⟩
    · show m'.nodesEdges = _
      rw [d4]
      exact d3.nodesEdges.trans nv.lists
    · show m'.edges.length = _
      rw [d4]
      exact d3.len.trans nv.edgesLen
    · intro j
      show edgeAt m' j = _
      have : edgeAt m' j = edgeAt m0 j := by rw [d4]; rfl
      rw [this]
      by_cases hj : j ∈ listAt m n
      · rw [d3.gone j hj]
        cases hkj : keep j with
        | false => rfl
        | true =>
          rcases (w.listed n j hj).2 with h | h
          · exact absurd h (hk j hkj)
          · exact absurd h (hfree j hkj)
      · rw [d3.kept j hj]; exact nv.edges j
    · show m'.nodes.length = _
      rw [d4]
      simp [nv.nodesLen]
    · rintro i ⟨e, he, ht⟩
      show m'.nodes[i]? = _
      rw [d4]
      show (r.2.nodes.set n none)[i]? = _
      have hin : n ≠ i := by rintro rfl; exact hfree e he ht
      rw [List.getElem?_set_ne hin]
      exact nv.nodes i ⟨e, he, ht⟩
  · exact ⟨r, rfl, nv.good, nv.lists, nv.edgesLen, nv.edges, nv.nodesLen, nv.nodes⟩

/-- The two loops and the final administration. -/
theorem loops_ok {m : Mesh P} {keep : Nat → Bool} {K : Nat → Res Bool} (w : WF m) (hsimple : Simple m) (hs : Sound m)
    (hK : ∀ e, e < m.edges.length → K e = .ok (keep e)) (hk : ∀ e, keep e = true → edgeAt m e ≠ noEdge)
    (flags : List Bool) (hfl : flags.length = m.nodes.length) (order : Nat → List Nat → List Nat) :
    ∃ l r q, forRange 0 m.edges.length (edgeStep K) ⟨flags, m.numEdges, [], m⟩ = .ok l ∧
      forRange 0 m.nodes.length (nodeStep l.flags l.count) (l.acts, l.mesh) = .ok r ∧ administrateU order r.2 = .ok q ∧
      Good m (r.1 ++ q.1) q.2 ∧ Reduced m q.2 (fun e => keep e = true) := by
  have start : EdgeInv m keep 0 (⟨flags, m.numEdges, [], m⟩ : Loop P) := by
    refine ⟨Good.refl m, Erased.refl m (by intro j h; omega), hfl, by intro j h; omega, ?_, ?_⟩
    · show m.numEdges.length = _
      rw [w.counts, List.length_map, w.lists]
    · intro n k hnk
      have hnk' : m.numEdges[n]? = some k := hnk
      rw [w.counts, List.getElem?_map] at hnk'
      obtain ⟨x, hx, rfl⟩ := Option.map_eq_some_iff.1 hnk'
      have : listAt m n = x := by simp [listAt, hx]
      unfold remaining
      rw [this]
      exact List.length_filter_le _ _
  obtain ⟨l, l1, l2⟩ := forRange_inv (f := edgeStep K) (fun e l => EdgeInv m keep e l) (Nat.zero_le _) start
    (fun e l _ he inv => edgeStep_ok w hsimple hs hK hk he inv)
  have hedges : ∀ j, edgeAt l.mesh j = if keep j then edgeAt m j else noEdge := by
    intro j
    cases hkj : keep j with
    | true => rw [l2.erased.kept j (by simp [hkj])]; rfl
    | false =>
      by_cases hj : j < m.edges.length
      · rw [l2.erased.gone j ⟨hj, hkj⟩]; rfl
      · rw [l2.erased.kept j (by omega)]
        simp [edgeAt, List.getElem?_eq_none (by omega : m.edges.length ≤ j)]
  have nstart : NodeInv m keep 0 (l.acts, l.mesh) :=
    ⟨l2.good, l2.erased.nodesEdges, l2.erased.len, hedges, by rw [l2.erased.nodes], fun i _ => by rw [l2.erased.nodes]⟩
  obtain ⟨r, r1, r2⟩ := forRange_inv (f := nodeStep l.flags l.count) (fun n r => NodeInv m keep n r) (Nat.zero_le _) nstart
    (fun n r _ hn nv => nodeStep_ok w hk l2 hn nv)
  obtain ⟨as, m', q1, q2, q3⟩ := finish (keep := fun e => keep e = true) hs hk r2.edgesLen r2.nodesLen (fun e => by rw [r2.edges e]) r2.nodes order
  exact ⟨l, r, (as, m'), l1, r1, q1, r2.good.trans q2, q3⟩

end Verif.Delete
