import Verif.SmallFlow.AdminLemmas
/-!
# Lemmas: deleting the small flow edges
-/
namespace Verif.SmallFlow
open Verif.Mesh Verif.Faces Verif.Quality Verif.Delete
open Verif.Polygons (Pt)

theorem erased_edge {m m' : Mesh Pt} {S : Nat → Prop} (hn : m.nodes.length ≤ missing) (h : Erased m m' S) {i : Nat}
    (hs : (seg m'.nodes (edgeAt m' i)).isSome) : ¬ S i ∧ edgeAt m' i = edgeAt m i ∧ (seg m.nodes (edgeAt m i)).isSome := by
  rw [h.nodes] at hs
  have h1 : ¬ S i := by
    intro hS
    rw [h.gone i hS, Delete.seg_noEdge hn] at hs
    cases hs
  have h2 := h.kept i h1
  rw [h2] at hs
  exact ⟨h1, h2, hs⟩

/-- Fewer edges: the mesh can still be administrated. -/
theorem erased_manageable {m m' : Mesh Pt} {S : Nat → Prop} (hm : Manageable m) (h : Erased m m' S) : Manageable m' := by
  refine ⟨by rw [h.nodes]; exact hm.nodesFit, by rw [h.len]; exact hm.edgesFit, ?_, ?_, ?_, ?_⟩
  · intro e he
    obtain ⟨i, hi, rfl⟩ := List.getElem_of_mem he
    have e1 : edgeAt m' i = m'.edges[i] := by simp [edgeAt, hi]
    have hi' : i < m.edges.length := by rw [← h.len]; exact hi
    by_cases hS : S i
    · rw [← e1, h.gone i hS]; exact Or.inl rfl
    · have e2 : edgeAt m i = m.edges[i] := by simp [edgeAt, hi']
      rw [← e1, h.kept i hS, e2, h.nodes]
      exact hm.bounds _ (List.getElem_mem hi')
  · intro i hs
    obtain ⟨_, h2, h3⟩ := erased_edge hm.nodesFit h hs
    rw [h2]
    exact hm.noLoop i h3
  · intro i j hij hi hj
    obtain ⟨_, a2, a3⟩ := erased_edge hm.nodesFit h hi
    obtain ⟨_, b2, b3⟩ := erased_edge hm.nodesFit h hj
    rw [a2, b2]
    exact hm.noDup i j hij a3 b3
  · intro n hn
    rw [h.nodes] at hn
    refine Nat.le_trans ?_ (hm.degree n hn)
    rw [h.len]
    apply List.countP_mono_left
    intro i _ hi
    rw [Bool.and_eq_true] at hi ⊢
    obtain ⟨_, a2, a3⟩ := erased_edge hm.nodesFit h hi.1
    refine ⟨a3, ?_⟩
    rw [← a2]
    exact hi.2

theorem reduced_of {m1 d m2 : Mesh Pt} {S : Nat → Prop} (hm : Manageable m1) (hd : ∀ e, edgeAt m1 e ≠ noEdge → (seg m1.nodes (edgeAt m1 e)).isSome)
    (h : Erased m1 d S) (a : Administrated d m2) : Reduced m1 m2 (fun e => edgeAt m1 e ≠ noEdge ∧ ¬ S e) := by
  have hdm := erased_manageable hm h
  have seg_keep : ∀ e, edgeAt m1 e ≠ noEdge → ¬ S e → (seg d.nodes (edgeAt d e)).isSome := by
    intro e h1 h2
    rw [h.nodes, h.kept e h2]
    exact hd e h1
  have hlen : m2.nodes.length = m1.nodes.length := by rw [a.nodesLen, h.nodes]
  have used : ∀ i, (∃ e, (edgeAt m1 e ≠ noEdge ∧ ¬ S e) ∧ touches (edgeAt m1 e) i) ↔ Used d i := by
    intro i
    constructor
    · rintro ⟨e, ⟨h1, h2⟩, h3⟩
      have hk := h.kept e h2
      have hlt : e < d.edges.length := edgeAt_lt (by rw [hk]; exact h1)
      have e1 : edgeAt d e = d.edges[e] := by simp [edgeAt, hlt]
      refine ⟨d.edges[e], List.getElem_mem hlt, ?_, ?_⟩
      · rw [← e1]; exact seg_keep e h1 h2
      · rw [← e1, hk]; exact h3
    · rintro ⟨p, hp, h1, h2⟩
      obtain ⟨e, he, rfl⟩ := List.getElem_of_mem hp
      have e1 : edgeAt d e = d.edges[e] := by simp [edgeAt, he]
      rw [← e1] at h1 h2
      obtain ⟨a1, a2, a3⟩ := erased_edge hm.nodesFit h h1
      refine ⟨e, ⟨?_, a1⟩, by rw [← a2]; exact h2⟩
      intro hno
      rw [hno, Delete.seg_noEdge hm.nodesFit] at a3
      cases a3
  refine ⟨hlen, by rw [a.edgesLen, h.len], ?_, ?_, ?_, ?_⟩
  · rintro e ⟨h1, h2⟩
    rw [a.edges e, if_pos (seg_keep e h1 h2)]
    exact h.kept e h2
  · intro e hk
    rw [a.edges e]
    split
    · rename_i hs
      obtain ⟨a1, a2, a3⟩ := erased_edge hm.nodesFit h hs
      rw [a2]
      by_contra hne
      exact hk ⟨hne, a1⟩
    · rfl
  · intro i hi
    have hu := (used i).1 hi
    have hc := (connected_iff hdm.nodesFit i).2 hu
    have hj := a.nodes i
    rw [if_pos hc, h.nodes] at hj
    by_cases hl : i < m1.nodes.length
    · rw [List.getElem?_eq_getElem hl, List.getElem?_eq_getElem (by omega)] at hj ⊢
      simpa using hj
    · rw [List.getElem?_eq_none (by omega), List.getElem?_eq_none (by omega)]
  · intro i hl hi
    have hc : ¬ connected d i = true := fun q => hi ((used i).2 ((connected_iff hdm.nodesFit i).1 q))
    have hj := a.nodes i
    rw [if_neg hc, List.getElem?_eq_getElem (by omega)] at hj
    rw [List.getElem?_eq_getElem (by omega)]
    simpa using hj

theorem reduced_self {m1 m : Mesh Pt} (hm : Manageable m) (a : Administrated m m1) {keep : Nat → Prop} (hk : ∀ e, edgeAt m1 e ≠ noEdge ↔ keep e) :
    Reduced m1 m1 keep := by
  obtain ⟨hu, hd⟩ := administrated_idem hm a
  refine ⟨rfl, rfl, fun _ _ => rfl, ?_, fun _ _ => rfl, ?_⟩
  · intro e he
    by_contra hne
    exact he ((hk e).1 hne)
  · intro i hl hi
    cases hp : m1.nodes[i]? with
    | none => rw [List.getElem?_eq_getElem hl] at hp; cases hp
    | some v =>
      cases v with
      | none => rfl
      | some p =>
        exfalso
        obtain ⟨q, hq, h1, h2⟩ := hu i p hp
        obtain ⟨e, he, rfl⟩ := List.getElem_of_mem hq
        have e1 : edgeAt m1 e = m1.edges[e] := by simp [edgeAt, he]
        apply hi
        refine ⟨e, (hk e).1 ?_, by rw [e1]; exact h2⟩
        intro hno
        rw [← e1, hno, Delete.seg_noEdge (by rw [a.nodesLen]; exact hm.nodesFit)] at h1
        cases h1

/-- The state after the small flow edges have been deleted. -/
structure Flowed (other : List Pt → List Nat → Pt) (threshold : ℚ) (m m1 : Mesh Pt) (s : State) (as : List (Act Pt)) (m2 : Mesh Pt) (s2 : State) : Prop where
  run : doAdministrationCartesian m = .ok (m1, s)
  reduced : Reduced m1 m2 (fun e => edgeAt m1 e ≠ noEdge ∧ ¬ ShortFlow other m1 s threshold e)
  good : Good m as m2
  again : doAdministrationCartesian m2 = .ok (m2, s2)
  ready : Ready m2 s2
  from_ : ∃ d, Manageable d ∧ Administrated d m2
  manageable : Manageable m2
  nodes : m2.nodes ≠ []
  edges : m2.edges ≠ []

theorem deleteSmallFlowEdges_ok (other : List Pt → List Nat → Pt) (threshold : ℚ) {m : Mesh Pt} (hm : Manageable m) (hn : m.nodes ≠ [])
    (he : m.edges ≠ []) : ∃ as m1 s m2 s2, deleteSmallFlowEdges other threshold m = .ok (as, m2, s2) ∧ Flowed other threshold m m1 s as m2 s2 := by
  classical
  obtain ⟨as, m1, s, h1, h2, h3, h4, h5, h6, h7, h8⟩ := deleteDegenerated_ok hm hn he
  have h9 := admin_again hm hn he h2
  obtain ⟨es, _, q1, _, q2, _⟩ := small_flow_exact other h6.nodesFit (inBounds_of h6.bounds) h9 h5.faces threshold
  obtain ⟨hu, hd⟩ := administrated_idem hm h4
  have e0 : deleteSmallFlowEdges other threshold m = (if es.isEmpty then .ok (as, m1, s)
      else do
        let d ← deleteEdgesU m1 es
        let q ← Flip.administrateAll d.2
        .ok (as ++ d.1 ++ q.1, q.2)) := by
    unfold deleteSmallFlowEdges
    rw [h1, Res.ok_bind]
    simp only []
    rw [h9, Res.ok_bind]
    simp only []
    rw [q1, Res.ok_bind]
  have hlt : ∀ e, edgeAt m1 e ≠ noEdge → e < m1.edges.length := fun e h => edgeAt_lt h
  by_cases hes : es = []
  · subst hes
    refine ⟨as, m1, s, m1, s, by rw [e0]; rfl, ⟨h2, ?_, h3, h9, h5, ⟨m, hm, h4⟩, h6, h7, h8⟩⟩
    apply reduced_self hm h4
    intro e
    constructor
    · intro h
      refine ⟨h, fun hs => ?_⟩
      exact absurd ((q2 e).2 ⟨hlt e h, hs⟩) (by simp)
    · exact fun h => h.1
  · obtain ⟨ds, d, d1, d2, d3⟩ := Regions.deleteEdgesU_ok es (fun e h => ((q2 e).1 h).1) h6.edgesFit
    have hdm := erased_manageable h6 d3
    have hdn : d.nodes ≠ [] := by rw [d3.nodes]; exact h7
    have hde : d.edges ≠ [] := by
      intro h
      have := d3.len
      rw [h] at this
      exact h8 (List.length_eq_zero_iff.1 this.symm)
    obtain ⟨bs, m2, s2, g1, g2, g3, g4, g5, g6, g7, g8⟩ := administrated hdm hdn hde
    refine ⟨as ++ ds ++ bs, m1, s, m2, s2, ?_, ⟨h2, ?_, (h3.trans d2).trans g3, admin_again hdm hdn hde g2, g5, ⟨d, hdm, g4⟩, g6, g7, g8⟩⟩
    · rw [e0, if_neg (by simpa [List.isEmpty_iff] using hes), d1, Res.ok_bind]
      simp only []
      rw [g1, Res.ok_bind]
    · have hr := reduced_of h6 hd d3 g4
      have hiff : ∀ e, (edgeAt m1 e ≠ noEdge ∧ ¬ e ∈ es) ↔ (edgeAt m1 e ≠ noEdge ∧ ¬ ShortFlow other m1 s threshold e) := by
        intro e
        constructor
        · rintro ⟨a, b⟩; exact ⟨a, fun hs => b ((q2 e).2 ⟨hlt e a, hs⟩)⟩
        · rintro ⟨a, b⟩; exact ⟨a, fun hs => b ((q2 e).1 hs).2⟩
      have : (fun e => edgeAt m1 e ≠ noEdge ∧ ¬ e ∈ es) = (fun e => edgeAt m1 e ≠ noEdge ∧ ¬ ShortFlow other m1 s threshold e) :=
        funext fun e => propext (hiff e)
      rw [← this]
      exact hr

end Verif.SmallFlow
