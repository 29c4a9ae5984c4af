import Verif.Regions.LabelLemmas
import Verif.Mesh.AgreeLemmas
import Verif.Mesh.AdminLemmas
import Verif.Mesh.History
/-!
# Lemmas about the removal of faces and about administration with undo
-/
namespace Verif.Regions
open Verif.Mesh
variable {P : Type}

theorem deleteEdgesU_ok {m : Mesh P} (es : List Nat) (h : ∀ e ∈ es, e < m.edges.length)
    (hfit : m.edges.length ≤ missing) :
    ∃ as m', deleteEdgesU m es = .ok (as, m') ∧ Good m as m' ∧ Erased m m' (fun j => j ∈ es) := by
  obtain ⟨m', h1, h2⟩ := deleteEdges_ok es h hfit
  rcases meshOf_eq (deleteEdges_agree es m) with ⟨r, a, b⟩ | ⟨a, b⟩ | ⟨a, b⟩
  · rw [h1] at b
    refine ⟨r.1, m', ?_, ?_, h2⟩
    · rw [a, Res.ok.inj b]
    · rw [Res.ok.inj b]; exact deleteEdgesU_good es a
  · rw [h1] at b; cases b
  · rw [h1] at b; cases b

theorem removeFaces_spec {fe : List (List Nat)} {l : List Nat} (r : Nat) (hlen : l.length = fe.length) :
    ∀ (is : List Nat) (m : Mesh P), (∀ i ∈ is, i < fe.length) →
      (∀ f e, OnFace fe f e → e < m.edges.length) → m.edges.length ≤ missing →
      ∃ as m', removeFaces fe l r is m = .ok (as, m') ∧ Good m as m' ∧
        Erased m m' (fun e => ∃ f, f ∈ is ∧ lab l f ≠ r ∧ OnFace fe f e)
  | [], m, _, _, _ => ⟨[], m, rfl, Good.refl m, Erased.refl m (by rintro j ⟨f, h, _⟩; simp at h)⟩
  | i :: is, m, his, he, hfit => by
    simp only [removeFaces]
    have hi := his i (by simp)
    rw [vget_lab (by rw [hlen]; exact hi), Res.ok_bind]
    by_cases hr : lab l i = r
    · simp only [ne_eq, hr, not_true_eq_false, if_false]
      obtain ⟨as, m', h1, h2, h3⟩ := removeFaces_spec r hlen is m (fun j hj => his j (by simp [hj])) he hfit
      refine ⟨as, m', h1, h2, h3.congr ?_ ?_⟩
      · rintro e ⟨f, g1, g2, g3⟩
        rw [List.mem_cons] at g1
        cases g1 with
        | inl h => subst h; exact absurd hr g2
        | inr h => exact Or.inl ⟨f, h, g2, g3⟩
      · rintro e ⟨f, g1, g2, g3⟩
        exact Or.inl ⟨f, by simp [g1], g2, g3⟩
    · simp only [ne_eq, hr, not_false_eq_true, if_true]
      rw [vget_ok hi, Res.ok_bind]
      obtain ⟨as, m1, h1, h2, h3⟩ := deleteEdgesU_ok (m := m) fe[i]
        (fun e h => he i e ⟨fe[i], by simp [hi], h⟩) hfit
      rw [h1, Res.ok_bind]
      obtain ⟨bs, m', k1, k2, k3⟩ := removeFaces_spec r hlen is m1 (fun j hj => his j (by simp [hj]))
        (by rw [h3.len]; exact he) (by rw [h3.len]; exact hfit)
      simp only
      rw [k1, Res.ok_bind]
      refine ⟨_, _, rfl, h2.trans k2, h3.trans k3 ?_ ?_ ?_⟩
      · rintro e ⟨f, g1, g2, g3⟩
        rw [List.mem_cons] at g1
        cases g1 with
        | inl h =>
          subst h
          obtain ⟨es, q1, q2⟩ := g3
          rw [List.getElem?_eq_getElem hi] at q1
          left
          show e ∈ fe[f]
          rw [Option.some.inj q1]; exact q2
        | inr h => exact Or.inr ⟨f, h, g2, g3⟩
      · intro e h
        exact Or.inl ⟨i, by simp, hr, fe[i], by simp [hi], h⟩
      · rintro e ⟨f, g1, g2, g3⟩
        exact Or.inl ⟨f, by simp [g1], g2, g3⟩

/-! ### Administration with undo actions -/

theorem invalidateNodesU_spec (c : Nat → Bool) : ∀ (ns : List Nat) (m : Mesh P), (∀ n ∈ ns, n < m.nodes.length) →
    ∃ as m', invalidateNodesU c ns m = .ok (as, m') ∧ Good m as m' ∧
      m' = { m with nodes := m.nodes.mapIdx (fun i v => if i ∈ ns ∧ c i = false then none else v) }
  | [], m, _ => by
    refine ⟨[], m, rfl, Good.refl m, ?_⟩
    cases m
    congr 1
    apply List.ext_getElem?
    intro i
    simp
  | n :: ns, m, h => by
    simp only [invalidateNodesU, invalidateNodeU]
    have hn := h n (by simp)
    cases hc : c n with
    | true =>
      simp only [if_true, Res.ok_bind]
      obtain ⟨as, m', h1, h2, h3⟩ := invalidateNodesU_spec c ns m (fun j hj => h j (by simp [hj]))
      rw [h1, Res.ok_bind]
      refine ⟨_, _, rfl, by simpa using h2, ?_⟩
      rw [h3]
      simp only [Mesh.mk.injEq, and_true]
      apply List.ext_getElem?
      intro i
      simp only [List.getElem?_mapIdx]
      congr 1
      funext v
      by_cases hi : i = n
      · subst hi; simp [hc]
      · simp [hi]
    | false =>
      simp only [Bool.false_eq_true, if_false]
      have e1 : resetNodeU m n none = .ok ([.resetNode n m.nodes[n] none], { m with nodes := m.nodes.set n none }) := by
        unfold resetNodeU setNode
        rw [if_neg (by omega), vget_ok hn, Res.ok_bind, vset_ok _ hn, Res.ok_bind, Res.ok_bind]
      have g1 := resetNodeU_good e1
      rw [e1, Res.ok_bind]
      obtain ⟨as, m', h1, h2, h3⟩ := invalidateNodesU_spec c ns { m with nodes := m.nodes.set n none }
        (fun j hj => by simpa using h j (by simp [hj]))
      simp only
      rw [h1, Res.ok_bind]
      refine ⟨_, _, rfl, g1.trans h2, ?_⟩
      rw [h3]
      simp only [Mesh.mk.injEq, and_true]
      apply List.ext_getElem?
      intro i
      simp only [List.getElem?_mapIdx]
      by_cases hi : i = n
      · subst hi; simp [hc, hn]
      · simp [hi, List.getElem?_set_ne (Ne.symm hi)]

theorem validEdge_noEdge (ns : List (Option P)) : validEdge ns noEdge = false := by
  simp [validEdge, hasNodes, noEdge]

theorem invalidateEdgesU_spec : ∀ (es : List Nat) (m : Mesh P), (∀ n ∈ es, n < m.edges.length) →
    ∃ as m', invalidateEdgesU es m = .ok (as, m') ∧ Good m as m' ∧
      m' = { m with edges := m.edges.mapIdx (fun i v => if i ∈ es ∧ validEdge m.nodes v = false then noEdge else v) }
  | [], m, _ => by
    refine ⟨[], m, rfl, Good.refl m, ?_⟩
    cases m
    congr 1
    apply List.ext_getElem?
    intro i
    simp
  | n :: ns, m, h => by
    simp only [invalidateEdgesU, invalidateEdgeU]
    have hn := h n (by simp)
    rw [vget_ok hn, Res.ok_bind]
    cases hc : validEdge m.nodes m.edges[n] with
    | true =>
      simp only [if_true, Res.ok_bind]
      obtain ⟨as, m', h1, h2, h3⟩ := invalidateEdgesU_spec ns m (fun j hj => h j (by simp [hj]))
      rw [h1, Res.ok_bind]
      refine ⟨_, _, rfl, by simpa using h2, ?_⟩
      rw [h3]
      simp only [Mesh.mk.injEq, true_and, and_true]
      apply List.ext_getElem?
      intro i
      simp only [List.getElem?_mapIdx]
      by_cases hi : i = n
      · subst hi; simp [hc, hn]
      · simp [hi]
    | false =>
      simp only [Bool.false_eq_true, if_false]
      have e1 : resetEdgeU m n noEdge = .ok ([.resetEdge n m.edges[n] noEdge], { m with edges := m.edges.set n noEdge }) := by
        unfold resetEdgeU resetEdge
        rw [vget_ok hn, Res.ok_bind, vset_ok _ hn, Res.ok_bind, Res.ok_bind]
      have g1 := resetEdgeU_good e1
      rw [e1, Res.ok_bind]
      obtain ⟨as, m', h1, h2, h3⟩ := invalidateEdgesU_spec ns { m with edges := m.edges.set n noEdge }
        (fun j hj => by simpa using h j (by simp [hj]))
      simp only
      rw [h1, Res.ok_bind]
      refine ⟨_, _, rfl, g1.trans h2, ?_⟩
      rw [h3]
      simp only [Mesh.mk.injEq, true_and, and_true]
      apply List.ext_getElem?
      intro i
      simp only [List.getElem?_mapIdx]
      by_cases hi : i = n
      · subst hi; simp [hc, hn, validEdge_noEdge]
      · simp [hi, List.getElem?_set_ne (Ne.symm hi)]

theorem setUnconnectedInvalidU_spec (m : Mesh P) :
    (setUnconnectedInvalidU m = .ub ∧ setUnconnectedInvalid m = .ub) ∨
    ∃ as m', setUnconnectedInvalidU m = .ok (as, m') ∧ setUnconnectedInvalid m = .ok m' ∧ Good m as m' := by
  unfold setUnconnectedInvalidU setUnconnectedInvalid
  cases hb : inBounds m with
  | false => left; simp
  | true =>
    right
    simp only [Bool.not_true, Bool.false_eq_true, if_false]
    obtain ⟨as, m1, h1, h2, h3⟩ := invalidateNodesU_spec (connected m) (List.range m.nodes.length) m (by simp)
    have e : m1 = { m with nodes := connectedNodes m } := by
      rw [h3]
      congr 1
      unfold connectedNodes
      apply List.ext_getElem?
      intro i
      simp only [List.getElem?_mapIdx]
      cases hi : m.nodes[i]? with
      | none => rfl
      | some v =>
        have hl := (List.getElem?_eq_some_iff.1 hi).1
        cases hc : connected m i <;> simp [hl]
    rw [h1, Res.ok_bind]
    subst e
    simp only
    by_cases hz : numInvalidEdges m = 0 ∧ numInvalidNodes m = 0
    · have hz' : numInvalidEdges m = 0 ∧ (connectedNodes m).countP (fun v => !v.isSome) = 0 := hz
      rw [if_pos hz, if_pos hz']
      exact ⟨as, _, rfl, rfl, h2⟩
    · have hz' : ¬ (numInvalidEdges m = 0 ∧ (connectedNodes m).countP (fun v => !v.isSome) = 0) := hz
      rw [if_neg hz, if_neg hz']
      obtain ⟨bs, m2, k1, k2, k3⟩ := invalidateEdgesU_spec (List.range m.edges.length)
        { m with nodes := connectedNodes m } (by simp)
      rw [k1, Res.ok_bind]
      refine ⟨_, _, rfl, ?_, h2.trans k2⟩
      rw [k3]
      congr 2
      apply List.ext_getElem?
      intro i
      simp only [List.getElem?_mapIdx, List.getElem?_map]
      cases hi : m.edges[i]? with
      | none => rfl
      | some v =>
        have hl := (List.getElem?_eq_some_iff.1 hi).1
        cases hc : validEdge (connectedNodes m) v <;> simp [hl, hc]

/-- Administration with undo actions is administration, and it is recorded. -/
theorem administrateU_spec (order : Nat → List Nat → List Nat) (m : Mesh P) :
    (administrateU order m = .ub ∧ administrate order m = .ub) ∨
    ∃ as m', administrateU order m = .ok (as, m') ∧ administrate order m = .ok m' ∧ Good m as m' := by
  unfold administrateU administrate
  rcases setUnconnectedInvalidU_spec m with ⟨h1, h2⟩ | ⟨as, m', h1, h2, h3⟩
  · left; simp [h1, h2]
  · right
    rw [h1, h2, Res.ok_bind]
    simp only
    split
    · exact ⟨_, _, rfl, rfl, h3⟩
    · refine ⟨_, _, rfl, rfl, ?_⟩
      refine ⟨h3.chain, h3.nodes, h3.edges, h3.fits, fun _ => ?_⟩
      have : ∀ (k : Nat) (is : List Nat), (is.foldl (adminStep m'.edges) (List.replicate k [])).length = k := by
        intro k is
        have hstep : ∀ (a : List (List Nat)) e, (adminStep m'.edges a e).length = a.length := by
          intro a e
          unfold adminStep pushEdge
          repeat' split
          all_goals (simp; try (split <;> simp))
        have : ∀ (is : List Nat) (a : List (List Nat)), (is.foldl (adminStep m'.edges) a).length = a.length := by
          intro is
          induction is with
          | nil => intro a; rfl
          | cons i is ih => intro a; rw [List.foldl_cons, ih, hstep]
        rw [this]; simp
      simp [nodeAdministration, this]

/-- Nodes and edges after administration. -/
theorem administrate_content (order : Nat → List Nat → List Nat) {m : Mesh P} (hn : m.nodes.length ≤ missing)
    (hb : inBounds m = true) :
    ∃ m', administrate order m = .ok m' ∧ m'.nodes = connectedNodes m ∧ m'.edges.length = m.edges.length ∧
      ∀ i, edgeAt m' i = if (seg m.nodes (edgeAt m i)).isSome then edgeAt m i else noEdge := by
  obtain ⟨m1, h1, h2, h3, h4⟩ := setUnconnectedInvalid_ok hn hb
  unfold administrate
  rw [h1]
  simp only
  split
  · exact ⟨m1, rfl, h2, h3, h4⟩
  · exact ⟨_, rfl, h2, h3, h4⟩

end Verif.Regions
