import Verif.Flip.LoopLemmas
import Verif.Faces.Props
import Verif.Delete.Props
import Verif.Ortho.TypesLemmas
import Verif.Regions.RemoveLemmas
/-!
# Lemmas: the mesh the flipping starts from, and the end
-/
namespace Verif.Flip
open Verif.Mesh Verif.Faces
open Verif.Polygons (Pt)

theorem linked_of_consistent {edges : List Edge} {cw : List Nat → Bool} {s : State} (h : Consistent edges cw s) : Linked edges s :=
  ⟨h.lengths, fun f ns es h1 h2 => (h.proper f ns es h1 h2).1, h.numFaces, h.edgesFaces, h.faces⟩

/-- After administration the tables are exact. -/
theorem administrateAll_ok {m : Mesh Pt} (hm : Manageable m) (hn : m.nodes ≠ []) (he : m.edges ≠ []) :
    ∃ as m1 s, administrateAll m = .ok (as, m1, s) ∧ doAdministrationCartesian m = .ok (m1, s) ∧ Exact m1 s ∧ Good m as m1 ∧
      m1.edges.length = m.edges.length ∧ m1.nodes.length = m.nodes.length := by
  obtain ⟨m0, m1, s, h0, h1, h2, h3, h4, h5, h6, h7⟩ := cartesian_run m hm.nodesFit (inBounds_of hm.bounds)
  obtain ⟨m', g1, a⟩ := administrate_ok hm hn he (ccwOrder m0.nodes m0.edges) (ccwOrder_perm _ _)
  rw [h3] at g1
  obtain rfl := Res.ok.inj g1
  obtain ⟨m', g2, _, _, g4, _⟩ := administrate_listed (ccwOrder_perm m0.nodes m0.edges) hm.nodesFit (inBounds_of hm.bounds)
  rw [h3] at g2
  obtain rfl := Res.ok.inj g2
  rcases Regions.administrateU_spec (ccwOrder m0.nodes m0.edges) m with ⟨_, q⟩ | ⟨as, m', q1, q2, q3⟩
  · rw [h3] at q; exact absurd q (by simp)
  rw [h3] at q2
  obtain rfl := Res.ok.inj q2
  have hnf : m1.nodes.length ≤ missing := by rw [a.nodesLen]; exact hm.nodesFit
  have hget : ∀ (e : Nat) p, m1.edges[e]? = some p → p = edgeAt m1 e := by
    intro e p h; unfold edgeAt; rw [h]; rfl
  have hlink := linked_of_consistent h5
  have hlt : ∀ e, (seg m.nodes (edgeAt m e)).isSome → e < m1.edges.length := by
    intro e hs
    rw [a.edgesLen]
    refine edgeAt_lt fun hc => ?_
    rw [hc] at hs
    have : m.nodes[missing]? = none := List.getElem?_eq_none hm.nodesFit
    simp [seg, noEdge, this] at hs
  refine ⟨as, m1, s, ?_, h4, ⟨hnf, ?_, ?_, by rw [a.lists, a.nodesLen], a.counts, ?_, ?_, hlink, ?_, h6⟩, q3, a.edgesLen, a.nodesLen⟩
  · unfold administrateAll
    rw [h0, Res.ok_bind, q1, Res.ok_bind]
    simp only []
    rw [h7, Res.ok_bind]
  · intro e p hp
    rcases g4 e p hp with h | h
    · exact Or.inl h
    · refine Or.inr ⟨h.1, h.2, ?_⟩
      have := a.edges e
      rw [← hget e p hp] at this
      split at this
      · rename_i hs
        rw [this]
        exact hm.noLoop e hs
      · rw [this] at h
        have hc := validNode_lt' h.1
        simp only [noEdge] at hc
        omega
  · intro n hv
    have h8 := a.nodes n
    unfold validNode at hv
    rw [h8] at hv
    split at hv
    · rename_i hc
      obtain ⟨p, k1, k2, k3⟩ := (connected_iff hm.nodesFit n).1 hc
      obtain ⟨i, hi, hip⟩ := List.getElem_of_mem k1
      have hp : edgeAt m i = p := by unfold edgeAt; rw [List.getElem?_eq_getElem hi, hip]; rfl
      have hi' : i < m1.edges.length := by rw [a.edgesLen]; exact hi
      refine ⟨i, m1.edges[i], List.getElem?_eq_getElem hi', ?_⟩
      have h9 := a.edges i
      rw [hp, if_pos k2, ← hget i _ (List.getElem?_eq_getElem hi')] at h9
      rw [h9]; exact k3
    · exact absurd hv (by simp)
  · intro n l hl
    have := a.nodup n
    unfold listAt at this
    rw [hl] at this
    exact this
  · intro n l hl e
    have hnlt : n < m1.nodes.length := by rw [a.nodesLen, ← a.lists]; exact (List.getElem?_eq_some_iff.1 hl).1
    have hmem := a.mem n e
    unfold listAt at hmem
    rw [hl] at hmem
    rw [show (some l).getD [] = l from rfl] at hmem
    rw [hmem]
    have h9 := a.edges e
    constructor
    · rintro ⟨k1, k2⟩
      rw [if_pos k1] at h9
      refine ⟨m1.edges[e]'(hlt e k1), List.getElem?_eq_getElem _, ?_⟩
      rw [← hget e _ (List.getElem?_eq_getElem (hlt e k1))] at h9
      rw [h9]; exact k2
    · rintro ⟨p, k1, k2⟩
      rw [← hget e p k1] at h9
      split at h9
      · rename_i hs
        subst h9
        exact ⟨hs, k2⟩
      · subst h9
        simp only [noEdge] at k2
        omega
  · have := hlink.count_faces
    have := hm.edgesFit
    rw [a.edgesLen] at *
    omega

/-- The types of the nodes can be found. -/
theorem types_ok {m : Mesh Pt} {s : State} (h : Exact m s) (sharp : Nat → Nat → Nat → Bool) :
    ∃ types, Ortho.classify m.edges m.nodesEdges s.numFaces sharp m.nodes.length = .ok types ∧ types.length = m.nodes.length := by
  have hfit := h.nodesFit
  unfold Ortho.classify
  obtain ⟨t1, a1, a2⟩ := forRange_inv (f := Ortho.classifyEdge m.edges s.numFaces) (fun _ (t : List Int) => t.length = m.nodes.length)
    (Nat.zero_le m.edges.length) (s := List.replicate m.nodes.length 0) (by simp) (by
      intro i t _ hi ht
      unfold Ortho.classifyEdge
      rw [vget_ok hi, Res.ok_bind]
      by_cases hc : m.edges[i].1 = missing ∨ m.edges[i].2 = missing
      · rw [if_pos hc]; exact ⟨t, rfl, ht⟩
      rw [if_neg hc]
      rcases h.ends i _ (List.getElem?_eq_getElem hi) with hp | ⟨v1, v2, _⟩
      · rw [hp] at hc; exact absurd (Or.inl rfl) hc
      have l1 : m.edges[i].1 < t.length := by rw [ht]; exact validNode_lt' v1
      have l2 : m.edges[i].2 < t.length := by rw [ht]; exact validNode_lt' v2
      rw [vget_ok l1, Res.ok_bind, vget_ok l2, Res.ok_bind]
      split
      · exact ⟨t, rfl, ht⟩
      rw [vget_ok (by rw [h.linked.numFaces]; exact hi), Res.ok_bind]
      split
      · unfold Ortho.hang
        rw [vset_ok _ l1, Res.ok_bind, vset_ok _ (by simpa using l2)]
        exact ⟨_, rfl, by simpa using ht⟩
      split
      · unfold Ortho.bump
        rw [vget_ok l1, Res.ok_bind, vset_ok _ l1, Res.ok_bind, vget_ok (by simpa using l2), Res.ok_bind, vset_ok _ (by simpa using l2)]
        exact ⟨_, rfl, by simpa using ht⟩
      · exact ⟨t, rfl, ht⟩)
  rw [a1, Res.ok_bind]
  obtain ⟨t2, b1, b2⟩ := forRange_inv (f := Ortho.classifyNode m.edges m.nodesEdges s.numFaces sharp) (fun _ (t : List Int) => t.length = m.nodes.length)
    (Nat.zero_le m.nodes.length) (s := t1) a2 (by
      intro n t _ hn ht
      obtain ⟨l, hl⟩ := h.list hn
      have hle : ∀ e ∈ l, e < m.edges.length := by
        intro e he
        obtain ⟨p, hp, _⟩ := (h.listed n l hl e).1 he
        exact (List.getElem?_eq_some_iff.1 hp).1
      have href : ∀ x : Int, ∃ y, Ortho.refineType m.edges s.numFaces sharp n l x = .ok y := by
        intro x
        unfold Ortho.refineType
        split
        · split
          · exact ⟨_, rfl⟩
          · obtain ⟨q, hq⟩ := Ortho.boundaryEnds_first (edges := m.edges) (numFaces := s.numFaces) (n := n) l (s := missing)
              (fun e he => by rw [h.linked.numFaces]; exact hle e he) hle
            rw [hq, Res.ok_bind]
            split
            · exact ⟨_, rfl⟩
            · exact ⟨_, rfl⟩
        · split
          · exact ⟨_, rfl⟩
          · split
            · exact ⟨_, rfl⟩
            · exact ⟨_, rfl⟩
      have hlt : n < t.length := by rw [ht]; exact hn
      obtain ⟨y, hy⟩ := href t[n]
      unfold Ortho.classifyNode
      rw [vget_ok hlt, Res.ok_bind, vget_eq_ok.2 hl, Res.ok_bind, hy, Res.ok_bind, vset_ok _ hlt]
      exact ⟨_, rfl, by simpa using ht⟩)
  exact ⟨t2, b1, b2⟩

theorem Exact.tables {m : Mesh Pt} {s : State} (h : Exact m s) : Ortho.Tables m.edges m.nodesEdges s.numFaces m.nodes.length := by
  have hfit := h.nodesFit
  refine ⟨h.nodesFit, h.lists, h.linked.numFaces, ?_, h.nodup, ?_⟩
  · intro p hp
    obtain ⟨i, hi, rfl⟩ := List.getElem_of_mem hp
    rcases h.ends i _ (List.getElem?_eq_getElem hi) with h | ⟨h1, h2, h3⟩
    · exact Or.inl (by rw [h]; rfl)
    · exact Or.inr (Or.inr ⟨validNode_lt' h1, validNode_lt' h2, h3⟩)
  · intro n l hl e
    rw [h.listed n l hl]
    constructor
    · rintro ⟨p, h1, h2⟩
      have hn : n < m.nodes.length := by rw [← h.lists]; exact (List.getElem?_eq_some_iff.1 hl).1
      rcases h.ends e p h1 with h3 | ⟨h3, h4, _⟩
      · rw [h3] at h2
        simp only [noEdge] at h2
        omega
      · have := validNode_lt' h3
        have := validNode_lt' h4
        exact ⟨p, h1, by omega, by omega, h2⟩
    · rintro ⟨p, h1, _, _, h2⟩
      exact ⟨p, h1, h2⟩

/-- The administration at the end changes neither nodes nor edges. -/
theorem administrateAll_again {m : Mesh Pt} {s : State} (h : Exact m s) :
    ∃ as m1 s1, administrateAll m = .ok (as, m1, s1) ∧ m1.nodes = m.nodes ∧ m1.edges = m.edges ∧ Good m as m1 := by
  have hfit := h.nodesFit
  have hb : inBounds m = true := by
    refine inBounds_of fun p hp => ?_
    obtain ⟨i, hi, rfl⟩ := List.getElem_of_mem hp
    rcases h.ends i _ (List.getElem?_eq_getElem hi) with h | ⟨h1, h2, _⟩
    · exact Or.inl (by rw [h]; rfl)
    · exact Or.inr (Or.inr ⟨validNode_lt' h1, validNode_lt' h2⟩)
  obtain ⟨m0, m1, s1, h0, h1, h2, h3, h4, h5, h6, h7⟩ := cartesian_run m hfit hb
  obtain ⟨m', g1, g2, g3, g4⟩ := Regions.administrate_content (ccwOrder m0.nodes m0.edges) hfit hb
  rw [h3] at g1
  obtain rfl := Res.ok.inj g1
  rcases Regions.administrateU_spec (ccwOrder m0.nodes m0.edges) m with ⟨_, q⟩ | ⟨as, m', q1, q2, q3⟩
  · rw [h3] at q; exact absurd q (by simp)
  rw [h3] at q2
  obtain rfl := Res.ok.inj q2
  have hseg : ∀ p : Edge, validNode m.nodes p.1 = true → validNode m.nodes p.2 = true → (seg m.nodes p).isSome := by
    intro p h1 h2
    unfold validNode at h1 h2
    obtain ⟨x, hx⟩ := Option.isSome_iff_exists.1 h1
    obtain ⟨y, hy⟩ := Option.isSome_iff_exists.1 h2
    simp [seg, hx, hy]
  refine ⟨as, m1, s1, ?_, ?_, ?_, q3⟩
  · unfold administrateAll
    rw [h0, Res.ok_bind, q1, Res.ok_bind]
    simp only []
    rw [h7, Res.ok_bind]
  · rw [g2]
    apply List.ext_getElem?
    intro n
    unfold connectedNodes
    rw [List.getElem?_mapIdx]
    rcases hv : m.nodes[n]? with _ | v
    · rfl
    · cases v with
      | none => simp
      | some v =>
        have hval : validNode m.nodes n = true := by unfold validNode; rw [hv]; rfl
        obtain ⟨e, p, k1, k2⟩ := h.used n hval
        have hc : connected m n = true := by
          refine (connected_iff hfit n).2 ⟨p, List.mem_of_getElem? k1, ?_, k2⟩
          rcases h.ends e p k1 with h3 | ⟨h3, h4, _⟩
          · have := validNode_lt' hval
            rw [h3] at k2
            simp only [noEdge] at k2
            omega
          · exact hseg p h3 h4
        simp [hc]
  · apply List.ext_getElem?
    intro e
    have h9 := g4 e
    by_cases he : e < m.edges.length
    · rw [List.getElem?_eq_getElem he, List.getElem?_eq_getElem (by omega)]
      unfold edgeAt at h9
      rw [List.getElem?_eq_getElem he, List.getElem?_eq_getElem (by omega)] at h9
      simp only [Option.getD_some] at h9
      rw [h9]
      rcases h.ends e _ (List.getElem?_eq_getElem he) with h3 | ⟨h3, h4, _⟩
      · rw [h3]; simp
      · rw [if_pos (hseg _ h3 h4)]
    · rw [List.getElem?_eq_none (by omega), List.getElem?_eq_none (by omega)]

/-- The whole of `Compute`, from a mesh with exact tables. -/
theorem compute_spec {t : Bool} {m m1 : Mesh Pt} {s : State} {as : List (Act Pt)} (hp : prepare t m = .ok (as, m1, s)) (hx : Exact m1 s)
    (hg : Good m as m1) : ∃ types, Ortho.classify m1.edges m1.nodesEdges s.numFaces (fun _ _ _ => false) m1.nodes.length = .ok types ∧
      types.length = m1.nodes.length ∧
      ((compute t m = .ub ∧ Bursts m1.nodes types ⟨m1.edges, s.facesNodes⟩) ∨
      (∃ (acts : List (Act Pt)) (m' : Mesh Pt) (left : Bool) (s' : State), compute t m = .ok (.done acts m' left) ∧ m'.nodes = m1.nodes ∧ Good m acts m' ∧
        Flips m1.nodes types ⟨m1.edges, s.facesNodes⟩ ⟨m'.edges, s'.facesNodes⟩ ∧
        (left = true → ∃ (f : Nat) (ns : List Nat), s.facesNodes[f]? = some ns ∧ ns.length ≠ 3) ∧
        (∃ m'', Exact m'' s' ∧ m''.nodes = m'.nodes ∧ m''.edges = m'.edges ∧
          (left = false → ∀ e, e < m''.edges.length → ¬ BetterAt (wanted types) m'' s' e))) ∨
      ∃ (m' : Mesh Pt) (s' : State), compute t m = .ok (.failed m') ∧ m'.nodes = m1.nodes ∧ Flips m1.nodes types ⟨m1.edges, s.facesNodes⟩ ⟨m'.edges, s'.facesNodes⟩ ∧
        energy (wanted types) m1.nodes.length m'.edges + 10 ≤ energy (wanted types) m1.nodes.length m1.edges) := by
  obtain ⟨types, h1, h2⟩ := types_ok hx (fun _ _ _ => false)
  refine ⟨types, h1, h2, ?_⟩
  have hall : flipAll t m = rounds (ccwOrder m1.nodes) types m1.edges.length 10 ⟨m1, s, as, missing, false⟩ := by
    unfold flipAll
    rw [hp, Res.ok_bind]
    simp only []
    rw [h1, Res.ok_bind]
  unfold compute
  rw [hall]
  rcases rounds_spec (order := ccwOrder m1.nodes) (fun es n l => ccwOrder_perm _ _ _ _) (types := types) 10 ⟨m1, s, as, missing, false⟩ hx h2 rfl
    (fun h => absurd h (by simp [missing])) with ⟨g1, g2⟩ | ⟨st, g1, g2, g3, g4, g5⟩
  · left
    simp only [] at g1
    rw [g1]
    exact ⟨rfl, g2⟩
  · simp only [] at g1
    rw [g1, Res.ok_bind]
    obtain ⟨bs, b1, b2⟩ := g2.acts
    simp only [] at b1 b2
    rcases Bool.eq_false_or_eq_true st.left with hl | hl
    · rw [if_pos hl]
      right; left
      refine ⟨_, _, _, st.faces, rfl, g2.nodes, by rw [b1]; exact hg.trans b2, g2.flips, fun _ => g3 hl, st.mesh, g2.exact, rfl, rfl, fun h => ?_⟩
      exact absurd h (by decide)
    · rw [if_neg (by rw [hl]; decide)]
      by_cases hf : st.flipped = 0
      · rw [if_neg (not_not.2 hf)]
        obtain ⟨cs, m', s', c1, c2, c3, c4⟩ := administrateAll_again g2.exact
        rw [c1, Res.ok_bind]
        right; left
        refine ⟨_, _, _, st.faces, rfl, c2.trans g2.nodes, by rw [b1]; exact (hg.trans b2).trans c4, ?_, fun h => absurd h (by decide), st.mesh, g2.exact,
          c2.symm, c3.symm, fun _ => g4 hl hf⟩
        rw [c3]
        exact g2.flips
      · rw [if_pos hf]
        right; right
        exact ⟨_, st.faces, rfl, g2.nodes, g2.flips, g5 hl hf⟩

end Verif.Flip
