import Verif.MergeClose.EndLemmas
import Verif.Mesh.History
/-!
# C63: merging the nodes that lie close together
-/
namespace Verif.MergeClose
open Verif.Mesh
variable {P : Type}

/-- Every node selected by the polygons has a drawn edge. -/
def AllUsed (polygons : List (P → Bool)) (m : Mesh P) : Prop :=
  ∀ i, i < m.nodes.length → inFirst polygons (m.nodes[i]?).join = true → Used m i

/-- Two different selected nodes that lie close together, the second one later in the list of nodes. -/
def NearUp (close : P → P → Bool) (polygons : List (P → Bool)) (m : Mesh P) (i j : Nat) : Prop := Near close polygons m i j ∧ i < j

theorem chain_of_up {close : P → P → Bool} {polygons : List (P → Bool)} {m : Mesh P} {i j : Nat}
    (h : Relation.ReflTransGen (NearUp close polygons m) i j) : Chain close polygons m i j ∧ i ≤ j := by
  induction h with
  | refl => exact ⟨Relation.ReflTransGen.refl, Nat.le_refl _⟩
  | tail _ h2 ih =>
    have := h2.2
    exact ⟨ih.1.tail h2.1, by omega⟩

theorem reach_up (m1 : Mesh P) (close : P → P → Bool) (polygons : List (P → Bool)) (m : Mesh P) (n : Nat) :
    reach m1 (NearUp close polygons m) n ≤ reach m1 (Near close polygons m) n := by
  unfold reach
  apply Finset.sum_le_sum_of_subset
  intro i hi
  simp only [Finset.mem_filter] at hi ⊢
  exact ⟨hi.1, (chain_of_up hi.2).1⟩

theorem used_valid {m : Mesh P} {i : Nat} (h : Used m i) : ∃ p, (m.nodes[i]?).join = some p := by
  obtain ⟨y, hy⟩ := used_iff_drawn.1 h
  exact Option.isSome_iff_exists.1 (drawn_ends hy).1

/-- The loop between the two administrations. -/
theorem loop_ok (env : Env P) (hrep : ∀ l, (env.report l).Perm l) (polygons : List (P → Bool)) (d : ℚ)
    (hrefl : ∀ p, env.close d p p = true) (hsymm : ∀ p q, env.close d p q = env.close d q p) {m m1 : Mesh P} (hm : Manageable m)
    (a : Administrated m m1) (hu : AllUsed polygons m) (hcap : ∀ n, clusterDegree (env.close d) polygons m n ≤ 16) :
    ∃ as m2 rep, rounds env d (selected polygons m) ((selected polygons m).map (fun i => (m.nodes[i]?).join)) (selected polygons m).length 0
        (build ((selected polygons m).map (fun i => (m.nodes[i]?).join))) m1 = .ok (as, m2) ∧
      MeshOk m1 (NearUp (env.close d) polygons m) rep as m2 ∧
      ∀ i j, rep i = i → rep j = j → ¬ Near (env.close d) polygons m i j := by
  generalize hsel : selected polygons m = sel
  have hmem : ∀ n, n ∈ sel ↔ n < m.nodes.length ∧ inFirst polygons (m.nodes[n]?).join = true := by
    intro n
    rw [← hsel, selected, List.mem_filter, List.mem_range]
  have hval : ∀ n ∈ sel, Used m n := fun n hn => hu n ((hmem n).1 hn).1 ((hmem n).1 hn).2
  obtain ⟨pts, hpts⟩ : ∃ pts : List P, sel.map (fun i => (m.nodes[i]?).join) = pts.map some := by
    clear hsel hmem
    induction sel with
    | nil => exact ⟨[], rfl⟩
    | cons n l ih =>
      obtain ⟨ps, h⟩ := ih (fun n hn => hval n (List.mem_cons_of_mem _ hn))
      obtain ⟨p, hp⟩ := used_valid (hval n (by simp))
      exact ⟨p :: ps, by rw [List.map_cons, List.map_cons, h, hp]⟩
  rw [hpts]
  have hlen : sel.length = pts.length := by
    have := congrArg List.length hpts
    simpa using this
  have hpt : ∀ (j n : Nat) (p : P), sel[j]? = some n → pts[j]? = some p → Chosen polygons m n p := by
    intro j n p h1 h2
    have : (sel.map (fun i => (m.nodes[i]?).join))[j]? = (pts.map some)[j]? := by rw [hpts]
    rw [List.getElem?_map, List.getElem?_map, h1, h2] at this
    simp only [Option.map_some, Option.some.injEq] at this
    refine ⟨this, ?_⟩
    have := ((hmem n).1 (List.mem_of_getElem? h1)).2
    rwa [‹(m.nodes[n]?).join = some p›] at this
  have hsorted : ∀ (j r a b : Nat), j < r → sel[j]? = some a → sel[r]? = some b → a < b := by
    intro j r x y hjr hx hy
    have hp : sel.Pairwise (· < ·) := by rw [← hsel]; exact List.pairwise_lt_range.filter _
    obtain ⟨h1, e1⟩ := List.getElem?_eq_some_iff.1 hx
    obtain ⟨h2, e2⟩ := List.getElem?_eq_some_iff.1 hy
    have := List.pairwise_iff_getElem.1 hp j r h1 h2 hjr
    rwa [e1, e2] at this
  have S : Setting (env.close d) pts sel m1 (NearUp (env.close d) polygons m) := by
    refine ⟨hlen, hsorted, ?_, ?_, hrefl, hsymm, fun n => Nat.le_trans (reach_up _ _ _ _ n) (by rw [reach_eq hm a]; exact hcap n)⟩
    · intro j n hj
      have hn := hval n (List.mem_of_getElem? hj)
      have hv : (m1.nodes[n]?).join.isSome := by
        rw [a.nodes, if_pos ((connected_iff hm.nodesFit n).2 hn)]
        obtain ⟨p, hp⟩ := used_valid hn
        rw [hp]; rfl
      exact ⟨join_lt hv, hv⟩
    · intro j r x y hl hx hy
      obtain ⟨hlt, p, q, hp, hq, hc⟩ := hl
      have := hsorted j r x y hlt hx hy
      exact ⟨⟨by omega, p, q, hpt j x p hx hp, hpt r y q hy hq, hc⟩, this⟩
  have h0 : RoundOk (env.close d) pts sel m1 (NearUp (env.close d) polygons m) 0 id [] (build (pts.map some)) m1 :=
    ⟨build_ok _ pts, MeshOk.start hm a _, fun _ _ _ _ => rfl, fun j _ hj => absurd hj (Nat.not_lt_zero j)⟩
  obtain ⟨as, t, m2, rep, e, h⟩ := rounds_ok S env d rfl hrep sel.length 0 (by omega) h0
  refine ⟨as, m2, rep, e, h.mesh, ?_⟩
  have key : ∀ i j, rep i = i → Near (env.close d) polygons m i j → ∀ ki kj : Nat, sel[ki]? = some i → sel[kj]? = some j → ki < kj → False := by
    rintro i j hi ⟨hij, p, q, h1, h2, h3⟩ ki kj hki hkj hlt
    have l1 : ki < pts.length := by rw [← hlen]; exact (List.getElem?_eq_some_iff.1 hki).1
    have l2 : kj < pts.length := by rw [← hlen]; exact (List.getElem?_eq_some_iff.1 hkj).1
    have p1 := hpt ki i pts[ki] hki (List.getElem?_eq_getElem l1)
    have p2 := hpt kj j pts[kj] hkj (List.getElem?_eq_getElem l2)
    have e1 : p = pts[ki] := Option.some.inj (h1.1.symm.trans p1.1)
    have e2 : q = pts[kj] := Option.some.inj (h2.1.symm.trans p2.1)
    exact h.done ki i l1 hki hi kj ⟨hlt, _, _, List.getElem?_eq_getElem l1, List.getElem?_eq_getElem l2, by rw [← e1, ← e2]; exact h3⟩
  intro i j hi hj hn
  obtain ⟨hij, p, q, h1, h2, h3⟩ := id hn
  have mi : i ∈ sel := (hmem i).2 ⟨join_lt (by rw [h1.1]; rfl), by rw [h1.1]; exact h1.2⟩
  have mj : j ∈ sel := (hmem j).2 ⟨join_lt (by rw [h2.1]; rfl), by rw [h2.1]; exact h2.2⟩
  obtain ⟨ki, hki⟩ := List.getElem?_of_mem mi
  obtain ⟨kj, hkj⟩ := List.getElem?_of_mem mj
  rcases Nat.lt_trichotomy ki kj with hlt | heq | hlt
  · exact key i j hi hn ki kj hki hkj hlt
  · subst heq
    rw [hki] at hkj
    exact hij (Option.some.inj hkj)
  · exact key j i hj ⟨hij.symm, q, p, h2, h1, by rw [hsymm]; exact h3⟩ kj ki hkj hki hlt

/-- **C63.** When every selected node has a drawn edge and at most 16 edges meet in any group of nodes to be merged, merging close nodes pulls every
selected node onto a selected node reached by short steps, such that no two close nodes remain, keeps all edges between nodes that end up different, makes
no loops and no duplicate edges, and moves no node that stays.  Undo and redo are exact if all nodes of the mesh had edges before and all nodes that stay
have edges afterwards. -/
theorem merge_close_partial (env : Env P) (hord : ∀ n l, (env.order n l).Perm l) (hrep : ∀ l, (env.report l).Perm l) (polygons : List (P → Bool))
    (d : ℚ) (hrefl : ∀ p, env.close d p p = true) (hsymm : ∀ p q, env.close d p q = env.close d q p) (m : Mesh P) (hm : Manageable m)
    (hu : AllUsed polygons m) (hsome : ∃ i p, Chosen polygons m i p) (hcap : ∀ n, clusterDegree (env.close d) polygons m n ≤ 16) :
    ∃ as m' rep, mergeNodesDistanceCall env polygons d m = .ok (some as, m') ∧ Pulled (env.close d) polygons m m' rep ∧ WF m' ∧ Simple m' ∧ Manageable m' ∧
      ((∀ (n : Nat) p, m.nodes[n]? = some (some p) → Used m n) → (∀ e, edgeAt m e ≠ noEdge → (seg m.nodes (edgeAt m e)).isSome) →
        (∀ i p, m.nodes[i]? = some (some p) → rep i = i → Used m' i) → m.numEdges.length = m.nodes.length →
        ∃ bs m0, Undo.restoreAll (meshSem P) (committed as) (.ok m') = (bs, .ok m0) ∧ content m0 = content m ∧
          ∃ cs m2, Undo.commitAll (meshSem P) bs (.ok m0) = (cs, .ok m2) ∧ content m2 = content m') := by
  obtain ⟨i0, p0, hc0⟩ := hsome
  have hi0 : i0 < m.nodes.length := join_lt (by rw [hc0.1]; rfl)
  have hu0 : Used m i0 := hu i0 hi0 (by rw [hc0.1]; exact hc0.2)
  have hn : m.nodes ≠ [] := by intro h; rw [h] at hi0; exact Nat.not_lt_zero _ hi0
  have he : m.edges ≠ [] := by
    obtain ⟨e, h, _⟩ := hu0
    intro h'; rw [h'] at h; cases h
  have hsel : (selected polygons m).isEmpty = false := by
    have : i0 ∈ selected polygons m := by
      rw [selected, List.mem_filter, List.mem_range]
      exact ⟨hi0, by rw [hc0.1]; exact hc0.2⟩
    cases h : selected polygons m with
    | nil => rw [h] at this; cases this
    | cons x l => rfl
  obtain ⟨m1, e1, a1⟩ := administrate_ok hm hn he env.order hord
  obtain ⟨as, m2, rep, e2, ok, apart⟩ := loop_ok env hrep polygons d hrefl hsymm hm a1 hu hcap
  have hcap' : ∀ n, reach m1 (NearUp (env.close d) polygons m) n ≤ 16 :=
    fun n => Nat.le_trans (reach_up _ _ _ _ n) (by rw [reach_eq hm a1]; exact hcap n)
  have hm2 := ok.manageable hcap'
  have hn2 : m2.nodes ≠ [] := by
    intro h
    have := ok.nodesLen
    rw [h, a1.nodesLen] at this
    exact hn (List.length_eq_zero_iff.1 this.symm)
  have he2 : m2.edges ≠ [] := by
    intro h
    have := ok.edgesLen
    rw [h, a1.edgesLen] at this
    exact he (List.length_eq_zero_iff.1 this.symm)
  obtain ⟨m', e3, a2⟩ := administrate_ok hm2 hn2 he2 env.order hord
  have hd : ∀ x y, Drawn m' x y ↔ x ≠ y ∧ ∃ u v, Drawn m u v ∧ rep u = x ∧ rep v = y := by
    intro x y
    rw [← adj_of_administrated (m := m2) (m' := m') hm2 a2 x y |>.trans (drawn_of_administrated hm2 a2 x y).symm]
    have hadj : Adj m' x y ↔ Adj m2 x y := by
      have : ∀ i, edgeAt m' i = edgeAt m2 i := by
        intro i
        rw [a2.edges i]
        by_cases hno : edgeAt m2 i = noEdge
        · rw [hno]; split <;> rfl
        · rw [if_pos (ok.ends i hno)]
      simp only [Adj, this]
    rw [hadj, ok.adj x y]
    simp only [adj_of_administrated hm a1]
  have hnode : ∀ i : Nat, Used m2 i → (m'.nodes[i]?).join = (m2.nodes[i]?).join := by
    intro i hi
    rw [a2.nodes, if_pos ((connected_iff hm2.nodesFit i).2 hi)]
  have hused : ∀ i, Used m' i ↔ Used m2 i := by
    intro i
    rw [used_iff_drawn, used_iff_drawn]
    exact exists_congr (fun y => drawn_of_administrated hm2 a2 i y)
  refine ⟨as, m', rep, ?_, ⟨fun i => (chain_of_up (ok.chain i)).1, fun i => (chain_of_up (ok.chain i)).2, ok.idem, apart, hd, ?_, ?_, ?_⟩, a2.wf hm2, a2.simple hm2, manageable_of_administrated hm2 a2, ?_⟩
  · simp only [mergeNodesDistanceCall, mergeNodes, hsel, e1, Res.ok_bind, e2, e3]
    rfl
  · rw [a2.nodesLen, ok.nodesLen, a1.nodesLen]
  · intro i hi hy
    have hu2 : Used m2 i := (hused i).1 (used_iff_drawn.2 hy)
    rw [hnode i hu2, (ok.node i).1 hi, a1.nodes]
    obtain ⟨p, hp⟩ := used_valid hu2
    rw [(ok.node i).1 hi, a1.nodes] at hp
    split
    · rfl
    · rename_i hc
      rw [if_neg hc] at hp
      cases hp
  · rintro i (hi | hi)
    · rw [a2.nodes, (ok.node i).2 hi]
      split <;> rfl
    · rw [a2.nodes, if_neg]
      intro hc
      have hu2 : Used m2 i := (connected_iff hm2.nodesFit i).1 hc
      exact hi (used_iff_drawn.1 ((hused i).2 hu2))
  · intro q1 q2 q3 q4
    have c1 := Delete.administration_changes_nothing hm hn he q1 q2 hord e1
    have c2 : content m' = content m2 := by
      refine Delete.administration_changes_nothing hm2 hn2 he2 ?_ ok.ends hord e3
      intro n p hp
      have hp' : (m2.nodes[n]?).join = some p := by rw [hp]; rfl
      by_cases hr : rep n = n
      · rw [(ok.node n).1 hr, a1.nodes] at hp'
        rw [← hused]
        split at hp'
        · cases hv : m.nodes[n]? with
          | none => rw [hv] at hp'; cases hp'
          | some v =>
            rw [hv] at hp'
            have : v = some p := hp'
            exact q3 n p (by rw [hv, this]) hr
        · cases hp'
      · rw [(ok.node n).2 hr] at hp'
        cases hp'
    have w' := a2.wf hm2
    have g : Good m as m' := by
      have g := ok.good
      refine ⟨?_, ?_, ?_, ?_, fun _ => by rw [w'.counts, List.length_map, w'.lists]⟩
      · rw [c2, ← c1]; exact g.chain
      · rw [a2.nodesLen, ok.nodesLen, a1.nodesLen]
      · rw [a2.edgesLen, ok.edgesLen, a1.edgesLen]
      · rw [a2.nodesLen, a2.edgesLen]; exact g.fits
    exact g.undo_redo q4

theorem chain_eq_of_no_near {close : P → P → Bool} {polygons : List (P → Bool)} {m : Mesh P} (h : ∀ i j, ¬ Near close polygons m i j) {i j : Nat}
    (hc : Chain close polygons m i j) : i = j := by
  rcases Relation.ReflTransGen.cases_tail hc with e | ⟨k, _, e⟩
  · exact e.symm
  · exact absurd e (h k j)

theorem clusterDegree_of_no_near {close : P → P → Bool} {polygons : List (P → Bool)} {m : Mesh P} (hm : Manageable m)
    (h : ∀ i j, ¬ Near close polygons m i j) (n : Nat) : clusterDegree close polygons m n ≤ 16 := by
  unfold clusterDegree
  by_cases hn : n < m.nodes.length
  · rw [Finset.sum_eq_single_of_mem n (by simp only [Finset.mem_filter, Finset.mem_range]; exact ⟨hn, Relation.ReflTransGen.refl⟩)]
    · exact hm.degree n hn
    · intro i hi hne
      simp only [Finset.mem_filter] at hi
      exact absurd (chain_eq_of_no_near h hi.2) hne
  · rw [Finset.sum_eq_zero]
    · omega
    · intro i hi
      simp only [Finset.mem_filter, Finset.mem_range] at hi
      have := chain_eq_of_no_near h hi.2
      omega

/-- **C63.** When no two selected nodes lie close together, all drawn edges stay and so do all nodes with a drawn edge. -/
theorem nothing_close_partial (env : Env P) (hord : ∀ n l, (env.order n l).Perm l) (hrep : ∀ l, (env.report l).Perm l) (polygons : List (P → Bool))
    (d : ℚ) (hrefl : ∀ p, env.close d p p = true) (hsymm : ∀ p q, env.close d p q = env.close d q p) (m : Mesh P) (hm : Manageable m)
    (hu : AllUsed polygons m) (hsome : ∃ i p, Chosen polygons m i p) (hno : ∀ i j, ¬ Near (env.close d) polygons m i j) :
    ∃ as m', mergeNodesDistanceCall env polygons d m = .ok (some as, m') ∧ (∀ x y, Drawn m' x y ↔ Drawn m x y) ∧
      ∀ i, Used m i → (m'.nodes[i]?).join = (m.nodes[i]?).join := by
  obtain ⟨as, m', rep, e, pu, _⟩ := merge_close_partial env hord hrep polygons d hrefl hsymm m hm hu hsome (clusterDegree_of_no_near hm hno)
  have hid : ∀ i, rep i = i := fun i => (chain_eq_of_no_near hno (pu.chain i)).symm
  have hd : ∀ x y, Drawn m' x y ↔ Drawn m x y := by
    intro x y
    rw [pu.drawn x y]
    simp only [hid]
    constructor
    · rintro ⟨_, u, v, h, rfl, rfl⟩; exact h
    · intro h
      refine ⟨?_, x, y, h, rfl, rfl⟩
      rintro rfl
      obtain ⟨i, h1, h2⟩ := (drawn_iff m hm.nodesFit x x).1 h
      have := hm.noLoop i h1
      rcases h2 with q | q <;> rw [q] at this <;> exact this rfl
  refine ⟨as, m', e, hd, fun i hi => pu.kept i (hid i) ?_⟩
  obtain ⟨y, hy⟩ := used_iff_drawn.1 hi
  exact ⟨y, (hd i y).2 hy⟩

/-- **C63.** Merging once more with the same polygon and the same distance changes nothing: the first call left no two close nodes. -/
theorem merge_twice_partial (env : Env P) (hord : ∀ n l, (env.order n l).Perm l) (hrep : ∀ l, (env.report l).Perm l) (polygons : List (P → Bool))
    (hpoly : polygons ≠ []) (d : ℚ) (hrefl : ∀ p, env.close d p p = true) (hsymm : ∀ p q, env.close d p q = env.close d q p) (m : Mesh P)
    (hm : Manageable m) (hu : AllUsed polygons m) (hsome : ∃ i p, Chosen polygons m i p)
    (hcap : ∀ n, clusterDegree (env.close d) polygons m n ≤ 16) :
    ∃ as m', mergeNodesDistanceCall env polygons d m = .ok (some as, m') ∧ ∃ o m'', mergeNodesDistanceCall env polygons d m' = .ok (o, m'') ∧
      (∀ x y, Drawn m'' x y ↔ Drawn m' x y) ∧ ∀ i : Nat, (m'.nodes[i]?).join.isSome → (m''.nodes[i]?).join = (m'.nodes[i]?).join := by
  obtain ⟨as, m', rep, e, pu, _, _, hm', _⟩ := merge_close_partial env hord hrep polygons d hrefl hsymm m hm hu hsome hcap
  refine ⟨as, m', e, ?_⟩
  have hused : ∀ i : Nat, (m'.nodes[i]?).join.isSome → rep i = i ∧ Used m' i := by
    intro i hi
    by_contra hno
    have : (m'.nodes[i]?).join = none := by
      apply pu.gone
      rw [← used_iff_drawn]
      by_cases hr : rep i = i
      · exact Or.inr (fun h => hno ⟨hr, h⟩)
      · exact Or.inl hr
    rw [this] at hi
    cases hi
  have hin : ∀ p : Option P, inFirst polygons p = true → p.isSome := by
    intro p h
    cases polygons with
    | nil => exact absurd rfl hpoly
    | cons c cs =>
      cases p with
      | none => cases h
      | some q => rfl
  have hu' : AllUsed polygons m' := fun i _ hi => (hused i (hin _ hi)).2
  by_cases hs : ∃ i p, Chosen polygons m' i p
  · have hno : ∀ i j, ¬ Near (env.close d) polygons m' i j := by
      rintro i j ⟨hij, p, q, h1, h2, h3⟩
      have ui := hused i (by rw [h1.1]; rfl)
      have uj := hused j (by rw [h2.1]; rfl)
      refine pu.apart i j ui.1 uj.1 ⟨hij, p, q, ⟨?_, h1.2⟩, ⟨?_, h2.2⟩, h3⟩
      · rw [← pu.kept i ui.1 (used_iff_drawn.1 ui.2)]; exact h1.1
      · rw [← pu.kept j uj.1 (used_iff_drawn.1 uj.2)]; exact h2.1
    obtain ⟨bs, m'', e2, h1, h2⟩ := nothing_close_partial env hord hrep polygons d hrefl hsymm m' hm' hu' hs hno
    exact ⟨some bs, m'', e2, h1, fun i hi => h2 i (hused i hi).2⟩
  · refine ⟨none, m', ?_, fun _ _ => Iff.rfl, fun _ _ => rfl⟩
    simp only [mergeNodesDistanceCall, mergeNodes]
    have : (selected polygons m').isEmpty = true := by
      rw [List.isEmpty_iff, selected, List.filter_eq_nil_iff]
      intro i _ hi
      obtain ⟨p, hp⟩ := Option.isSome_iff_exists.1 (hin _ hi)
      exact hs ⟨i, p, hp, by rw [← hp]; exact hi⟩
    rw [this]
    rfl

/-- When no node is selected, nothing happens. -/
theorem merge_close_nothing_selected (env : Env P) (polygons : List (P → Bool)) (d : ℚ) (m : Mesh P)
    (h : ∀ i, i < m.nodes.length → inFirst polygons (m.nodes[i]?).join = false) : mergeNodesDistanceCall env polygons d m = .ok (none, m) := by
  have : (selected polygons m).isEmpty = true := by
    rw [List.isEmpty_iff, selected, List.filter_eq_nil_iff]
    intro i hi
    rw [h i (List.mem_range.1 hi)]
    exact Bool.false_ne_true
  simp only [mergeNodesDistanceCall, mergeNodes, this, if_true]

end Verif.MergeClose
