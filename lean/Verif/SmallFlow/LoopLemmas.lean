import Verif.SmallFlow.FindLemmas
/-!
# Lemmas: merging the ends of the small triangles
-/
namespace Verif.SmallFlow
open Verif.Mesh Verif.Faces Verif.Quality
open Verif.MergeClose (MeshOk reach load)
open Verif.Polygons (Pt)

theorem smallTriangle_corners {m : Mesh Pt} {s : State} (r : Ready m s) {fraction : ℚ} {p a c : Nat} (h : SmallTriangle m s fraction p a c) :
    (∃ v, m.nodes[p]? = some (some v)) ∧ (∃ v, m.nodes[a]? = some (some v)) ∧ (∃ v, m.nodes[c]? = some (some v)) ∧ p ≠ a ∧ p ≠ c ∧ a ≠ c := by
  obtain ⟨f, x, y, z, h1, _, h2, _⟩ := h
  obtain ⟨es, _, hp, _⟩ := face_edges r h1
  obtain ⟨u, v, w, _, _, _, _, d1, d2, d3⟩ := three_sides hp
  have hv := r.valid f _ h1
  have hx := validNode_get (hv x (by simp))
  have hy := validNode_get (hv y (by simp))
  have hz := validNode_get (hv z (by simp))
  unfold squarest at h2
  simp only [] at h2
  split at h2
  · simp only [Prod.mk.injEq] at h2
    obtain ⟨rfl, rfl, rfl⟩ := h2
    exact ⟨hx, hz, hy, d3, d1, d2.symm⟩
  · split at h2
    · simp only [Prod.mk.injEq] at h2
      obtain ⟨rfl, rfl, rfl⟩ := h2
      exact ⟨hy, hx, hz, d1.symm, d2, d3⟩
    · simp only [Prod.mk.injEq] at h2
      obtain ⟨rfl, rfl, rfl⟩ := h2
      exact ⟨hz, hy, hx, d2.symm, d3.symm, d1.symm⟩

theorem countInternal_ok {m : Mesh Pt} {s : State} (r : Ready m s) (l : List Nat) (hl : ∀ e ∈ l, e < m.edges.length) (k : Nat) :
    open Classical in countInternal s l k = .ok (k + l.countP (fun e => decide (¬ BoundaryEdge s e))) := by
  classical
  induction l generalizing k with
  | nil => rfl
  | cons e l ih =>
    obtain ⟨b, h1, h2⟩ := onBoundary_ok r (hl e (by simp))
    rw [countInternal, h1, Res.ok_bind, ih (fun x hx => hl x (List.mem_cons_of_mem _ hx)), List.countP_cons]
    cases b with
    | true =>
      have : BoundaryEdge s e := h2.1 rfl
      simp [this]
    | false =>
      have : ¬ BoundaryEdge s e := fun q => Bool.false_ne_true (h2.2 q)
      simp [this]
      omega

/-- The edges listed at a node are those that touch it. -/
theorem innerEdges_eq {d m : Mesh Pt} {s : State} (hd : Manageable d) (a : Administrated d m) {n : Nat} (hn : n < m.nodes.length) :
    open Classical in (listAt m n).countP (fun e => decide (¬ BoundaryEdge s e)) = innerEdges m s n := by
  classical
  unfold innerEdges
  have hw := a.wf hd
  have hmem : ∀ e, e ∈ listAt m n ↔ e ∈ (List.range m.edges.length).filter (fun e => decide (touches (edgeAt m e) n)) := by
    intro e
    rw [a.mem, List.mem_filter, List.mem_range, decide_eq_true_eq]
    constructor
    · rintro ⟨h1, h2⟩
      have he : edgeAt m e = edgeAt d e := by rw [a.edges e, if_pos h1]
      refine ⟨?_, by rw [he]; exact h2⟩
      rw [a.edgesLen]
      apply edgeAt_lt
      intro hno
      rw [hno, Delete.seg_noEdge hd.nodesFit] at h1
      cases h1
    · rintro ⟨_, h2⟩
      by_cases h1 : (seg d.nodes (edgeAt d e)).isSome
      · rw [a.edges e, if_pos h1] at h2
        exact ⟨h1, h2⟩
      · exfalso
        rw [a.edges e, if_neg h1] at h2
        have := hw.nodesFit
        rcases h2 with q | q <;> simp only [noEdge] at q <;> omega
  have hperm : (listAt m n).Perm ((List.range m.edges.length).filter (fun e => decide (touches (edgeAt m e) n))) :=
    (List.perm_ext_iff_of_nodup (a.nodup n) (List.nodup_range.filter _)).2 hmem
  rw [hperm.countP_eq, List.countP_filter]
  apply List.countP_congr
  intro e _
  simp [and_comm]

section
variable {m1 : Mesh Pt} {s : State} {fraction : ℚ}

/-- A merge leaves the lists of the other nodes as they are. -/
theorem merge_lists {m m' : Mesh Pt} {nr : Nat → Nat → Prop} {rep : Nat → Nat} {as bs : List (Act Pt)} (h : MeshOk m1 nr rep as m) {a b : Nat}
    (ha : a < m1.nodes.length) (hb : b < m1.nodes.length) (hab : a ≠ b) (hnr : nr a b) (hcap : ∀ n, reach m1 nr n ≤ 16)
    (he : mergeTwoNodesU m a b = .ok (bs, m')) : ∀ n, n ≠ a → n ≠ b → listAt m' n = listAt m n := by
  have ha' : a < m.nodes.length := by rw [h.nodesLen]; exact ha
  have hb' : b < m.nodes.length := by rw [h.nodesLen]; exact hb
  have hc : (listAt m a).length + (listAt m b).length ≤ maxEdgesPerNode := by
    have h1 := MergeClose.load_two (m1 := m1) h.chain hab hnr
    have h2 := h.deg a
    have h3 := h.deg b
    have h4 := hcap b
    unfold maxEdgesPerNode
    omega
  obtain ⟨m'', e1, mg⟩ := mergeTwoNodes_merged h.wf h.simple ha' hb' hab hc
  rcases meshOf_eq (mergeTwoNodes_agree m a b) with ⟨⟨cs, k⟩, e2, e3⟩ | ⟨_, e3⟩ | ⟨_, e3⟩
  rotate_left
  · rw [e1] at e3; cases e3
  · rw [e1] at e3; cases e3
  rw [e1] at e3
  rw [he] at e2
  obtain ⟨rfl, rfl⟩ := Prod.mk.inj (Res.ok.inj e2)
  have em : m'' = m' := Res.ok.inj e3
  subst em
  intro n h1 h2
  rw [mg.listAt h.wf ha' hb' n, if_neg h1, if_neg h2]

/-- The state of the loop: `rep` says where the nodes have gone. -/
structure LoopOk (m1 : Mesh Pt) (s : State) (fraction : ℚ) (rep : Nat → Nat) (st : List (Act Pt) × Mesh Pt × Bool) : Prop where
  mesh : MeshOk m1 (Into m1 s fraction) rep st.1 st.2.1
  lists : ∀ n, rep n = n → (∀ a c, ¬ SmallTriangle m1 s fraction n a c) → listAt st.2.1 n = listAt m1 n
  goes : ∀ n, rep n ≠ n → Into m1 s fraction n (rep n)
  flag : st.2.2 = false → st = ([], m1, false) ∧ ∀ n, rep n = n

variable {d : Mesh Pt}

theorem mergeEnd_ok (hd : Manageable d) (ad : Administrated d m1) (r : Ready m1 s) (hap : Apart m1 s fraction)
    (hcap : ∀ n, reach m1 (Into m1 s fraction) n ≤ 16) {rep : Nat → Nat} {st : List (Act Pt) × Mesh Pt × Bool} (h : LoopOk m1 s fraction rep st)
    {p a c n : Nat} (ht : SmallTriangle m1 s fraction p a c) (hn : n = a ∨ n = c) :
    ∃ st' rep', mergeEnd s p n st = .ok st' ∧ LoopOk m1 s fraction rep' st' ∧ (∀ k, rep k ≠ k → rep' k ≠ k) ∧
      (innerEdges m1 s n = 1 → rep' n ≠ n) := by
  classical
  obtain ⟨⟨vp, hp⟩, ⟨va, ha⟩, ⟨vc, hc⟩, d1, d2, d3⟩ := smallTriangle_corners r ht
  have hpl : p < m1.nodes.length := (List.getElem?_eq_some_iff.1 hp).1
  have hnl : n < m1.nodes.length := by
    rcases hn with rfl | rfl
    · exact (List.getElem?_eq_some_iff.1 ha).1
    · exact (List.getElem?_eq_some_iff.1 hc).1
  have hnp : n ≠ p := by rcases hn with rfl | rfl <;> omega
  have notTarget : ∀ a' c', ¬ SmallTriangle m1 s fraction n a' c' := by
    intro a' c' q
    have := hap n a' c' p a c q ht
    rcases hn with rfl | rfl
    · exact this.1 rfl
    · exact this.2 rfl
  have notInto : ∀ q, ¬ Into m1 s fraction p q := by
    rintro q ⟨a', c', q1, q2, _⟩
    have := hap p a c q a' c' ht q1
    rcases q2 with q2 | q2
    · exact this.1 q2
    · exact this.2 q2
  have hrp : rep p = p := by
    by_contra hne
    exact notInto _ (h.goes p hne)
  have hl : listedEdges st.2.1 n = .ok (listAt st.2.1 n) := listedEdges_ok h.mesh.wf (by rw [h.mesh.nodesLen]; exact hnl)
  unfold mergeEnd
  rw [hl, Res.ok_bind]
  by_cases hrn : rep n = n
  · have hlist := h.lists n hrn notTarget
    have hcount := countInternal_ok r (listAt m1 n) (fun e he => by
      have := (ad.mem n e).1 he
      rw [ad.edgesLen]
      apply edgeAt_lt
      intro hno
      rw [hno, Delete.seg_noEdge hd.nodesFit] at this
      cases this.1) 0
    rw [hlist, hcount, Res.ok_bind, Nat.zero_add, innerEdges_eq hd ad hnl]
    by_cases h1 : innerEdges m1 s n = 1
    · rw [if_pos h1]
      have hinto : Into m1 s fraction n p := ⟨a, c, ht, hn, h1⟩
      obtain ⟨bs, m', e1, mo⟩ := h.mesh.merge hnl hpl hnp hrn hrp hinto (by rw [hp]; rfl) hcap
      have hml := merge_lists h.mesh hnl hpl hnp hinto hcap e1
      have only : ∀ i, rep i = n → i = n := by
        intro i hi
        by_contra hne
        obtain ⟨a', c', q1, _⟩ := h.goes i (by omega)
        rw [hi] at q1
        exact notTarget a' c' q1
      rw [e1, Res.ok_bind]
      refine ⟨_, _, rfl, ⟨mo, ?_, ?_, fun q => (by cases q)⟩, ?_, ?_⟩
      · intro k hk1 hk2
        have hkn : k ≠ n := by
          rintro rfl
          simp only [hrn, if_true] at hk1
          omega
        have hkp : k ≠ p := fun q => hk2 a c (q ▸ ht)
        have hrk : rep k = k := by
          split at hk1
          · rename_i q; exact absurd (only k q) hkn
          · exact hk1
        rw [← h.lists k hrk hk2]
        exact hml k hkn hkp
      · intro k hk
        split
        · rename_i q
          rw [only k q]
          exact hinto
        · rename_i q
          rw [if_neg q] at hk
          exact h.goes k hk
      · intro k hk
        split
        · rename_i q
          have := only k q
          omega
        · exact hk
      · intro _
        simp only [hrn, if_true]
        omega
    · rw [if_neg h1]
      exact ⟨st, rep, rfl, h, fun _ q => q, fun q => absurd q h1⟩
  · have h0 : listAt st.2.1 n = [] := by
      have h2 := h.mesh.deg n
      rw [MergeClose.load_dead h.mesh.idem hrn] at h2
      exact List.length_eq_zero_iff.1 (by omega)
    rw [h0, countInternal, Res.ok_bind, if_neg (by omega)]
    exact ⟨st, rep, rfl, h, fun _ q => q, fun _ => hrn⟩

theorem mergeTriangles_ok (hd : Manageable d) (ad : Administrated d m1) (r : Ready m1 s) (hap : Apart m1 s fraction)
    (hcap : ∀ n, reach m1 (Into m1 s fraction) n ≤ 16) (ts : List (Nat × Nat × Nat)) (hts : ∀ t ∈ ts, SmallTriangle m1 s fraction t.1 t.2.1 t.2.2)
    {rep : Nat → Nat} {st : List (Act Pt) × Mesh Pt × Bool} (h : LoopOk m1 s fraction rep st) :
    ∃ st' rep', mergeTriangles s ts st = .ok st' ∧ LoopOk m1 s fraction rep' st' ∧ (∀ k, rep k ≠ k → rep' k ≠ k) ∧
      ∀ t ∈ ts, ∀ n, n = t.2.1 ∨ n = t.2.2 → innerEdges m1 s n = 1 → rep' n ≠ n := by
  induction ts generalizing rep st with
  | nil => exact ⟨st, rep, rfl, h, fun _ q => q, fun t ht => absurd ht (by simp)⟩
  | cons t ts ih =>
    have ht := hts t (by simp)
    obtain ⟨st1, rep1, e1, h1, k1, i1⟩ := mergeEnd_ok hd ad r hap hcap h ht (Or.inl rfl)
    obtain ⟨st2, rep2, e2, h2, k2, i2⟩ := mergeEnd_ok hd ad r hap hcap h1 ht (Or.inr rfl)
    obtain ⟨st3, rep3, e3, h3, k3, i3⟩ := ih (fun t ht => hts t (List.mem_cons_of_mem _ ht)) h2
    refine ⟨st3, rep3, ?_, h3, fun k q => k3 k (k2 k (k1 k q)), ?_⟩
    · rw [mergeTriangles, e1, Res.ok_bind, e2, Res.ok_bind, e3]
    · intro t' ht' n hn hi
      rcases List.mem_cons.1 ht' with rfl | ht'
      · rcases hn with rfl | rfl
        · exact k3 _ (k2 _ (i1 hi))
        · exact k3 _ (i2 hi)
      · exact i3 t' ht' n hn hi

theorem reach_into (hd : Manageable d) (ad : Administrated d m1) (hap : Apart m1 s fraction) (n : Nat) :
    reach m1 (Into m1 s fraction) n = gathered m1 s fraction n := by
  have hm1 := MergeClose.manageable_of_administrated hd ad
  unfold reach gathered
  have hset : ∀ i, Relation.ReflTransGen (Into m1 s fraction) i n ↔ (i = n ∨ Into m1 s fraction i n) := by
    intro i
    constructor
    · intro h
      rcases Relation.ReflTransGen.cases_tail h with q | ⟨j, q1, q2⟩
      · exact Or.inl q.symm
      · rcases Relation.ReflTransGen.cases_tail q1 with q | ⟨k, _, q3⟩
        · right; rw [← q]; exact q2
        · exfalso
          obtain ⟨a, c, g1, g2, _⟩ := q2
          obtain ⟨a', c', g3, _⟩ := q3
          have := hap j a' c' n a c g3 g1
          rcases g2 with g2 | g2
          · exact this.1 g2
          · exact this.2 g2
    · rintro (rfl | h)
      · exact Relation.ReflTransGen.refl
      · exact Relation.ReflTransGen.single h
  have hdeg : ∀ i, (listAt m1 i).length = MergeClose.degree m1 i := by
    intro i
    rw [MergeClose.degree_eq hd ad]
    have hiff : ∀ j, (seg d.nodes (edgeAt d j)).isSome ↔ (seg m1.nodes (edgeAt m1 j)).isSome := by
      intro j
      constructor
      · intro h
        apply (administrated_idem hd ad).2 j
        rw [ad.edges j, if_pos h]
        intro hno
        rw [hno, Delete.seg_noEdge hd.nodesFit] at h
        cases h
      · intro h
        by_contra hc
        rw [ad.edges j, if_neg hc, Delete.seg_noEdge hm1.nodesFit] at h
        cases h
    unfold MergeClose.degree
    rw [ad.edgesLen]
    apply List.countP_congr
    intro j _
    rw [Bool.and_eq_true, Bool.and_eq_true, hiff j]
    constructor
    · rintro ⟨h1, h2⟩
      refine ⟨h1, ?_⟩
      rw [ad.edges j, if_pos ((hiff j).2 h1)]
      exact h2
    · rintro ⟨h1, h2⟩
      refine ⟨h1, ?_⟩
      rw [ad.edges j, if_pos ((hiff j).2 h1)] at h2
      exact h2
  apply Finset.sum_congr
  · ext i
    simp only [Finset.mem_filter, hset]
  · intro i _
    exact hdeg i

/-- Deleting the small triangles. -/
theorem deleteSmallTriangles_ok (hd : Manageable d) (ad : Administrated d m1) (r : Ready m1 s) (hn : m1.nodes ≠ []) (he : m1.edges ≠ [])
    (hap : Apart m1 s fraction) (hcap : ∀ n, gathered m1 s fraction n ≤ 16) :
    ∃ as m' rep, deleteSmallTriangles fraction m1 s = .ok (as, m') ∧ Pulled (Into m1 s fraction) m1 m' rep ∧ Manageable m' := by
  have hcap' : ∀ n, reach m1 (Into m1 s fraction) n ≤ 16 := fun n => by rw [reach_into hd ad hap]; exact hcap n
  have hm1 := MergeClose.manageable_of_administrated hd ad
  obtain ⟨ts, t1, t2⟩ := smallTriangles_ok r hm1.edgesFit fraction
  have start : LoopOk m1 s fraction id (([] : List (Act Pt)), m1, false) :=
    ⟨MeshOk.start hd ad _, fun _ _ _ => rfl, fun n h => absurd rfl h, fun _ => ⟨rfl, fun _ => rfl⟩⟩
  obtain ⟨st, rep, e1, lo, _, hall⟩ := mergeTriangles_ok hd ad r hap hcap' ts (fun t ht => (t2 _ _ _).1 ht) start
  have goes : ∀ i, (∃ p, Into m1 s fraction i p) → Into m1 s fraction i (rep i) := by
    rintro i ⟨p, a, c, q1, q2, q3⟩
    exact lo.goes i (hall (p, a, c) ((t2 p a c).2 q1) i q2 q3)
  have stays : ∀ i, (¬ ∃ p, Into m1 s fraction i p) → rep i = i := by
    intro i hi
    by_contra hne
    exact hi ⟨_, lo.goes i hne⟩
  unfold deleteSmallTriangles
  rw [t1, Res.ok_bind, e1, Res.ok_bind]
  obtain ⟨hu1, hd1⟩ := administrated_idem hd ad
  cases hf : st.2.2 with
  | false =>
    rw [if_neg Bool.false_ne_true]
    obtain ⟨q1, q2⟩ := lo.flag hf
    subst q1
    have hloop : ∀ x y, MergeClose.Drawn m1 x y → x ≠ y := by
      rintro x y hxy rfl
      obtain ⟨i, g1, g2⟩ := (MergeClose.drawn_iff m1 hm1.nodesFit x x).1 hxy
      have := hm1.noLoop i g1
      rcases g2 with g | g <;> rw [g] at this <;> exact this rfl
    refine ⟨[], m1, rep, rfl, ⟨goes, stays, ?_, rfl, fun _ _ _ => rfl, ?_⟩, hm1⟩
    · intro x y
      constructor
      · intro h
        exact ⟨hloop x y h, x, y, h, q2 x, q2 y⟩
      · rintro ⟨_, u, v, h, rfl, rfl⟩
        rw [q2 u, q2 v]
        exact h
    · rintro i (hi | hi)
      · exact absurd (q2 i) hi
      · cases hp : m1.nodes[i]? with
        | none => rfl
        | some v =>
          cases v with
          | none => rfl
          | some p => exact absurd (MergeClose.used_iff_drawn.1 (hu1 i p hp)) hi
  | true =>
    rw [if_pos rfl]
    have ok := lo.mesh
    have hm2 := ok.manageable hcap'
    have hn2 : st.2.1.nodes ≠ [] := by
      intro h
      have := ok.nodesLen
      rw [h] at this
      exact hn (List.length_eq_zero_iff.1 this.symm)
    have he2 : st.2.1.edges ≠ [] := by
      intro h
      have := ok.edgesLen
      rw [h] at this
      exact he (List.length_eq_zero_iff.1 this.symm)
    obtain ⟨bs, m', s', g1, _, g3, a2, _, g6, _, _⟩ := administrated hm2 hn2 he2
    rw [g1, Res.ok_bind]
    have hD : ∀ x y, MergeClose.Drawn m1 x y ↔ Adj m1 x y := fun x y =>
      (MergeClose.drawn_of_administrated hd ad x y).trans (MergeClose.adj_of_administrated hd ad x y).symm
    have hdr : ∀ x y, MergeClose.Drawn m' x y ↔ x ≠ y ∧ ∃ u v, MergeClose.Drawn m1 u v ∧ rep u = x ∧ rep v = y := by
      intro x y
      rw [MergeClose.drawn_of_administrated hm2 a2, ← MergeClose.adj_of_administrated hm2 a2]
      have hadj : Adj m' x y ↔ Adj st.2.1 x y := by
        have : ∀ i, edgeAt m' i = edgeAt st.2.1 i := by
          intro i
          rw [a2.edges i]
          by_cases hno : edgeAt st.2.1 i = noEdge
          · rw [hno]; split <;> rfl
          · rw [if_pos (ok.ends i hno)]
        simp only [Adj, this]
      rw [hadj, ok.adj x y]
      simp only [hD]
    have hused : ∀ i, Used m' i ↔ Used st.2.1 i := by
      intro i
      rw [MergeClose.used_iff_drawn, MergeClose.used_iff_drawn]
      exact exists_congr (fun y => MergeClose.drawn_of_administrated hm2 a2 i y)
    refine ⟨_, m', rep, rfl, ⟨goes, stays, hdr, by rw [a2.nodesLen, ok.nodesLen], ?_, ?_⟩, g6⟩
    · intro i hi hy
      have hu2 : Used st.2.1 i := (hused i).1 (MergeClose.used_iff_drawn.2 hy)
      rw [a2.nodes, if_pos ((connected_iff hm2.nodesFit i).2 hu2), (ok.node i).1 hi]
    · rintro i (hi | hi)
      · rw [a2.nodes, (ok.node i).2 hi]
        split <;> rfl
      · rw [a2.nodes, if_neg]
        intro hc
        have hu2 : Used st.2.1 i := (connected_iff hm2.nodesFit i).1 hc
        exact hi (MergeClose.used_iff_drawn.1 ((hused i).2 hu2))

end

end Verif.SmallFlow
