import Verif.SmallFlow.LoopLemmas
import Verif.Mesh.History
import Verif.Quality.Props
/-!
# C86: deleting small flow edges and small triangles
-/
namespace Verif.SmallFlow
open Verif.Mesh Verif.Faces Verif.Quality
open Verif.Polygons (Pt)

theorem administrateAll_good {m m' : Mesh Pt} {as : List (Act Pt)} {s : State} (h : Flip.administrateAll m = .ok (as, m', s)) : Good m as m' := by
  unfold Flip.administrateAll at h
  obtain ⟨m0, _, h⟩ := Res.bind_eq_ok.1 h
  obtain ⟨r, h1, h⟩ := Res.bind_eq_ok.1 h
  obtain ⟨t, _, h⟩ := Res.bind_eq_ok.1 h
  have e := Res.ok.inj h
  simp only [Prod.mk.injEq] at e
  obtain ⟨rfl, rfl, rfl⟩ := e
  rcases Regions.administrateU_spec (ccwOrder m0.nodes m0.edges) m with ⟨q, _⟩ | ⟨bs, m1, q1, _, q3⟩
  · rw [h1] at q; cases q
  · rw [h1] at q1
    obtain rfl := Res.ok.inj q1
    exact q3

theorem mergeEnd_good {m1 : Mesh Pt} {s : State} {p n : Nat} {st st' : List (Act Pt) × Mesh Pt × Bool} (g : Good m1 st.1 st.2.1)
    (h : mergeEnd s p n st = .ok st') : Good m1 st'.1 st'.2.1 := by
  unfold mergeEnd at h
  obtain ⟨l, _, h⟩ := Res.bind_eq_ok.1 h
  obtain ⟨k, _, h⟩ := Res.bind_eq_ok.1 h
  split at h
  · obtain ⟨r, h1, h⟩ := Res.bind_eq_ok.1 h
    obtain rfl := Res.ok.inj h
    exact g.trans (mergeTwoNodesU_good (as := r.1) (m' := r.2) h1)
  · obtain rfl := Res.ok.inj h
    exact g

theorem mergeTriangles_good {m1 : Mesh Pt} {s : State} (ts : List (Nat × Nat × Nat)) {st st' : List (Act Pt) × Mesh Pt × Bool}
    (g : Good m1 st.1 st.2.1) (h : mergeTriangles s ts st = .ok st') : Good m1 st'.1 st'.2.1 := by
  induction ts generalizing st with
  | nil =>
    obtain rfl := Res.ok.inj h
    exact g
  | cons t ts ih =>
    rw [mergeTriangles] at h
    obtain ⟨st1, h1, h⟩ := Res.bind_eq_ok.1 h
    obtain ⟨st2, h2, h⟩ := Res.bind_eq_ok.1 h
    exact ih (mergeEnd_good (mergeEnd_good g h1) h2) h

theorem deleteSmallTriangles_good {fraction : ℚ} {m m' : Mesh Pt} {s : State} {as : List (Act Pt)}
    (h : deleteSmallTriangles fraction m s = .ok (as, m')) : Good m as m' := by
  unfold deleteSmallTriangles at h
  obtain ⟨ts, _, h⟩ := Res.bind_eq_ok.1 h
  obtain ⟨st, h1, h⟩ := Res.bind_eq_ok.1 h
  have g := mergeTriangles_good ts (Good.refl m) h1
  split at h
  · obtain ⟨q, h2, h⟩ := Res.bind_eq_ok.1 h
    have e := Res.ok.inj h
    simp only [Prod.mk.injEq] at e
    obtain ⟨rfl, rfl⟩ := e
    exact g.trans (administrateAll_good (as := q.1) (m' := q.2.1) (s := q.2.2) h2)
  · have e := Res.ok.inj h
    simp only [Prod.mk.injEq] at e
    obtain ⟨rfl, rfl⟩ := e
    exact g

/-- **C86.** The call deletes the edges between faces whose centres are too near to each other, no others, and with them the nodes left without edges.
Of the mesh so obtained it then pulls the ends of the outer sides of the small triangles at the boundary onto the third corner, when they have
a single inner edge: the drawn edges are those between different nodes after the pulling, and the nodes that stay keep their positions.  Proved for small
triangles that do not share the corners pulled together, and at most 16 edges in one place. -/
theorem small_deleted_partial (other : List Pt → List Nat → Pt) (threshold fraction : ℚ) {m : Mesh Pt} (hm : Manageable m) (hn : m.nodes ≠ [])
    (he : m.edges ≠ []) : ∃ m1 s m2 s2, doAdministrationCartesian m = .ok (m1, s) ∧
      Delete.Reduced m1 m2 (fun e => edgeAt m1 e ≠ noEdge ∧ ¬ ShortFlow other m1 s threshold e) ∧
      doAdministrationCartesian m2 = .ok (m2, s2) ∧
      (Apart m2 s2 fraction → (∀ n, gathered m2 s2 fraction n ≤ 16) →
        ∃ as m' rep, apiDelete other threshold fraction m = .ok (as, m') ∧ Pulled (Into m2 s2 fraction) m2 m' rep ∧ Manageable m') := by
  obtain ⟨as, m1, s, m2, s2, h1, fl⟩ := deleteSmallFlowEdges_ok other threshold hm hn he
  refine ⟨m1, s, m2, s2, fl.run, fl.reduced, fl.again, ?_⟩
  intro hap hcap
  obtain ⟨d, hd, ad⟩ := fl.from_
  obtain ⟨bs, m', rep, e1, pu, hm'⟩ := deleteSmallTriangles_ok hd ad fl.ready fl.nodes fl.edges hap hcap
  refine ⟨as ++ bs, m', rep, ?_, pu, hm'⟩
  unfold apiDelete
  rw [h1, Res.ok_bind]
  simp only []
  rw [e1, Res.ok_bind]

/-- **C86.** Whenever the call succeeds, undo restores the mesh and redo the result. -/
theorem small_deleted_undo (other : List Pt → List Nat → Pt) (threshold fraction : ℚ) {m m' : Mesh Pt} (hm : Manageable m) (hn : m.nodes ≠ [])
    (he : m.edges ≠ []) (hc : m.numEdges.length = m.nodes.length) {as : List (Act Pt)} (h : apiDelete other threshold fraction m = .ok (as, m')) :
    ∃ bs m1, Undo.restoreAll (meshSem Pt) (committed as) (.ok m') = (bs, .ok m1) ∧ content m1 = content m ∧
      ∃ cs m2, Undo.commitAll (meshSem Pt) bs (.ok m1) = (cs, .ok m2) ∧ content m2 = content m' := by
  obtain ⟨as1, m1, s, m2, s2, h1, fl⟩ := deleteSmallFlowEdges_ok other threshold hm hn he
  unfold apiDelete at h
  rw [h1, Res.ok_bind] at h
  obtain ⟨r, h2, h⟩ := Res.bind_eq_ok.1 h
  have e := Res.ok.inj h
  simp only [Prod.mk.injEq] at e
  obtain ⟨rfl, rfl⟩ := e
  exact (fl.good.trans (deleteSmallTriangles_good (as := r.1) (m' := r.2) h2)).undo_redo hc

theorem no_shortFlow (other : List Pt → List Nat → Pt) (m : Mesh Pt) (s : State) {threshold : ℚ} (ht : threshold ≤ 0) (e : Nat) :
    ¬ ShortFlow other m s threshold e := by
  rintro ⟨f, g, _, _, _, h⟩
  have h1 : (threshold : ℝ) ≤ 0 := by exact_mod_cast ht
  have h2 : (0 : ℝ) ≤ (√(areaOf m s f : ℝ) + √(areaOf m s g : ℝ)) / 2 := by positivity
  have h3 := Real.sqrt_nonneg ((gap (centreOf other m s f) (centreOf other m s g) : ℚ) : ℝ)
  have h4 := mul_nonpos_of_nonpos_of_nonneg h1 h2
  linarith

/-- The small flow edges of a mesh without any. -/
theorem flow_none (other : List Pt → List Nat → Pt) (threshold : ℚ) {m m1 : Mesh Pt} {s : State} (hm : Manageable m) (hn : m.nodes ≠ [])
    (he : m.edges ≠ []) (hrun : doAdministrationCartesian m = .ok (m1, s)) (hno : ∀ e, ¬ ShortFlow other m1 s threshold e) :
    ∃ as, deleteSmallFlowEdges other threshold m = .ok (as, m1, s) := by
  obtain ⟨as, m1', s', h1, h2, h3, h4, h5, h6, h7, h8⟩ := deleteDegenerated_ok hm hn he
  rw [hrun] at h2
  obtain ⟨rfl, rfl⟩ := Prod.mk.inj (Res.ok.inj h2)
  have h9 := admin_again hm hn he hrun
  obtain ⟨es, _, q1, _, q2, _⟩ := small_flow_exact other h6.nodesFit (inBounds_of h6.bounds) h9 h5.faces threshold
  have hes : es = [] := by
    apply List.eq_nil_iff_forall_not_mem.2
    intro e he
    exact hno e ((q2 e).1 he).2
  refine ⟨as, ?_⟩
  unfold deleteSmallFlowEdges
  rw [h1, Res.ok_bind]
  simp only []
  rw [h9, Res.ok_bind]
  simp only []
  rw [q1, Res.ok_bind, hes]
  rfl

/-- **C86.** In a mesh without small flow edges and small triangles nothing changes but what every administration does: triangles whose corners lie on
a line are no faces, and are never removed. -/
theorem nothing_small (other : List Pt → List Nat → Pt) (threshold fraction : ℚ) {m m1 : Mesh Pt} {s : State} (hm : Manageable m) (hn : m.nodes ≠ [])
    (he : m.edges ≠ []) (hrun : doAdministrationCartesian m = .ok (m1, s)) (hno : ∀ e, ¬ ShortFlow other m1 s threshold e)
    (hnt : ∀ p a c, ¬ SmallTriangle m1 s fraction p a c) :
    ∃ as, apiDelete other threshold fraction m = .ok (as, m1) ∧ ∀ x y, MergeClose.Drawn m1 x y ↔ MergeClose.Drawn m x y := by
  obtain ⟨as, h1⟩ := flow_none other threshold hm hn he hrun hno
  obtain ⟨bs, m1', s', g1, g2, g3, g4, g5, g6, g7⟩ := administrated hm hn he
  rw [hrun] at g2
  obtain ⟨rfl, rfl⟩ := Prod.mk.inj (Res.ok.inj g2)
  obtain ⟨ts, t1, t2⟩ := smallTriangles_ok g5 g6.edgesFit fraction
  have hts : ts = [] := by
    apply List.eq_nil_iff_forall_not_mem.2
    rintro ⟨p, a, c⟩ h
    exact hnt p a c ((t2 p a c).1 h)
  subst hts
  refine ⟨as ++ [], ?_, MergeClose.drawn_of_administrated hm g4⟩
  unfold apiDelete
  rw [h1, Res.ok_bind]
  simp only []
  unfold deleteSmallTriangles
  rw [t1, Res.ok_bind, mergeTriangles, Res.ok_bind, if_neg Bool.false_ne_true, Res.ok_bind]

/-- The call for thresholds that no pair of centres falls below. -/
theorem apiDelete_flow_none (other : List Pt → List Nat → Pt) {m m1 k : Mesh Pt} {s : State} {fraction : ℚ} {bs : List (Act Pt)} (hm : Manageable m)
    (hn : m.nodes ≠ []) (he : m.edges ≠ []) (hrun : doAdministrationCartesian m = .ok (m1, s))
    (h : deleteSmallTriangles fraction m1 s = .ok (bs, k)) : ∃ as, apiDelete other 0 fraction m = .ok (as, k) := by
  obtain ⟨as, h1⟩ := flow_none other 0 hm hn he hrun (no_shortFlow other m1 s le_rfl)
  refine ⟨as ++ bs, ?_⟩
  unfold apiDelete
  rw [h1, Res.ok_bind]
  simp only []
  rw [h, Res.ok_bind]

/-! ## Examples and where it fails -/

/-- A mesh from coordinates and edges. -/
def drawing (ps : List (ℚ × ℚ)) (es : List Edge) : Mesh Pt := ⟨ps.map (fun p => some ⟨p.1, p.2⟩), es, [], List.replicate ps.length 0⟩

/-- What is left of a mesh: its edges and the numbers of its nodes. -/
def remains (r : Res (List (Act Pt) × Mesh Pt)) : Option (List Edge × List Nat) :=
  match r with
  | .ok (_, m) => some (m.edges.filter (fun e => e ≠ noEdge), (List.range m.nodes.length).filter (fun i => ((m.nodes[i]?).join).isSome))
  | _ => none

theorem remains_some {r : Res (List (Act Pt) × Mesh Pt)} {es : List Edge} {ns : List Nat} (h : remains r = some (es, ns)) :
    ∃ as m, r = .ok (as, m) ∧ m.edges.filter (fun e => e ≠ noEdge) = es ∧
      (List.range m.nodes.length).filter (fun i => ((m.nodes[i]?).join).isSome) = ns := by
  match r, h with
  | .ok (as, m), h =>
    have e := Option.some.inj h
    simp only [Prod.mk.injEq] at e
    exact ⟨as, m, rfl, e.1, e.2⟩

/-- Two large faces with a small triangle between them at the lower boundary. -/
def notch : Mesh Pt := drawing [(0, 0), (4, 0), (5, 0), (9, 0), (9 / 2, 1 / 2), (0, 4), (9, 4)]
  [(0, 1), (1, 2), (2, 3), (3, 6), (6, 5), (5, 0), (1, 4), (2, 4), (4, 5), (4, 6)]

theorem notch_manageable : Manageable notch := manageable_of_check (by decide +kernel)

theorem notch_run : doAdministrationCartesian notch = .ok ((runOf notch).1, (runOf notch).2) := runOf_eq (by decide) (by decide)

theorem notch_triangles (p a c : Nat) : SmallTriangle (runOf notch).1 (runOf notch).2 (1 / 5) p a c ↔ (p, a, c) = (4, 2, 1) := by
  obtain ⟨as, m1, s, _, h2, _, _, h5, h6, _⟩ := administrated notch_manageable (by decide) (by decide)
  rw [notch_run] at h2
  obtain ⟨rfl, rfl⟩ := Prod.mk.inj (Res.ok.inj h2)
  obtain ⟨ts, t1, t2⟩ := smallTriangles_ok h5 h6.edgesFit (1 / 5)
  have : smallTriangles (runOf notch).1 (runOf notch).2 (1 / 5) = .ok [(4, 2, 1)] := by decide +kernel
  rw [this] at t1
  obtain rfl := Res.ok.inj t1
  rw [← t2, List.mem_singleton]

theorem notch_inner : innerEdges (runOf notch).1 (runOf notch).2 1 = 1 ∧ innerEdges (runOf notch).1 (runOf notch).2 2 = 1 := by
  obtain ⟨as, m1, s, _, h2, _, ad, h5, h6, _⟩ := administrated notch_manageable (by decide) (by decide)
  rw [notch_run] at h2
  obtain ⟨rfl, rfl⟩ := Prod.mk.inj (Res.ok.inj h2)
  have key : ∀ n, n < 7 → countInternal (runOf notch).2 (listAt (runOf notch).1 n) 0 = .ok 1 → innerEdges (runOf notch).1 (runOf notch).2 n = 1 := by
    intro n hn hk
    rw [countInternal_ok h5 _ (fun e he => by
      have := (ad.mem n e).1 he
      rw [ad.edgesLen]
      apply edgeAt_lt
      intro hno
      rw [hno, Delete.seg_noEdge notch_manageable.nodesFit] at this
      cases this.1), Nat.zero_add] at hk
    rw [← innerEdges_eq notch_manageable ad (show n < (runOf notch).1.nodes.length by rw [ad.nodesLen]; exact hn)]
    exact Res.ok.inj hk
  exact ⟨key 1 (by omega) (by decide +kernel), key 2 (by omega) (by decide +kernel)⟩

theorem notch_apart : Apart (runOf notch).1 (runOf notch).2 (1 / 5) := by
  intro p a c p' a' c' h1 h2
  rw [notch_triangles] at h1 h2
  simp only [Prod.mk.injEq] at h1 h2
  omega

theorem notch_gathered (n : Nat) : gathered (runOf notch).1 (runOf notch).2 (1 / 5) n ≤ 16 := by
  classical
  unfold gathered
  have hsub : (Finset.range (runOf notch).1.nodes.length).filter (fun i => i = n ∨ Into (runOf notch).1 (runOf notch).2 (1 / 5) i n) ⊆
      ({n, 2, 1} : Finset Nat) ∩ Finset.range 7 := by
    intro i hi
    rw [Finset.mem_filter] at hi
    rw [Finset.mem_inter]
    have hl : (runOf notch).1.nodes.length = 7 := by decide +kernel
    refine ⟨?_, by rw [← hl]; exact hi.1⟩
    rcases hi.2 with h | ⟨a, c, h, h', _⟩
    · simp [h]
    · rw [notch_triangles] at h
      simp only [Prod.mk.injEq] at h
      obtain ⟨_, rfl, rfl⟩ := h
      rcases h' with h' | h' <;> simp [h']
  refine Nat.le_trans (Finset.sum_le_sum_of_subset hsub) ?_
  have hd : ∀ i, i < 7 → MergeClose.degree (runOf notch).1 i ≤ 4 := by decide +kernel
  refine Nat.le_trans (Finset.sum_le_card_nsmul _ _ 4 (fun i hi => hd i (Finset.mem_range.1 (Finset.mem_inter.1 hi).2))) ?_
  have hc : (({n, 2, 1} : Finset Nat) ∩ Finset.range 7).card ≤ 3 :=
    Nat.le_trans (Finset.card_le_card Finset.inter_subset_left) Finset.card_le_three
  rw [smul_eq_mul]
  omega

/-- Both ends of the lower side of the triangle are pulled onto its upper corner. -/
example : Manageable notch ∧ Apart (runOf notch).1 (runOf notch).2 (1 / 5) ∧ (∀ n, gathered (runOf notch).1 (runOf notch).2 (1 / 5) n ≤ 16) ∧
    Into (runOf notch).1 (runOf notch).2 (1 / 5) 1 4 ∧ Into (runOf notch).1 (runOf notch).2 (1 / 5) 2 4 ∧
    ∃ as m', apiDelete noCentre 0 (1 / 5) notch = .ok (as, m') ∧
      m'.edges.filter (fun e => e ≠ noEdge) = [(0, 4), (4, 3), (3, 6), (6, 5), (5, 0), (4, 5), (4, 6)] := by
  refine ⟨notch_manageable, notch_apart, notch_gathered, ⟨2, 1, (notch_triangles _ _ _).2 rfl, Or.inr rfl, notch_inner.1⟩,
    ⟨2, 1, (notch_triangles _ _ _).2 rfl, Or.inl rfl, notch_inner.2⟩, ?_⟩
  have h : remains (deleteSmallTriangles (1 / 5) (runOf notch).1 (runOf notch).2) =
      some ([(0, 4), (4, 3), (3, 6), (6, 5), (5, 0), (4, 5), (4, 6)], [0, 3, 4, 5, 6]) := by decide +kernel
  obtain ⟨bs, k, h1, h2, _⟩ := remains_some h
  obtain ⟨as, h3⟩ := apiDelete_flow_none noCentre notch_manageable (by decide) (by decide) notch_run h1
  exact ⟨as, k, h3, h2⟩

/-- Short flow edges exist: the diagonal of a square, deleted by the call. -/
example : Manageable cutSquare ∧ cutSquare.nodes ≠ [] ∧ cutSquare.edges ≠ [] := ⟨manageable_of_check (by decide +kernel), by decide, by decide⟩

/-- A square and next to it three nodes on a line, joined by three edges. -/
def withFlat : Mesh Pt := drawing [(0, 0), (4, 0), (4, 4), (0, 4), (6, 0), (8, 0)] [(0, 1), (1, 2), (2, 3), (3, 0), (1, 4), (4, 5), (5, 1)]

/-- **C86 (failing part).** The call is meant to remove degenerated triangles first.  A triangle without area is not a face, so none is ever found: all
edges stay. -/
theorem flat_triangle_stays : ∃ m : Mesh Pt, Manageable m ∧ Polygons.shoelace [⟨4, 0⟩, ⟨6, 0⟩, ⟨8, 0⟩] = 0 ∧
    (∃ ps, ps = [(1, 4), (4, 5), (5, 1)] ∧ (∀ e ∈ ps, e ∈ m.edges) ∧
      ∃ as m', apiDelete noCentre 0 (1 / 5) m = .ok (as, m') ∧ (m'.nodes = m.nodes ∧ ∀ e ∈ ps, e ∈ m'.edges)) := by
  have hm : Manageable withFlat := manageable_of_check (by decide +kernel)
  have h : deleteSmallTriangles (1 / 5) (runOf withFlat).1 (runOf withFlat).2 = .ok ([], (runOf withFlat).1) := by decide +kernel
  obtain ⟨as, h3⟩ := apiDelete_flow_none noCentre hm (by decide) (by decide) (runOf_eq (by decide) (by decide)) h
  exact ⟨withFlat, hm, by decide +kernel, _, rfl, by decide, as, _, h3, by decide +kernel, by decide +kernel⟩

/-- A rectangle with a triangle at its right end. -/
def endTriangle : Mesh Pt := drawing [(0, 0), (4, 0), (4, 1), (0, 1), (5, 0)] [(0, 1), (1, 2), (2, 3), (3, 0), (1, 4), (4, 2)]

/-- **C86 (failing part).** A triangle with two sides at the boundary: its upper corner, a corner of the rectangle too, is pulled down.  Of the rectangle
only a triangle with half its area is left, and an edge without a face hangs at it. -/
theorem neighbour_halved : ∃ m m1 : Mesh Pt, ∃ s, Manageable m ∧ doAdministrationCartesian m = .ok (m1, s) ∧
    s.facesNodes = [[1, 4, 2], [0, 1, 2, 3]] ∧ areaOf m1 s 1 = 4 ∧ ∃ as m', apiDelete noCentre 0 (1 / 5) m = .ok (as, m') ∧
      m'.edges.filter (fun e => e ≠ noEdge) = [(0, 1), (1, 3), (3, 0), (4, 1)] ∧ Polygons.shoelace [⟨0, 0⟩, ⟨4, 0⟩, ⟨0, 1⟩] = 2 := by
  have hm : Manageable endTriangle := manageable_of_check (by decide +kernel)
  have hrun : doAdministrationCartesian endTriangle = .ok ((runOf endTriangle).1, (runOf endTriangle).2) := runOf_eq (by decide) (by decide)
  have h : remains (deleteSmallTriangles (1 / 5) (runOf endTriangle).1 (runOf endTriangle).2) =
      some ([(0, 1), (1, 3), (3, 0), (4, 1)], [0, 1, 3, 4]) := by decide +kernel
  obtain ⟨bs, k, h1, h2, _⟩ := remains_some h
  obtain ⟨as, h3⟩ := apiDelete_flow_none noCentre hm (by decide) (by decide) hrun h1
  refine ⟨endTriangle, _, _, hm, hrun, by decide +kernel, by decide +kernel, as, k, h3, ?_, by decide +kernel⟩
  exact h2

/-- A square with triangles at its right and lower sides, which have a corner in common. -/
def cascade1 : Mesh Pt := drawing [(0, 0), (4, 0), (4, 4), (0, 4), (5, 0), (0, -1)] [(0, 1), (1, 2), (2, 3), (3, 0), (1, 4), (4, 2), (0, 5), (5, 1)]

/-- The same drawing with other numbers. -/
def cascade2 : Mesh Pt := drawing [(4, 4), (4, 0), (5, 0), (0, 0), (0, 4), (0, -1)] [(3, 1), (1, 0), (0, 4), (4, 3), (1, 2), (2, 0), (3, 5), (5, 1)]

/-- **C86 (failing part).** The result depends on the numbers of the nodes: of two meshes with the same drawing, the first one keeps five nodes and the
other four, which are joined by a path of three edges without any face. -/
theorem numbering_matters : ∃ m k : Mesh Pt, Manageable m ∧ Manageable k ∧ segments m = segments k ∧
    ∃ as m' bs k', apiDelete noCentre 0 (1 / 2) m = .ok (as, m') ∧ apiDelete noCentre 0 (1 / 2) k = .ok (bs, k') ∧
      ((List.range m'.nodes.length).filter (fun i => ((m'.nodes[i]?).join).isSome)).length = 5 ∧
      ((List.range k'.nodes.length).filter (fun i => ((k'.nodes[i]?).join).isSome)).length = 4 := by
  have hm1 : Manageable cascade1 := manageable_of_check (by decide +kernel)
  have hm2 : Manageable cascade2 := manageable_of_check (by decide +kernel)
  have h1 : remains (deleteSmallTriangles (1 / 2) (runOf cascade1).1 (runOf cascade1).2) = some ([(0, 1), (1, 3), (3, 0), (4, 1), (0, 5), (5, 1)], [0, 1, 3, 4, 5]) := by decide +kernel
  have h2 : remains (deleteSmallTriangles (1 / 2) (runOf cascade2).1 (runOf cascade2).2) = some ([(3, 4), (2, 3), (5, 3)], [2, 3, 4, 5]) := by decide +kernel
  obtain ⟨bs1, k1, a1, _, a3⟩ := remains_some h1
  obtain ⟨bs2, k2, b1, _, b3⟩ := remains_some h2
  obtain ⟨as1, c1⟩ := apiDelete_flow_none noCentre hm1 (by decide) (by decide) (runOf_eq (by decide) (by decide)) a1
  obtain ⟨as2, c2⟩ := apiDelete_flow_none noCentre hm2 (by decide) (by decide) (runOf_eq (by decide) (by decide)) b1
  exact ⟨cascade1, cascade2, hm1, hm2, by decide +kernel, as1, k1, as2, k2, c1, c2, by rw [a3]; rfl, by rw [b3]; rfl⟩

end Verif.SmallFlow
