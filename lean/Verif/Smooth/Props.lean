import Verif.Smooth.CallLemmas
/-!
# C67: smoothing a curvilinear grid
-/
namespace Verif.Smooth
open Verif.Curvi Verif.CurviLine

variable {K : Type} [Field K] [LinearOrder K] [IsStrictOrderedRing K]

/-- C67, what moves: on a grid without hidden lines and without loose nodes, the call carries out the given number of
rounds. In each round every inner node of the block goes to half itself and half the mean of its neighbours, every node of
an edge goes to a place on the edge, and all else stays (`Step`). There is no result exactly if in some round a node of an
edge has no such place. What is missing: grids with hidden lines (`hidden_line_misread`). -/
theorem smoothing_exact_partial (g : Grid (Pt K)) (hg : WF g) (hh : NoHidden g) (hl : NoLoose g) (hN : g.numN ≤ missing)
    (hM : g.numM ≤ missing) (k : Nat) (hk : k < 2147483648) {a b : Nat × Nat} (hb : BlockOk g a b) :
    ∃ r u, smoothing g k a b = .ok ⟨r, some u⟩ ∧ ∀ g', r = some g' ↔ Steps g (low a b) (high a b) k g g' := by
  obtain ⟨r, h1, h2⟩ := smoothing_ok g g hg hh (clean_of_no_loose g hg hl) hN hM k hb
  refine ⟨r, _, h1, ?_⟩
  have : unsigned (k : Int) = k := by unfold unsigned; omega
  rw [this] at h2
  exact h2

/-- The rule determines the result. -/
theorem steps_unique {g0 g g1 g2 : Grid (Pt K)} {lo up : Nat × Nat} {k : Nat} (h1 : Steps g0 lo up k g g1) (h2 : Steps g0 lo up k g g2) :
    g1 = g2 := by
  induction h1 with
  | zero g => cases h2; rfl
  | next s _ ih =>
    cases h2 with
    | next s' t' =>
      cases s.unique s'
      exact ih t'

/-- C67, undo: on a grid without loose nodes, undoing brings back every node. What is missing: loose nodes are lost
(`loose_node_lost`). -/
theorem smoothing_undo_partial (g : Grid (Pt K)) (hg : WF g) (hh : NoHidden g) (hl : NoLoose g) (hN : g.numN ≤ missing)
    (hM : g.numM ≤ missing) (k : Int) (a b : Nat × Nat) (g' : Grid (Pt K)) (u : Act (Pt K))
    (h : smoothing g k a b = .ok ⟨some g', some u⟩) : ∃ u', u.restore g' = .ok (u', g) := by
  have hc := clean_of_no_loose g hg hl
  by_cases hb : BlockOk g a b
  · obtain ⟨r, h1, h2⟩ := smoothing_ok g g hg hh hc hN hM k hb
    rw [h] at h1
    obtain ⟨rfl, rfl⟩ : some g' = r ∧ _ := by simpa using Res.ok.inj h1
    have s := (h2 g').1 rfl
    have hz := zone_of_block hb
    have hz1 := hz.n
    have hz2 := hz.m
    have hz3 := hz.inside
    exact undo_block g g' hg hl g'.node ⟨s.shape, fun _ _ _ _ => rfl, fun i j hij => s.hidden i j hij⟩ _ _ _ _
      (by omega) (by omega) (by omega) (by omega) (fun n m hn hm ho => s.stays hn hm (fun c => ho (by
        have := c.1
        unfold Within at this
        omega)))
  · exfalso
    obtain ⟨g1, types, h1, h2, hs, _⟩ := setup_ok g hg
    rw [hc] at h2
    cases h2
    unfold smoothing at h
    rw [isValid_of_wf hg, if_neg Bool.false_ne_true, h1, Res.ok_bind] at h
    simp only [setBlock_not hN hM hb] at h
    cases Res.ok.inj h

/-- C67, what is accepted: two different nodes of the grid. -/
theorem smoothing_accepted_iff (g : Grid (Pt K)) (hg : WF g) (hN : g.numN ≤ missing) (hM : g.numM ≤ missing) (k : Int) (a b : Nat × Nat) :
    ∃ o, smoothing g k a b = .ok o ∧ ((∃ u, o.undo = some u) ↔ BlockOk g a b) := by
  obtain ⟨g1, types, h1, h2, hs, _⟩ := setup_ok g hg
  unfold smoothing
  rw [isValid_of_wf hg, if_neg Bool.false_ne_true, h1, Res.ok_bind]
  have e : BlockOk g1 a b ↔ BlockOk g a b := by unfold BlockOk; rw [hs.numN, hs.numM]
  by_cases hb : BlockOk g1 a b
  · have hz := zone_of_block hb
    have hz1 := hz.n
    have hz2 := hz.m
    have hz3 := hz.inside
    obtain ⟨r, hr⟩ := rounds_total types (low a b) (high a b) (unsigned k) g1 hz
    simp only [setBlock_block (g := g1) (by rw [hs.numN]; exact hN) (by rw [hs.numM]; exact hM) hb]
    unfold compute
    rw [saveBlock_ok g1 _ _ _ _ (by omega) (by omega) (by omega) (by omega), Res.ok_bind, hr, Res.ok_bind, Res.ok_bind]
    exact ⟨_, rfl, ⟨fun _ => e.1 hb, fun _ => ⟨_, rfl⟩⟩⟩
  · simp only [setBlock_not (g := g1) (by rw [hs.numN]; exact hN) (by rw [hs.numM]; exact hM) hb]
    exact ⟨_, rfl, ⟨fun ⟨u, hu⟩ => (by cases hu), fun c => absurd (e.2 c) hb⟩⟩

/-- C67, a call that is refused leaves a grid without loose nodes as it is. What is missing: it removes loose nodes
(`loose_node_lost`). -/
theorem refused_unchanged_partial (g : Grid (Pt K)) (hg : WF g) (hl : NoLoose g) (hN : g.numN ≤ missing) (hM : g.numM ≤ missing) (k : Int)
    (a b : Nat × Nat) (o : Outcome K) (h : smoothing g k a b = .ok o) (ho : o.undo = none) : o.grid = some g := by
  obtain ⟨o', h1, h2⟩ := smoothing_accepted_iff g hg hN hM k a b
  rw [h] at h1
  cases h1
  have hb : ¬ BlockOk g a b := fun c => by
    obtain ⟨u, hu⟩ := h2.2 c
    rw [ho] at hu
    cases hu
  obtain ⟨g1, types, h3, h4, hs, _⟩ := setup_ok g hg
  rw [clean_of_no_loose g hg hl] at h4
  cases h4
  unfold smoothing at h
  rw [isValid_of_wf hg, if_neg Bool.false_ne_true, h3, Res.ok_bind] at h
  simp only [setBlock_not hN hM hb] at h
  rw [← Res.ok.inj h]

/-- C67, nothing else moves: after any number of rounds, a node outside the block, a missing node, a corner of the grid or
a node that is neither an inner node nor on an edge is where it was. -/
theorem elsewhere_unchanged {g0 g g' : Grid (Pt K)} {lo up : Nat × Nat} {k : Nat} (h : Steps g0 lo up k g g') {n m : Nat} (hn : n < g.numN)
    (hm : m < g.numM) (hs : SameShape g0 g)
    (ho : ¬ Within lo up n m ∨ valid (g0.node n m) = false ∨ ((n = 0 ∨ n + 1 = g.numN) ∧ (m = 0 ∨ m + 1 = g.numM))) :
    g'.node n m = g.node n m := by
  refine h.stays hn hm ?_
  rintro ⟨w, c⟩
  rcases ho with ho | ho | ho
  · exact ho w
  · have hv : valid (g0.node n m) = true := by
      rcases c with c | c | c
      · exact c.isValid
      · exact c.2.1
      · exact c.2.1
    rw [hv] at ho
    cases ho
  · rw [hs.numN, hs.numM] at ho
    rcases c with c | c | c
    · have := c.1; have := c.2.1; omega
    · have := c.1; omega
    · have := c.1; omega

/-- C67, convexity: if no node of the block is on an edge, then after any number of rounds the grid is still in every half
plane it was in. What is missing: blocks with nodes on an edge that bends (`bent_edge_left`). -/
theorem smoothing_convex_partial {g g' : Grid (Pt K)} {lo up : Nat × Nat} {k : Nat} (h : Steps g lo up k g g')
    (he : ∀ n m, Within lo up n m → ¬ EdgeN g n m ∧ ¬ EdgeM g n m) (α β γ : K)
    (hp : ∀ n m, n < g.numN → m < g.numM → valid (g.node n m) = true → level α β (g.node n m) ≤ γ) :
    ∀ n m, n < g.numN → m < g.numM → valid (g.node n m) = true → level α β (g'.node n m) ≤ γ := by
  refine h.keep (fun c => ∀ n m, n < g.numN → m < g.numM → valid (g.node n m) = true → level α β (c n m) ≤ γ) ?_
    ⟨rfl, rfl, rfl, rfl, rfl, rfl⟩ hp
  intro g1 g2 hs s hI n m hn hm hv
  by_cases w : Within lo up n m ∧ Inner g n m
  · rw [s.inner n m w.1 w.2, level_relaxed]
    obtain ⟨v0, v1, v2, v3, v4⟩ := w.2.around
    have b1 := w.2.1
    have b2 := w.2.2.1
    have h0 := hI n m hn hm v0
    have h1 := hI (n - 1) m (by omega) hm v1
    have h2 := hI (n + 1) m (by omega) hm v2
    have h3 := hI n (m - 1) hn (by omega) v3
    have h4 := hI n (m + 1) hn (by omega) v4
    linarith
  · rw [s.stays n m (by rw [hs.numN]; exact hn) (by rw [hs.numM]; exact hm) (fun c => ?_)]
    · exact hI n m hn hm hv
    · rcases c.2 with d | d | d
      · exact w ⟨c.1, d⟩
      · exact (he n m c.1).1 d
      · exact (he n m c.1).2 d

/-- C67, straight edges: if the nodes of a grid line along n are on a straight line, and none of them is an inner node or on
an edge along m, then they are on this line after any number of rounds. -/
theorem straight_edge_n {g g' : Grid (Pt K)} {lo up : Nat × Nat} {k : Nat} (h : Steps g lo up k g g') (m : Nat) (hm : m < g.numM)
    (he : ∀ n, Within lo up n m → ¬ Inner g n m ∧ ¬ EdgeM g n m) (α β γ : K)
    (hp : ∀ n, n < g.numN → valid (g.node n m) = true → level α β (g.node n m) = γ) :
    ∀ n, n < g.numN → valid (g.node n m) = true → level α β (g'.node n m) = γ := by
  refine h.keep (fun c => ∀ n, n < g.numN → valid (g.node n m) = true → level α β (c n m) = γ) ?_
    ⟨rfl, rfl, rfl, rfl, rfl, rfl⟩ hp
  intro g1 g2 hs s hI n hn hv
  by_cases w : Within lo up n m ∧ EdgeN g n m
  · obtain ⟨b, v0, v1, v2, _⟩ := w.2
    exact (s.edgeN n m (by rw [hs.numN]; exact hn) (by rw [hs.numM]; exact hm) w.1 w.2).straight (hI n hn v0) (hI (n - 1) (by omega) v1)
      (hI (n + 1) (by omega) v2)
  · rw [s.stays n m (by rw [hs.numN]; exact hn) (by rw [hs.numM]; exact hm) (fun c => ?_)]
    · exact hI n hn hv
    · rcases c.2 with d | d | d
      · exact (he n c.1).1 d
      · exact w ⟨c.1, d⟩
      · exact (he n c.1).2 d

/-- C67, straight edges along m. -/
theorem straight_edge_m {g g' : Grid (Pt K)} {lo up : Nat × Nat} {k : Nat} (h : Steps g lo up k g g') (n : Nat) (hn : n < g.numN)
    (he : ∀ m, Within lo up n m → ¬ Inner g n m ∧ ¬ EdgeN g n m) (α β γ : K)
    (hp : ∀ m, m < g.numM → valid (g.node n m) = true → level α β (g.node n m) = γ) :
    ∀ m, m < g.numM → valid (g.node n m) = true → level α β (g'.node n m) = γ := by
  refine h.keep (fun c => ∀ m, m < g.numM → valid (g.node n m) = true → level α β (c n m) = γ) ?_
    ⟨rfl, rfl, rfl, rfl, rfl, rfl⟩ hp
  intro g1 g2 hs s hI m hm hv
  by_cases w : Within lo up n m ∧ EdgeM g n m
  · obtain ⟨b, v0, v1, v2, _⟩ := w.2
    exact (s.edgeM n m (by rw [hs.numN]; exact hn) (by rw [hs.numM]; exact hm) w.1 w.2).straight (hI m hm v0) (hI (m - 1) (by omega) v1)
      (hI (m + 1) (by omega) v2)
  · rw [s.stays n m (by rw [hs.numN]; exact hn) (by rw [hs.numM]; exact hm) (fun c => ?_)]
    · exact hI m hm hv
    · rcases c.2 with d | d | d
      · exact (he m c.1).1 d
      · exact (he m c.1).2 d
      · exact w ⟨c.1, d⟩

omit [IsStrictOrderedRing K] in
/-- The first and last grid lines along n qualify. -/
theorem border_n (g : Grid (Pt K)) (n m : Nat) (hm : m = 0 ∨ m + 1 = g.numM) : ¬ Inner g n m ∧ ¬ EdgeM g n m :=
  ⟨fun h => by have := h.2.1; omega, fun h => by have := h.1; omega⟩

omit [IsStrictOrderedRing K] in
/-- The first and last grid lines along m qualify. -/
theorem border_m (g : Grid (Pt K)) (n m : Nat) (hn : n = 0 ∨ n + 1 = g.numN) : ¬ Inner g n m ∧ ¬ EdgeN g n m :=
  ⟨fun h => by have := h.1; omega, fun h => by have := h.1; omega⟩

/-- C67, a regular grid is not changed: a grid of equal rectangles, in any direction, is left as it is by any number of
rounds; so is a grid of equal parallelograms if no node of the block is on an edge. What is missing: the edges of grids of
parallelograms (`sheared_edge_moves`). -/
theorem regular_unchanged_partial (g : Grid (Pt K)) (hg : WF g) (hh : NoHidden g) (hl : NoLoose g) (hN : g.numN ≤ missing)
    (hM : g.numM ≤ missing) (k : Nat) (hk : k < 2147483648) {a b : Nat × Nat} (hb : BlockOk g a b) {o u v : Pt K} (hp : Parallel g o u v)
    (he : (∀ n m, Within (low a b) (high a b) n m → ¬ EdgeN g n m ∧ ¬ EdgeM g n m) ∨
      (u.x * v.x + u.y * v.y = 0 ∧ u ≠ ⟨0, 0⟩ ∧ v ≠ ⟨0, 0⟩)) :
    ∃ act, smoothing g k a b = .ok ⟨some g, some act⟩ := by
  obtain ⟨r, act, h1, h2⟩ := smoothing_exact_partial g hg hh hl hN hM k hk hb
  refine ⟨act, ?_⟩
  rw [h1, (h2 g).2 (steps_of_fixed (step_parallel hg hp _ _ he) k)]

/-- C67, similar grids: smoothing a grid that was turned, stretched, moved or reflected gives the smoothed grid, turned,
stretched, moved or reflected. For grids without missing nodes. -/
theorem similar_grid_partial (t : Similarity K) (ht : t.Proper) (g : Grid (Pt K)) (hg : WF g) (hh : NoHidden g) (hN : g.numN ≤ missing)
    (hM : g.numM ≤ missing) (hv : ∀ n m, n < g.numN → m < g.numM → valid (g.node n m) = true ∧ valid (t.apply (g.node n m)) = true)
    (k : Nat) (hk : k < 2147483648) {a b : Nat × Nat} (hb : BlockOk g a b) (g' : Grid (Pt K)) (u : Act (Pt K))
    (h : smoothing g k a b = .ok ⟨some g', some u⟩) : ∃ u', smoothing (t.grid g) k a b = .ok ⟨some (t.grid g'), some u'⟩ := by
  have hg' : WF (t.grid g) := ⟨hg.n, hg.m⟩
  have l1 := noLoose_of_all_valid hg (fun n m hn hm => (hv n m hn hm).1)
  have l2 : NoLoose (t.grid g) := noLoose_of_all_valid hg' (fun n m hn hm => (hv n m hn hm).2)
  obtain ⟨r, u1, h1, h2⟩ := smoothing_exact_partial g hg hh l1 hN hM k hk hb
  obtain ⟨r', u2, h3, h4⟩ := smoothing_exact_partial (t.grid g) hg' hh l2 hN hM k hk hb
  rw [h] at h1
  have e := Res.ok.inj h1
  simp only [Outcome.mk.injEq] at e
  have s := (h2 g').1 e.1.symm
  have al : Alike g (t.grid g) := ⟨rfl, rfl, fun n m hn hm => by rw [(hv n m hn hm).1]; exact (hv n m hn hm).2⟩
  have s' := (s.similar ht).alike al (show SameShape g (t.grid g) from ⟨rfl, rfl, rfl, rfl, rfl, rfl⟩)
  exact ⟨u2, by rw [h3, (h4 _).2 s']⟩

end Verif.Smooth
