import Verif.CurviSearch.Lemmas
/-!
# C70: searching in a curvilinear grid
-/
namespace Verif.CurviSearch
open Verif.Curvi
variable {P B : Type} [PointLike P]

/-- A grid with a history: made new, then searched and changed, all searches since the last change in the box `b`; it has at
least two rows and two columns. -/
structure History (o : Eye P B) (b : B) (h : List (Step P B)) (s : Seen P B) : Prop where
  start : ∃ g b0 s0, fresh g b0 = .ok s0 ∧ run o s0 h = .ok s
  steady : Steady b h
  size : WF s.grid

theorem History.good {o : Eye P B} {b : B} {h : List (Step P B)} {s : Seen P B} (x : History o b h s) : Good o b s := by
  obtain ⟨g, b0, s0, h1, h2⟩ := x.start
  rw [fresh_ok] at h1
  have hs0 := Res.ok.inj h1
  refine run_good ?_ h x.steady h2 x.size
  rw [← hs0]
  exact good_dirty o b _ rfl rfl rfl

/-- **C70, partial.** The answer of a search is a nearest location of the grid as it is now, whatever happened to the grid
before; an error means that there is none in the box.  Proved when all searches since the last change were for the same box,
and no point computed for an edge or a face that does not exist falls into it.  Full statement: without the provisos.  It is
false, see `boxes_mixed_up`, `edge_to_nowhere`. -/
theorem search_answers_nearest_partial {o : Eye P B} {dist : P → P → ℚ} (hs : SearchOk o dist) {b : B}
    {h : List (Step P B)} {s : Seen P B} (x : History o b h s) (l : Loc) (hc : Clear o s.grid b l) (p : P) :
    (∃ i s', find o s p l b = .ok (i, s') ∧ s'.grid = s.grid ∧ Nearest o dist (LocIs o s.grid l) b p i) ∨
    (find o s p l b = .throw ∧ NoneIn o (LocIs o s.grid l) b) := by
  obtain ⟨s1, h1, h2⟩ := buildTree_ok (l := l) x.size x.good
  unfold find
  rw [h1, Res.ok_bind, h2.tree]
  rcases choose_spec hs (shows hc) p with ⟨i, h3, _, h4⟩ | ⟨h3, _, h4⟩
  · left; exact ⟨i, s1, by rw [h3, Res.ok_bind], h2.grid, h4⟩
  · right; exact ⟨by rw [h3]; rfl, h4⟩

/-- A search for a box other than the one of the search before always answers from the grid as it is now, whatever the
history. -/
theorem other_box_answers_nearest {o : Eye P B} {dist : P → P → ℚ} (hs : SearchOk o dist) {b : B} {s : Seen P B}
    (hg : WF s.grid) (hb : o.sameBox s.box b = false) (l : Loc) (hc : Clear o s.grid b l) (p : P) :
    (∃ i s', find o s p l b = .ok (i, s') ∧ Nearest o dist (LocIs o s.grid l) b p i) ∨
    (find o s p l b = .throw ∧ NoneIn o (LocIs o s.grid l) b) := by
  have key : ∃ s1, buildTree o s l b = .ok s1 ∧ s1.tree l = buildPoints o (pointsOf o s.grid l) b := by
    cases l with
    | faces =>
      simp only [buildTree, hb, Bool.not_false, Bool.or_true, if_true, faceCentres_ok, Res.ok_bind]
      exact ⟨_, rfl, rfl⟩
    | nodes =>
      simp only [buildTree, hb, Bool.not_false, Bool.or_true, if_true, nodes_list _ hg, Res.ok_bind]
      exact ⟨_, rfl, rfl⟩
    | edges =>
      simp only [buildTree, hb, Bool.not_false, Bool.or_true, if_true, edges_list _ hg, edgeCentres_ok, Res.ok_bind]
      exact ⟨_, rfl, rfl⟩
  obtain ⟨s1, h1, h2⟩ := key
  unfold find
  rw [h1, Res.ok_bind, h2]
  rcases choose_spec hs (shows hc) p with ⟨i, h3, _, h4⟩ | ⟨h3, _, h4⟩
  · left; exact ⟨i, s1, by rw [h3, Res.ok_bind], h4⟩
  · right; exact ⟨by rw [h3]; rfl, h4⟩

/-- The default box holds every point. -/
def Everything (o : Eye P B) : Prop := ∀ p, o.contains o.whole p = true

/-- The grid has its history, all searches since the last change in the default box, and all changes of the numbers of rows
and columns came with a new table. -/
structure Kept (o : Eye P B) (h : List (Step P B)) (s : Seen P B) : Prop where
  start : ∃ g b0 s0, fresh g b0 = .ok s0 ∧ run o s0 h = .ok s ∧ Numbered g h
  steady : Steady o.whole h
  size : WF s.grid
  all : Everything o

theorem Kept.history {o : Eye P B} {h : List (Step P B)} {s : Seen P B} (x : Kept o h s) : History o o.whole h s := by
  obtain ⟨g, b0, s0, h1, h2, _⟩ := x.start
  exact ⟨⟨g, b0, s0, h1, h2⟩, x.steady, x.size⟩

theorem Kept.listed {o : Eye P B} {h : List (Step P B)} {s : Seen P B} (x : Kept o h s) : Listed s := by
  obtain ⟨g, b0, s0, h1, h2, hn⟩ := x.start
  rw [fresh_ok] at h1
  have hs0 := Res.ok.inj h1
  refine run_listed h ?_ ?_ h2
  · rw [← hs0]; unfold Listed; rfl
  · rw [← hs0]; exact hn

/-- Some node is valid. -/
def HasNode (g : Grid P) : Prop := ∃ n m, n < g.numN ∧ m < g.numM ∧ valid (g.node n m) = true

theorem nodeAt_ok {o : Eye P B} {dist : P → P → ℚ} (hs : SearchOk o dist) {s : Seen P B} (hg : WF s.grid)
    (hgood : Good o o.whole s) (hl : Listed s) (ha : Everything o) (p : P) :
    (∃ v s', nodeAt o s p = .ok (v, s') ∧ s'.grid = s.grid ∧ s'.table = s.table ∧ Good o o.whole s' ∧
      NearestNode dist s.grid p v ∧ find o s p .nodes o.whole = .ok (v.1 * s.grid.numM + v.2, s')) ∨
    (nodeAt o s p = .throw ∧ find o s p .nodes o.whole = .throw ∧ ¬ HasNode s.grid) := by
  obtain ⟨s1, h1, h2⟩ := buildTree_ok (l := .nodes) hg hgood
  have hf : ∀ i, choose o (s1.tree .nodes) p = .ok i → find o s p .nodes o.whole = .ok (i, s1) := by
    intro i hi
    unfold find
    rw [h1, Res.ok_bind, hi, Res.ok_bind]
  have ht : choose o (s1.tree .nodes) p = .throw → find o s p .nodes o.whole = .throw := by
    intro hi
    unfold find
    rw [h1, Res.ok_bind, hi, Res.throw_bind]
  rw [h2.tree] at hf ht
  rcases choose_spec hs (shows (l := .nodes) (b := o.whole) (o := o) (g := s.grid) trivial) p with ⟨i, h3, _, h4⟩ | ⟨h3, _, h4⟩
  · left
    obtain ⟨q, ⟨n, m, hn, hm, hi, hq, hv⟩, _, hmin⟩ := h4
    refine ⟨(n, m), s1, ?_, h2.grid, h2.table, h2.good, ⟨hn, hm, by rw [← hq]; exact hv, ?_⟩, ?_⟩
    · unfold nodeAt
      rw [hf i h3, Res.ok_bind, hi]
      simp only []
      have hl1 : Listed s1 := by unfold Listed; rw [h2.grid, h2.table]; exact hl
      have := table_get hl1 (n := n) (m := m) (by rw [h2.grid]; exact hn) (by rw [h2.grid]; exact hm)
      rw [h2.grid] at this
      rw [this, Res.ok_bind]
    · intro a c h5 h6 h7
      have := hmin _ (s.grid.node a c) ⟨a, c, h5, h6, rfl, rfl, h7⟩ (ha _)
      rw [hq] at this
      exact this
    · rw [← hi]; exact hf i h3
  · right
    refine ⟨?_, ht h3, ?_⟩
    · unfold nodeAt; rw [ht h3, Res.throw_bind]
    · rintro ⟨n, m, h5, h6, h7⟩
      have := h4 _ (s.grid.node n m) ⟨n, m, h5, h6, rfl, rfl, h7⟩
      rw [ha] at this; cases this

/-- **C70, partial: moving a node.** Moving the node at a point moves a nearest valid node to the target and leaves all other
nodes as they are; the only error is that there is no valid node.  Full statement: without the provisos of `Kept`.  It is
false, see `move_after_search_in_box`, `move_after_mirror`. -/
theorem move_moves_nearest_partial {o : Eye P B} {dist : P → P → ℚ} (hs : SearchOk o dist) {h : List (Step P B)}
    {s : Seen P B} (x : Kept o h s) (hN : s.grid.numN ≤ missing) (hM : s.grid.numM ≤ missing) (p q : P) :
    (∃ v s', moveAt o s p q = .ok s' ∧ NearestNode dist s.grid p v ∧
      Edited s.grid s'.grid (fun n m => if n = v.1 ∧ m = v.2 then q else s.grid.node n m)) ∨
    (moveAt o s p q = .throw ∧ ¬ HasNode s.grid) := by
  rcases nodeAt_ok hs x.history.size x.history.good x.listed x.all p with ⟨v, s1, h1, h2, _, _, h4, _⟩ | ⟨h1, _, h2⟩
  · left
    obtain ⟨hn, hm⟩ : v.1 < s.grid.numN ∧ v.2 < s.grid.numM := ⟨h4.1, h4.2.1⟩
    have hmove : moveNode s.grid v.1 v.2 q =
        .ok ({ s.grid with cell := upd s.grid.cell (v.1 + s.grid.sn) (v.2 + s.grid.sm) q },
          .reset v.1 v.2 (s.grid.node v.1 v.2) q false) := by
      unfold moveNode
      rw [if_neg (by omega), getNode_ok hn hm, Res.ok_bind, setNode_ok q hn hm, Res.ok_bind]
    refine ⟨v, written s1 { s.grid with cell := upd s.grid.cell (v.1 + s.grid.sn) (v.2 + s.grid.sm) q }, ?_, h4, ?_⟩
    · unfold moveAt
      rw [h1, Res.ok_bind]
      simp only []
      rw [h2, hmove, Res.ok_bind]
    · refine ⟨⟨rfl, rfl, rfl, rfl, rfl, rfl⟩, ?_, ?_⟩
      · intro n m _ _
        show upd s.grid.cell (v.1 + s.grid.sn) (v.2 + s.grid.sm) q (n + s.grid.sn) (m + s.grid.sm) = _
        unfold upd
        by_cases c : n = v.1 ∧ m = v.2
        · rw [if_pos c, if_pos (by omega)]
        · rw [if_neg c, if_neg (by omega)]; rfl
      · intro i j hij
        show upd s.grid.cell (v.1 + s.grid.sn) (v.2 + s.grid.sm) q i j = _
        unfold upd
        rw [if_neg (by omega)]
  · right
    refine ⟨?_, h2⟩
    unfold moveAt; rw [h1, Res.throw_bind]

/-- **C70, partial: deleting a node.** Deleting the node at a point is the deletion (`Verif.Curvi.deleteNode`, properties C19
and C20) of a nearest valid node, and the table fits the grid afterwards.  Full statement: without the provisos of `Kept`. -/
theorem delete_deletes_nearest_partial {o : Eye P B} {dist : P → P → ℚ} (hs : SearchOk o dist) {h : List (Step P B)}
    {s : Seen P B} (x : Kept o h s) (hN : s.grid.numN ≤ missing) (hM : s.grid.numM ≤ missing) (p : P) :
    (∃ v, NearestNode dist s.grid p v ∧
      ((∃ s' a, deleteAt o s p = .ok s' ∧ deleteNode s.grid v.1 v.2 = .ok (s'.grid, some a) ∧ Listed s') ∨
       (deleteAt o s p = .throw ∧ deleteNode s.grid v.1 v.2 = .throw) ∨
       (deleteAt o s p = .ub ∧ deleteNode s.grid v.1 v.2 = .ub))) ∨
    (deleteAt o s p = .throw ∧ ¬ HasNode s.grid) := by
  rcases nodeAt_ok hs x.history.size x.history.good x.listed x.all p with ⟨v, s1, h1, h2, _, _, h4, _⟩ | ⟨h1, _, h2⟩
  · left
    refine ⟨v, h4, ?_⟩
    obtain ⟨hn, hm⟩ : v.1 < s.grid.numN ∧ v.2 < s.grid.numM := ⟨h4.1, h4.2.1⟩
    have he : deleteAt o s p = (do
        let r ← deleteNode s.grid v.1 v.2
        match r.2 with
        | none => .ok { s1 with grid := r.1 }
        | some _ => renumbered s1 r.1) := by
      unfold deleteAt
      rw [h1, Res.ok_bind]
      simp only []
      rw [h2]
      rfl
    cases hd : deleteNode s.grid v.1 v.2 with
    | ok r =>
      obtain ⟨g', a⟩ := r
      cases a with
      | none =>
        exfalso
        unfold deleteNode at hd
        rw [if_neg (by omega)] at hd
        obtain ⟨_, _, hd⟩ := Res.bind_eq_ok.1 hd
        obtain ⟨_, _, hd⟩ := Res.bind_eq_ok.1 hd
        obtain ⟨_, _, hd⟩ := Res.bind_eq_ok.1 hd
        have := (Prod.mk.inj (Res.ok.inj hd)).2
        cases this
      | some a =>
        left
        rw [he, hd, Res.ok_bind]
        simp only [renumbered, table_list, Res.ok_bind]
        exact ⟨_, a, rfl, rfl, by unfold Listed; rfl⟩
    | throw =>
      right; left
      rw [he, hd]; exact ⟨rfl, rfl⟩
    | ub =>
      right; right
      rw [he, hd]; exact ⟨rfl, rfl⟩
  · right
    refine ⟨?_, h2⟩
    unfold deleteAt; rw [h1, Res.throw_bind]

/-- **C70, partial: a block by its corners.** The block between two points is the one spanned by nearest valid nodes.  Full
statement: without the provisos of `Kept`. -/
theorem block_of_nearest_partial {o : Eye P B} {dist : P → P → ℚ} (hs : SearchOk o dist) {h : List (Step P B)}
    {s : Seen P B} (x : Kept o h s) (hN : s.grid.numN ≤ missing) (hM : s.grid.numM ≤ missing) (p q : P) :
    (∃ v w s', blockAt o s p q = .ok (((min v.1 w.1, min v.2 w.2), (max v.1 w.1, max v.2 w.2)), s') ∧
      s'.grid = s.grid ∧ NearestNode dist s.grid p v ∧ NearestNode dist s.grid q w) ∨
    (blockAt o s p q = .throw ∧ ¬ HasNode s.grid) := by
  rcases nodeAt_ok hs x.history.size x.history.good x.listed x.all p with ⟨v, s1, _, h2, h3, h4, h5, h6⟩ | ⟨_, h1, h2⟩
  · have hl1 : Listed s1 := by unfold Listed; rw [h2, h3]; exact x.listed
    rcases nodeAt_ok hs (by rw [h2]; exact x.history.size) h4 hl1 x.all q with
      ⟨w, s2, _, k2, k3, _, k5, k6⟩ | ⟨_, _, k2⟩
    · left
      rw [h2] at k2 k5 k6
      have hl2 : Listed s2 := by unfold Listed; rw [k2, k3, h3]; exact x.listed
      refine ⟨v, w, s2, ?_, k2, h5, k5⟩
      obtain ⟨hn, hm, _, _⟩ := h5
      obtain ⟨kn, km, _, _⟩ := k5
      unfold blockAt
      rw [h6, Res.ok_bind]
      simp only []
      rw [k6, Res.ok_bind]
      simp only []
      have t1 := table_get hl2 (n := v.1) (m := v.2) (by rw [k2]; exact hn) (by rw [k2]; exact hm)
      have t2 := table_get hl2 (n := w.1) (m := w.2) (by rw [k2]; exact kn) (by rw [k2]; exact km)
      rw [k2] at t1 t2
      rw [t1, Res.ok_bind, t2, Res.ok_bind, k2]
      unfold blockFromCorners
      simp only []
      rw [if_neg (by omega), if_neg (by omega), if_neg (by omega), Res.ok_bind]
    · exfalso
      rw [h2] at k2
      exact k2 ⟨v.1, v.2, h5.1, h5.2.1, h5.2.2.1⟩
  · right
    refine ⟨?_, h2⟩
    unfold blockAt; rw [h1, Res.throw_bind]

theorem edgeNo_of {N M : Nat} {a b : Nat × Nat} (h1 : a.1 < N) (h2 : a.2 < M) (h3 : b.1 < N) (h4 : b.2 < M)
    (h : (b.1 = a.1 + 1 ∧ b.2 = a.2) ∨ (b.1 = a.1 ∧ b.2 = a.2 + 1)) : ∃ i, EdgeNo N M i a b := by
  obtain ⟨n, m⟩ := a
  obtain ⟨k, l⟩ := b
  simp only at h1 h2 h3 h4 h
  rcases h with ⟨rfl, rfl⟩ | ⟨rfl, rfl⟩
  · exact ⟨n * M + l, .inl ⟨n, l, h3, h2, rfl, rfl, rfl⟩⟩
  · exact ⟨(N - 1) * M + (k * (M - 1) + m), .inr ⟨k, m, h1, h4, rfl, rfl, rfl⟩⟩

/-- **C70, partial: an edge by a point.** The edge found for a point is a nearest one between two valid nodes; when there is
none, the answer is the pair of missing nodes.  Full statement: without the provisos of `Kept`, and for grids with missing
nodes whose computed points are in the way. -/
theorem edge_of_nearest_partial {o : Eye P B} {dist : P → P → ℚ} (hs : SearchOk o dist) {h : List (Step P B)}
    {s : Seen P B} (x : Kept o h s) (hc : Clear o s.grid o.whole .edges) (p : P) :
    (∃ a b s', edgeAt o s p = .ok ((a, b), s') ∧ s'.grid = s.grid ∧ NearestEdge o dist s.grid p a b) ∨
    (∃ s', edgeAt o s p = .ok (((missing, missing), (missing, missing)), s') ∧ s'.grid = s.grid ∧
      ∀ a b, Neighbours s.grid a b → ¬ (valid (s.grid.node a.1 a.2) = true ∧ valid (s.grid.node b.1 b.2) = true)) := by
  obtain ⟨s1, h1, h2⟩ := buildTree_ok (l := .edges) x.history.size x.history.good
  have hl1 : Listed s1 := by unfold Listed; rw [h2.grid, h2.table]; exact x.listed
  have htree : s1.edgesTree = buildPoints o (pointsOf o s.grid .edges) o.whole := h2.tree
  unfold edgeAt
  rw [h1, Res.ok_bind, htree]
  rcases choose_spec hs (shows hc) p with ⟨i, _, h3, h4⟩ | ⟨_, h3, h4⟩
  · left
    obtain ⟨r, ⟨a, b, hno, hva, hvb, rfl⟩, _, hmin⟩ := h4
    obtain ⟨ha1, ha2, hb1, hb2⟩ := edgeNo_in hno
    refine ⟨a, b, s1, ?_, h2.grid, ⟨ha1, ha2, hb1, hb2, ?_⟩, hva, hvb, ?_⟩
    · rw [h3, edgeNodes]
      have he := h2.edges rfl
      rw [edges_list _ x.history.size] at he
      have : vget s1.edges i = .ok (s.grid.numM * a.1 + a.2, s.grid.numM * b.1 + b.2) := by
        rw [vget_eq_ok, ← Res.ok.inj he, List.getElem?_map, (ends_get _ _ _ _ _).2 hno]
        rfl
      rw [this, Res.ok_bind]
      simp only []
      have t1 := table_get hl1 (n := a.1) (m := a.2) (by rw [h2.grid]; exact ha1) (by rw [h2.grid]; exact ha2)
      have t2 := table_get hl1 (n := b.1) (m := b.2) (by rw [h2.grid]; exact hb1) (by rw [h2.grid]; exact hb2)
      rw [h2.grid, Nat.mul_comm] at t1 t2
      rw [t1, Res.ok_bind, t2, Res.ok_bind, Res.ok_bind]
    · rcases hno with ⟨n, m, _, _, _, rfl, rfl⟩ | ⟨n, m, _, _, _, rfl, rfl⟩
      · exact .inl ⟨rfl, rfl⟩
      · exact .inr ⟨rfl, rfl⟩
    · intro u v huv hu hv
      obtain ⟨j, hj⟩ := edgeNo_of huv.1 huv.2.1 huv.2.2.1 huv.2.2.2.1 huv.2.2.2.2
      exact hmin j _ ⟨u, v, hj, hu, hv, rfl⟩ (x.all _)
  · right
    refine ⟨s1, by rw [h3, edgeNodes, Res.ok_bind], h2.grid, ?_⟩
    rintro a b hab ⟨ha, hb⟩
    obtain ⟨j, hj⟩ := edgeNo_of hab.1 hab.2.1 hab.2.2.1 hab.2.2.2.1 hab.2.2.2.2
    have := h4 j _ ⟨a, b, hj, ha, hb, rfl⟩
    rw [x.all] at this; cases this

/-- The number a search for nodes answers is the number of the row times the number of columns plus the column: with
`mkernel_curvilinear_get_location_index` it identifies the node in the exported list.  Partial: as
`search_answers_nearest_partial`. -/
theorem search_numbers_rows_partial {o : Eye P B} {dist : P → P → ℚ} (hs : SearchOk o dist) {h : List (Step P B)}
    {s : Seen P B} (x : Kept o h s) (hsize : s.grid.numN * s.grid.numM < 2 ^ 32) (p : P) :
    (∃ v s', getLocationIndex o s p .nodes o.whole = .ok (v.1 * s.grid.numM + v.2, s') ∧ NearestNode dist s.grid p v) ∨
    (getLocationIndex o s p .nodes o.whole = .throw ∧ ¬ HasNode s.grid) := by
  have hne : numNodes s.grid ≠ 0 := by
    unfold numNodes u32
    have h1 := x.history.size.two_le_numN
    have h2 := x.history.size.two_le_numM
    have h3 : 0 < s.grid.numN * s.grid.numM := Nat.mul_pos (by omega) (by omega)
    rw [Nat.mod_eq_of_lt (by omega)]; omega
  unfold getLocationIndex
  rw [if_neg hne]
  rcases nodeAt_ok hs x.history.size x.history.good x.listed x.all p with ⟨v, s1, _, _, _, _, h5, h6⟩ | ⟨_, h1, h2⟩
  · left; exact ⟨v, s1, h6, h5⟩
  · right; exact ⟨h1, h2⟩

end Verif.CurviSearch
