import Verif.Curvi.EditLemmas
/-!
# C19, C20: deleting blocks of nodes, and undoing edits of curvilinear grids
-/
namespace Verif.Curvi
variable {P : Type} [PointLike P]

/-- Every visible node satisfies the description; dimensions, offsets and hidden nodes are as before. -/
structure Edited (g g' : Grid P) (new : Nat → Nat → P) : Prop where
  shape : SameShape g g'
  visible : ∀ n m, n < g.numN → m < g.numM → g'.node n m = new n m
  hidden : ∀ i j, ¬ (g.sn ≤ i ∧ i < g.sn + g.numN ∧ g.sm ≤ j ∧ j < g.sm + g.numM) → g'.cell i j = g.cell i j

omit [PointLike P] in
theorem setBlock_ok (g : Grid P) (a b : Nat × Nat) (ha : a.1 < g.numN ∧ a.2 < g.numM) (hb : b.1 < g.numN ∧ b.2 < g.numM)
    (hN : g.numN ≤ missing) (hM : g.numM ≤ missing) (hab : a ≠ b) :
    setBlock g a b = .ok ((min a.1 b.1, min a.2 b.2), (max a.1 b.1, max a.2 b.2)) := by
  unfold setBlock blockFromCorners
  simp only
  rw [if_neg (by omega), if_neg (by omega), if_neg (by omega), Res.ok_bind, if_neg]
  intro h
  simp only [Prod.mk.injEq] at h
  exact hab (Prod.ext (by omega) (by omega))

omit [PointLike P] in
/-- C20, which blocks are accepted: exactly those with two different corners in the grid. -/
theorem block_accepted_iff (g : Grid P) (a b : Nat × Nat) (hN : g.numN ≤ missing) (hM : g.numM ≤ missing) :
    (∃ r, setBlock g a b = .ok r) ↔
      (a.1 < g.numN ∧ a.2 < g.numM) ∧ (b.1 < g.numN ∧ b.2 < g.numM) ∧ a ≠ b := by
  constructor
  · rintro ⟨r, h⟩
    unfold setBlock blockFromCorners at h
    simp only at h
    by_cases h1 : ((min a.1 b.1 = missing ∨ min a.2 b.2 = missing) ∨ (max a.1 b.1 = missing ∨ max a.2 b.2 = missing))
    · rw [if_pos h1] at h; cases h
    · rw [if_neg h1] at h
      by_cases h2 : (min a.2 b.2 ≥ g.numM ∨ min a.1 b.1 ≥ g.numN)
      · rw [if_pos h2] at h; cases h
      · rw [if_neg h2] at h
        by_cases h3 : (max a.2 b.2 ≥ g.numM ∨ max a.1 b.1 ≥ g.numN)
        · rw [if_pos h3] at h; cases h
        · rw [if_neg h3, Res.ok_bind] at h
          refine ⟨by omega, by omega, ?_⟩
          rintro rfl
          simp at h
  · rintro ⟨ha, hb, hab⟩
    exact ⟨_, setBlock_ok g a b ha hb hN hM hab⟩

theorem deleteInterior_ok (g : Grid P) (lo up : Nat × Nat) (h1 : lo.1 ≤ up.1) (h2 : lo.2 ≤ up.2) (h3 : up.1 < g.numN) (h4 : up.2 < g.numM) :
    deleteInterior g lo up = .ok (mapBlock g (lo.1 + 1) up.1 (lo.2 + 1) up.2 (fun _ _ _ => inv),
      .block ⟨lo.1, lo.2, up.1, up.2, savedNodes g lo.1 lo.2 up.1 up.2⟩) := by
  unfold deleteInterior
  rw [saveBlock_ok g _ _ _ _ h1 h2 (by omega) (by omega), Res.ok_bind, invalidateBlock_ok g _ _ _ _ (by omega) (by omega), Res.ok_bind]

/-- C20, first half: delete-interior makes exactly the nodes strictly inside the block invalid and leaves every
other node as it is. -/
theorem delete_interior_exact (g : Grid P) (hg : WF g) (a b : Nat × Nat) (hN : g.numN ≤ missing) (hM : g.numM ≤ missing)
    (ha : a.1 < g.numN ∧ a.2 < g.numM) (hb : b.1 < g.numN ∧ b.2 < g.numM) (hab : a ≠ b) :
    ∃ g' u, apiDeleteInterior g a b = .ok (g', u) ∧ Edited g g' (fun n m =>
      if (min a.1 b.1 < n ∧ n < max a.1 b.1) ∧ (min a.2 b.2 < m ∧ m < max a.2 b.2) then inv else g.node n m) := by
  have e := deleteInterior_ok g (min a.1 b.1, min a.2 b.2) (max a.1 b.1, max a.2 b.2) (by dsimp only; omega) (by dsimp only; omega)
    (by dsimp only; omega) (by dsimp only; omega)
  refine ⟨?_, ?_, ?_, ?_⟩
  · exact mapBlock g (min a.1 b.1 + 1) (max a.1 b.1) (min a.2 b.2 + 1) (max a.2 b.2) (fun _ _ _ => inv)
  · exact .block ⟨min a.1 b.1, min a.2 b.2, max a.1 b.1, max a.2 b.2, savedNodes g (min a.1 b.1) (min a.2 b.2) (max a.1 b.1) (max a.2 b.2)⟩
  · unfold apiDeleteInterior
    rw [(isValid_iff g).2 ⟨hg.two_le_numM, hg.two_le_numN⟩]
    simp only [Bool.not_true, Bool.false_eq_true, if_false]
    rw [setBlock_ok g a b ha hb hN hM hab, Res.ok_bind, e]
  · refine ⟨mapBlock_shape .., fun n m hn hm => ?_, fun i j h => mapBlock_hidden _ _ _ _ _ _ (by simp; omega) (by simp; omega) i j h⟩
    rw [mapBlock_node]
    simp only [Nat.succ_le_iff]

theorem deleteExterior_ok (g : Grid P) (lo up : Nat × Nat) (h1 : lo.1 ≤ up.1) (h2 : lo.2 ≤ up.2) (h3 : up.1 < g.numN) (h4 : up.2 < g.numM) :
    ∃ g', deleteExterior g lo up = .ok (g', .compound [⟨0, 0, g.numN, lo.2, savedNodes g 0 0 g.numN lo.2⟩,
        ⟨0, lo.2, lo.1, up.2 + 1, savedNodes g 0 lo.2 lo.1 (up.2 + 1)⟩,
        ⟨up.1, lo.2, g.numN, up.2 + 1, savedNodes g up.1 lo.2 g.numN (up.2 + 1)⟩,
        ⟨0, up.2 + 1, g.numN, g.numM, savedNodes g 0 (up.2 + 1) g.numN g.numM⟩]) ∧
      Edited g g' (fun n m => if (lo.1 ≤ n ∧ n ≤ up.1) ∧ (lo.2 ≤ m ∧ m ≤ up.2) then g.node n m else inv) := by
  refine ⟨mapBlock (mapBlock (mapBlock (mapBlock g 0 g.numN 0 lo.2 fun _ _ _ => inv) 0 lo.1 lo.2 (up.2 + 1) fun _ _ _ => inv)
    (up.1 + 1) g.numN lo.2 (up.2 + 1) fun _ _ _ => inv) 0 g.numN (up.2 + 1) g.numM fun _ _ _ => inv, ?_, ?_⟩
  · unfold deleteExterior
    rw [saveBlock_ok g _ _ _ _ (by omega) (by omega) (by omega) (by omega), Res.ok_bind,
      saveBlock_ok g _ _ _ _ (by omega) (by omega) (by omega) (by omega), Res.ok_bind,
      saveBlock_ok g _ _ _ _ (by omega) (by omega) (by omega) (by omega), Res.ok_bind,
      saveBlock_ok g _ _ _ _ (by omega) (by omega) (by omega) (by omega), Res.ok_bind,
      invalidateBlock_ok g _ _ _ _ (by omega) (by omega), Res.ok_bind,
      invalidateBlock_ok _ _ _ _ _ (by show _ ≤ g.numN; omega) (by show _ ≤ g.numM; omega), Res.ok_bind,
      invalidateBlock_ok _ _ _ _ _ (by show _ ≤ g.numN; omega) (by show _ ≤ g.numM; omega), Res.ok_bind,
      invalidateBlock_ok _ _ _ _ _ (by show _ ≤ g.numN; omega) (by show _ ≤ g.numM; omega), Res.ok_bind]
  · refine ⟨⟨rfl, rfl, rfl, rfl, rfl, rfl⟩, fun n m hn hm => ?_, fun i j h => ?_⟩
    · rw [mapBlock_node, mapBlock_node, mapBlock_node, mapBlock_node]
      by_cases hin : (lo.1 ≤ n ∧ n ≤ up.1) ∧ (lo.2 ≤ m ∧ m ≤ up.2)
      · rw [if_pos hin, if_neg (by omega), if_neg (by omega), if_neg (by omega), if_neg (by omega)]
      · rw [if_neg hin]
        by_cases c4 : (0 ≤ n ∧ n < g.numN) ∧ up.2 + 1 ≤ m ∧ m < g.numM
        · rw [if_pos c4]
        · rw [if_neg c4]
          by_cases c3 : (up.1 + 1 ≤ n ∧ n < g.numN) ∧ lo.2 ≤ m ∧ m < up.2 + 1
          · rw [if_pos c3]
          · rw [if_neg c3]
            by_cases c2 : (0 ≤ n ∧ n < lo.1) ∧ lo.2 ≤ m ∧ m < up.2 + 1
            · rw [if_pos c2]
            · rw [if_neg c2, if_pos (by omega)]
    · have hs : ∀ {k : Grid P} (a b c d φ), SameShape g k → SameShape g (mapBlock k a b c d φ) :=
        fun a b c d φ hk => hk.trans (mapBlock_shape ..)
      have s1 := hs 0 g.numN 0 lo.2 (fun _ _ _ => inv) (SameShape.refl g)
      have s2 := hs 0 lo.1 lo.2 (up.2 + 1) (fun _ _ _ => inv) s1
      have s3 := hs (up.1 + 1) g.numN lo.2 (up.2 + 1) (fun _ _ _ => inv) s2
      rw [mapBlock_hidden' g _ s3 _ _ _ _ _ (Nat.le_refl _) (Nat.le_refl _) i j h,
        mapBlock_hidden' g _ s2 _ _ _ _ _ (Nat.le_refl _) (by omega) i j h,
        mapBlock_hidden' g _ s1 _ _ _ _ _ (by omega) (by omega) i j h,
        mapBlock_hidden g _ _ _ _ _ (Nat.le_refl _) (by omega) i j h]

/-- C20, second half: delete-exterior makes exactly the nodes outside the closed block invalid. -/
theorem delete_exterior_exact (g : Grid P) (hg : WF g) (a b : Nat × Nat) (hN : g.numN ≤ missing) (hM : g.numM ≤ missing)
    (ha : a.1 < g.numN ∧ a.2 < g.numM) (hb : b.1 < g.numN ∧ b.2 < g.numM) (hab : a ≠ b) :
    ∃ g' u, apiDeleteExterior g a b = .ok (g', u) ∧ Edited g g' (fun n m =>
      if (min a.1 b.1 ≤ n ∧ n ≤ max a.1 b.1) ∧ (min a.2 b.2 ≤ m ∧ m ≤ max a.2 b.2) then g.node n m else inv) := by
  obtain ⟨g', h1, h2⟩ := deleteExterior_ok g (min a.1 b.1, min a.2 b.2) (max a.1 b.1, max a.2 b.2) (by dsimp only; omega) (by dsimp only; omega)
    (by dsimp only; omega) (by dsimp only; omega)
  refine ⟨g', _, Eq.trans ?_ h1, h2⟩
  unfold apiDeleteExterior
  rw [(isValid_iff g).2 ⟨hg.two_le_numM, hg.two_le_numN⟩]
  simp only [Bool.not_true, Bool.false_eq_true, if_false]
  rw [setBlock_ok g a b ha hb hN hM hab, Res.ok_bind]

/-! ## C19: undo -/

/-- Undoing a move restores the grid, and redoing it gives the moved grid again. -/
theorem undo_move_node (g : Grid P) (n m : Nat) (dest : P) (hn : n < g.numN) (hm : m < g.numM)
    (hN : g.numN ≤ missing) (hM : g.numM ≤ missing) :
    ∃ g' u, moveNode g n m dest = .ok (g', u) ∧ Edited g g' (fun a b => if a = n ∧ b = m then dest else g.node a b) ∧
      u.restore g' = .ok (u, g) ∧ u.commit g = .ok (u, g') := by
  refine ⟨{ g with cell := upd g.cell (n + g.sn) (m + g.sm) dest }, .reset n m (g.node n m) dest false, ?_, ⟨⟨rfl, rfl, rfl, rfl, rfl, rfl⟩, ?_, ?_⟩, ?_, ?_⟩
  · unfold moveNode
    rw [if_neg (by omega), getNode_ok hn hm, Res.ok_bind, setNode_ok _ hn hm, Res.ok_bind]
  · intro a b _ _
    exact upd_shift g n m a b dest
  · intro i j h
    show upd _ _ _ _ i j = _
    unfold upd
    rw [if_neg (by omega)]
  · simp only [Act.restore]
    unfold resetNode
    rw [setNode_ok _ (by exact hn) (by exact hm)]
    simp only [Res.ok_bind, Bool.false_eq_true, if_false]
    congr 2
    refine Grid.ext' ⟨rfl, rfl, rfl, rfl, rfl, rfl⟩ fun i j => ?_
    show upd (upd _ _ _ _) _ _ _ i j = _
    unfold upd Grid.node
    split
    · rename_i e; rw [e.1, e.2]
    · rfl
  · simp only [Act.commit]
    unfold resetNode
    rw [setNode_ok _ hn hm]
    simp only [Res.ok_bind, Bool.false_eq_true, if_false]

/-- No node outside the valid faces: the state every clean-up leaves behind. -/
def NoLoose (g : Grid P) : Prop :=
  ∀ n m, n < g.numN → m < g.numM → valid (g.node n m) = true → InFace g n m

/-- Undoing delete-interior gives back the grid, cleaned. -/
theorem undo_delete_interior_cleans (g : Grid P) (lo up : Nat × Nat) (h1 : lo.1 ≤ up.1) (h2 : lo.2 ≤ up.2)
    (h3 : up.1 < g.numN) (h4 : up.2 < g.numM) :
    ∃ g' u, deleteInterior g lo up = .ok (g', u) ∧ (do let r ← u.restore g'; .ok r.2) = clean g := by
  refine ⟨_, _, deleteInterior_ok g lo up h1 h2 h3 h4, ?_⟩
  simp only [Act.restore]
  unfold swapAndClean
  rw [swapBlock_ok ⟨lo.1, lo.2, up.1, up.2, savedNodes g lo.1 lo.2 up.1 up.2⟩ _ h1 h2 (by show up.1 ≤ g.numN; omega) (by show up.2 ≤ g.numM; omega) rfl rfl]
  simp only [Res.ok_bind]
  have e : mapBlock (mapBlock g (lo.1 + 1) up.1 (lo.2 + 1) up.2 fun _ _ _ => inv) lo.1 up.1 lo.2 up.2
      (fun n m _ => (savedNodes g lo.1 lo.2 up.1 up.2).cell (n - lo.1) (m - lo.2)) = g := by
    refine Grid.ext_node ⟨rfl, rfl, rfl, rfl, rfl, rfl⟩ (fun n m hn hm => ?_) fun i j h => ?_
    · rw [mapBlock_node]
      by_cases c : (lo.1 ≤ n ∧ n < up.1) ∧ lo.2 ≤ m ∧ m < up.2
      · rw [if_pos c, savedNodes_node _ _ _ _ _ _ _ (by omega) (by omega), show n - lo.1 + lo.1 = n by omega, show m - lo.2 + lo.2 = m by omega]
      · rw [if_neg c, mapBlock_node, if_neg (by omega)]
    · rw [mapBlock_hidden' g _ (mapBlock_shape ..) _ _ _ _ _ (by omega) (by omega) i j h]
      exact mapBlock_hidden _ _ _ _ _ _ (by omega) (by omega) i j h
  rw [e]
  cases clean g <;> rfl

/-- C19 for delete-interior, on grids without loose nodes. What is missing: on other grids the loose nodes are lost
(`undo_delete_interior_loses_loose_nodes`). -/
theorem undo_delete_interior_partial (g : Grid P) (hg : WF g) (hl : NoLoose g) (lo up : Nat × Nat) (h1 : lo.1 ≤ up.1) (h2 : lo.2 ≤ up.2)
    (h3 : up.1 < g.numN) (h4 : up.2 < g.numM) :
    ∃ g' u, deleteInterior g lo up = .ok (g', u) ∧ (do let r ← u.restore g'; .ok r.2) = .ok g := by
  obtain ⟨g', u, e1, e2⟩ := undo_delete_interior_cleans g lo up h1 h2 h3 h4
  exact ⟨g', u, e1, by rw [e2, clean_of_no_loose g hg hl]⟩

/-- Undoing a refinement or de-refinement gives back the grid, cleaned: dimensions, offsets and all nodes. -/
theorem undo_whole_cleans (g h : Grid P) : (do let r ← (Act.whole g).restore h; .ok r.2) = clean g := by
  simp only [Act.restore]
  unfold swapWhole
  cases clean g <;> rfl

/-- C19 for refinement and de-refinement, on grids without loose nodes. What is missing: on other grids the loose
nodes are lost. -/
theorem undo_whole_partial (g h : Grid P) (hg : WF g) (hl : NoLoose g) :
    (Act.whole g).restore h = .ok (.whole h, g) := by
  simp only [Act.restore]
  unfold swapWhole
  rw [clean_of_no_loose g hg hl]
  rfl

/-! ### Deleting one node -/

/-- The grid with one node made invalid. -/
def without (g : Grid P) (n m : Nat) : Grid P := { g with cell := upd g.cell (n + g.sn) (m + g.sm) inv }

/-- C19 for deleting a node, when no other node becomes loose by it. What is missing: nodes that become loose are
removed together with the node but not restored with it (`undo_delete_node_loses_nodes`). -/
theorem undo_delete_node_partial (g : Grid P) (hg : WF g) (hl : NoLoose g) (n m : Nat) (hn : n < g.numN) (hm : m < g.numM)
    (hN : g.numN ≤ missing) (hM : g.numM ≤ missing) (hw : NoLoose (without g n m)) :
    ∃ u, deleteNode g n m = .ok (without g n m, some u) ∧ u.restore (without g n m) = .ok (u, g) := by
  have hwf : WF (without g n m) := SameShape.wf (g := g) ⟨rfl, rfl, rfl, rfl, rfl, rfl⟩ hg
  refine ⟨.reset n m (g.node n m) inv true, ?_, ?_⟩
  · unfold deleteNode
    rw [if_neg (by omega), getNode_ok hn hm, Res.ok_bind, setNode_ok _ hn hm, Res.ok_bind]
    have := clean_of_no_loose (without g n m) hwf hw
    unfold without at this ⊢
    rw [this, Res.ok_bind]
  · simp only [Act.restore]
    unfold resetNode
    rw [setNode_ok _ (by exact hn) (by exact hm)]
    simp only [Res.ok_bind, if_true]
    have e : ({ without g n m with cell := upd (without g n m).cell (n + (without g n m).sn) (m + (without g n m).sm) (g.node n m) } : Grid P) = g := by
      refine Grid.ext' ⟨rfl, rfl, rfl, rfl, rfl, rfl⟩ fun i j => ?_
      show upd (upd _ _ _ _) _ _ _ i j = _
      unfold upd Grid.node
      show (if i = n + g.sn ∧ j = m + g.sm then _ else _) = _
      split
      · rename_i e; rw [e.1, e.2]
      · rfl
    rw [e, clean_of_no_loose g hg hl]
    rfl

/-! ### Delete-exterior -/

/-- `h` has the nodes of `g` in the region `R` and invalid nodes elsewhere. -/
structure Part (g h : Grid P) (R : Nat → Nat → Prop) : Prop where
  shape : SameShape g h
  inside : ∀ n m, n < g.numN → m < g.numM → R n m → h.node n m = g.node n m
  outside : ∀ n m, n < g.numN → m < g.numM → ¬ R n m → h.node n m = inv
  hidden : ∀ i j, ¬ (g.sn ≤ i ∧ i < g.sn + g.numN ∧ g.sm ≤ j ∧ j < g.sm + g.numM) → h.cell i j = g.cell i j

theorem swap_part (g h : Grid P) (R : Nat → Nat → Prop) (hp : Part g h R) (bn bm tn tm : Nat)
    (h1 : bn ≤ tn) (h2 : bm ≤ tm) (h3 : tn ≤ g.numN) (h4 : tm ≤ g.numM) :
    ∃ b' h', swapBlock ⟨bn, bm, tn, tm, savedNodes g bn bm tn tm⟩ h = .ok (b', h') ∧
      Part g h' (fun n m => R n m ∨ ((bn ≤ n ∧ n < tn) ∧ (bm ≤ m ∧ m < tm))) := by
  refine ⟨_, _, swapBlock_ok ⟨bn, bm, tn, tm, savedNodes g bn bm tn tm⟩ h h1 h2 (by rw [hp.shape.numN]; exact h3)
    (by rw [hp.shape.numM]; exact h4) rfl rfl, ?_⟩
  dsimp only
  refine ⟨hp.shape.trans (mapBlock_shape ..), fun n m hn hm hr => ?_, fun n m hn hm hr => ?_, fun i j hij => ?_⟩
  · rw [mapBlock_node]
    by_cases c : (bn ≤ n ∧ n < tn) ∧ bm ≤ m ∧ m < tm
    · rw [if_pos c, savedNodes_node _ _ _ _ _ _ _ (by omega) (by omega), show n - bn + bn = n by omega, show m - bm + bm = m by omega]
    · rw [if_neg c]
      exact hp.inside n m hn hm (hr.resolve_right c)
  · rw [mapBlock_node, if_neg (fun c => hr (Or.inr c))]
    exact hp.outside n m hn hm (fun c => hr (Or.inl c))
  · rw [mapBlock_hidden _ _ _ _ _ _ (by rw [hp.shape.numN]; exact h3) (by rw [hp.shape.numM]; exact h4) i j (by
      rw [hp.shape.numN, hp.shape.numM, hp.shape.sn, hp.shape.sm]; exact hij), hp.hidden i j hij]

/-- Every node of the region is a corner of a face inside the region and the grid. -/
def RegionOk (N M : Nat) (R : Nat → Nat → Prop) : Prop :=
  ∀ n m, n < N → m < M → R n m → ∃ i j, Corner n m i j ∧ i + 1 < N ∧ j + 1 < M ∧
    R i j ∧ R (i + 1) j ∧ R i (j + 1) ∧ R (i + 1) (j + 1)

theorem part_noLoose (g h : Grid P) (R : Nat → Nat → Prop) (hp : Part g h R)
    (hfull : ∀ n m, n < g.numN → m < g.numM → valid (g.node n m) = true) (hr : RegionOk g.numN g.numM R) : NoLoose h := by
  intro n m hn hm hv
  rw [hp.shape.numN] at hn
  rw [hp.shape.numM] at hm
  have hR : R n m := by
    by_cases c : R n m
    · exact c
    · rw [hp.outside n m hn hm c, PointLike.valid_inv] at hv; cases hv
  obtain ⟨i, j, hc, hi, hj, r1, r2, r3, r4⟩ := hr n m hn hm hR
  refine ⟨i, j, by rw [hp.shape.numN]; exact hi, by rw [hp.shape.numM]; exact hj, ?_, hc⟩
  unfold faceValid
  rw [hp.inside _ _ (by omega) (by omega) r1, hp.inside _ _ hi (by omega) r2, hp.inside _ _ (by omega) hj r3, hp.inside _ _ hi hj r4,
    hfull _ _ (by omega) (by omega), hfull _ _ hi (by omega), hfull _ _ (by omega) hj, hfull _ _ hi hj]
  rfl

theorem clean_part (g h : Grid P) (hg : WF g) (R : Nat → Nat → Prop) (hp : Part g h R)
    (hfull : ∀ n m, n < g.numN → m < g.numM → valid (g.node n m) = true) (hr : RegionOk g.numN g.numM R) : clean h = .ok h :=
  clean_of_no_loose h (hp.shape.wf hg) (part_noLoose g h R hp hfull hr)

/-- A node of a rectangle with at least two rows and columns is a corner of a face in it. -/
theorem corner_in_rect (a b c d n m : Nat) (hab : a < b) (hcd : c < d) (hn : a ≤ n ∧ n ≤ b) (hm : c ≤ m ∧ m ≤ d) :
    ∃ i j, Corner n m i j ∧ (a ≤ i ∧ i + 1 ≤ b) ∧ (c ≤ j ∧ j + 1 ≤ d) := by
  refine ⟨if n = a then a else n - 1, if m = c then c else m - 1, ?_⟩
  unfold Corner
  split <;> split <;> omega

theorem regionOk_of_rects (N M : Nat) (R : Nat → Nat → Prop)
    (h : ∀ n m, n < N → m < M → R n m → ∃ a b c d, a < b ∧ c < d ∧ b < N ∧ d < M ∧ (a ≤ n ∧ n ≤ b) ∧ (c ≤ m ∧ m ≤ d) ∧
      ∀ x y, a ≤ x → x ≤ b → c ≤ y → y ≤ d → R x y) : RegionOk N M R := by
  intro n m hn hm hR
  obtain ⟨a, b, c, d, h1, h2, h3, h4, h5, h6, h7⟩ := h n m hn hm hR
  obtain ⟨i, j, hc, hi, hj⟩ := corner_in_rect a b c d n m h1 h2 h5 h6
  exact ⟨i, j, hc, by omega, by omega, h7 _ _ (by omega) (by omega) (by omega) (by omega),
    h7 _ _ (by omega) (by omega) (by omega) (by omega), h7 _ _ (by omega) (by omega) (by omega) (by omega),
    h7 _ _ (by omega) (by omega) (by omega) (by omega)⟩

/-- C19 for delete-exterior: on a grid without invalid nodes, for a block with an interior, undo restores the grid
unless exactly one grid line lies beyond the upper side of the block and the block does not reach both ends of it.
What is missing: that case (`undo_delete_exterior_loses_nodes`), blocks that are a line, and grids with
invalid nodes. -/
theorem undo_delete_exterior_partial (g : Grid P) (hg : WF g) (lo up : Nat × Nat) (h1 : lo.1 < up.1) (h2 : lo.2 < up.2)
    (h3 : up.1 < g.numN) (h4 : up.2 < g.numM)
    (hfull : ∀ n m, n < g.numN → m < g.numM → valid (g.node n m) = true)
    (hmargin : up.2 + 2 ≠ g.numM ∨ (lo.1 = 0 ∧ up.1 + 1 = g.numN)) :
    ∃ g' u, deleteExterior g lo up = .ok (g', u) ∧ (do let r ← u.restore g'; .ok r.2) = .ok g := by
  obtain ⟨g', e1, e2⟩ := deleteExterior_ok g lo up (by omega) (by omega) h3 h4
  refine ⟨g', _, e1, ?_⟩
  have p0 : Part g g' (fun n m => (lo.1 ≤ n ∧ n ≤ up.1) ∧ (lo.2 ≤ m ∧ m ≤ up.2)) :=
    ⟨e2.shape, fun n m hn hm hr => by rw [e2.visible n m hn hm, if_pos hr],
      fun n m hn hm hr => by rw [e2.visible n m hn hm, if_neg hr], e2.hidden⟩
  obtain ⟨b4, k4, s4, p4⟩ := swap_part g g' _ p0 0 (up.2 + 1) g.numN g.numM (by omega) (by omega) (by omega) (by omega)
  have c4 := clean_part g k4 hg _ p4 hfull (regionOk_of_rects _ _ _ (by
    rintro n m hn hm (hr | hr)
    · exact ⟨lo.1, up.1, lo.2, up.2, h1, h2, h3, h4, hr.1, hr.2, fun x y _ _ _ _ => by omega⟩
    · by_cases hc : up.2 + 2 = g.numM
      · have hc' := hmargin.resolve_left (by omega)
        exact ⟨0, g.numN - 1, lo.2, g.numM - 1, by omega, by omega, by omega, by omega, by omega, by omega, fun x y _ _ _ _ => by omega⟩
      · exact ⟨0, g.numN - 1, up.2 + 1, g.numM - 1, by omega, by omega, by omega, by omega, by omega, by omega, fun x y _ _ _ _ => by omega⟩))
  obtain ⟨b3, k3, s3, p3⟩ := swap_part g k4 _ p4 up.1 lo.2 g.numN (up.2 + 1) (by omega) (by omega) (by omega) (by omega)
  have c3 := clean_part g k3 hg _ p3 hfull (regionOk_of_rects _ _ _ (by
    rintro n m hn hm ((hr | hr) | hr)
    · exact ⟨lo.1, up.1, lo.2, up.2, h1, h2, h3, h4, hr.1, hr.2, fun x y _ _ _ _ => by omega⟩
    · by_cases hc : up.2 + 2 = g.numM
      · have hc' := hmargin.resolve_left (by omega)
        exact ⟨0, g.numN - 1, lo.2, g.numM - 1, by omega, by omega, by omega, by omega, by omega, by omega, fun x y _ _ _ _ => by omega⟩
      · exact ⟨0, g.numN - 1, up.2 + 1, g.numM - 1, by omega, by omega, by omega, by omega, by omega, by omega, fun x y _ _ _ _ => by omega⟩
    · exact ⟨lo.1, g.numN - 1, lo.2, up.2, by omega, by omega, by omega, by omega, by omega, by omega, fun x y _ _ _ _ => by omega⟩))
  obtain ⟨b2, k2, s2, p2⟩ := swap_part g k3 _ p3 0 lo.2 lo.1 (up.2 + 1) (by omega) (by omega) (by omega) (by omega)
  have c2 := clean_part g k2 hg _ p2 hfull (regionOk_of_rects _ _ _ (by
    rintro n m hn hm (((hr | hr) | hr) | hr)
    · exact ⟨lo.1, up.1, lo.2, up.2, h1, h2, h3, h4, hr.1, hr.2, fun x y _ _ _ _ => by omega⟩
    · exact ⟨0, g.numN - 1, lo.2, g.numM - 1, by omega, by omega, by omega, by omega, by omega, by omega, fun x y _ _ _ _ => by omega⟩
    · exact ⟨lo.1, g.numN - 1, lo.2, up.2, by omega, by omega, by omega, by omega, by omega, by omega, fun x y _ _ _ _ => by omega⟩
    · exact ⟨0, up.1, lo.2, up.2, by omega, by omega, by omega, by omega, by omega, by omega, fun x y _ _ _ _ => by omega⟩))
  obtain ⟨b1, k1, s1, p1⟩ := swap_part g k2 _ p2 0 0 g.numN lo.2 (by omega) (by omega) (by omega) (by omega)
  have c1 := clean_part g k1 hg _ p1 hfull (regionOk_of_rects _ _ _ (by
    intro n m hn hm _
    exact ⟨0, g.numN - 1, 0, g.numM - 1, by omega, by omega, by omega, by omega, by omega, by omega, fun x y _ _ _ _ => by omega⟩))
  have e : k1 = g := Grid.ext_node p1.shape (fun n m hn hm => p1.inside n m hn hm (by omega)) p1.hidden
  simp only [Act.restore, List.reverse_cons, List.reverse_nil, List.nil_append, List.cons_append]
  unfold swapAll swapAndClean
  rw [s4]; simp only [Res.ok_bind]
  rw [c4]; simp only [Res.ok_bind]
  unfold swapAll swapAndClean
  rw [s3]; simp only [Res.ok_bind]
  rw [c3]; simp only [Res.ok_bind]
  unfold swapAll swapAndClean
  rw [s2]; simp only [Res.ok_bind]
  rw [c2]; simp only [Res.ok_bind]
  unfold swapAll swapAndClean
  rw [s1]; simp only [Res.ok_bind]
  rw [c1, e]; rfl

/-! ## Witnesses: undo that loses nodes, and cases that meet the hypotheses -/

/-- The visible nodes, row by row. -/
def visible {α : Type} (g : Grid α) : List (List α) :=
  (List.range g.numN).map fun n => (List.range g.numM).map fun m => g.node n m

/-- A full grid of the given size. -/
def fullGrid (r c : Nat) : Grid (Option Nat) := ⟨r, c, fun i j => some (10 * i + j), 0, 0, 0, 0⟩

/-- C19 fails for deleting a node: a single cell loses its other three nodes and undo brings none of them back, in fact
the restored node is removed again. -/
theorem undo_delete_node_loses_nodes :
    ∃ g' u g'', deleteNode (fullGrid 2 2) 0 0 = .ok (g', some u) ∧ u.restore g' = .ok (u, g'') ∧
      visible (fullGrid 2 2) = [[some 0, some 1], [some 10, some 11]] ∧ visible g'' = [[none, none], [none, none]] := by
  refine ⟨_, _, _, rfl, rfl, by decide, by decide +kernel⟩

/-- C19 fails for delete-exterior: on a 4 by 4 grid, undo of deleting all but the middle cell loses two corners. -/
theorem undo_delete_exterior_loses_nodes :
    ∃ g' u u' g'', deleteExterior (fullGrid 4 4) (1, 1) (2, 2) = .ok (g', u) ∧ u.restore g' = .ok (u', g'') ∧
      g''.node 0 3 = none ∧ g''.node 3 3 = none ∧ (fullGrid 4 4).node 0 3 = some 3 ∧ (fullGrid 4 4).node 3 3 = some 33 := by
  refine ⟨_, _, _, _, rfl, rfl, by decide +kernel, by decide +kernel, by decide, by decide⟩

/-- C19 fails for delete-interior on a grid with a loose node: undo removes it. -/
theorem undo_delete_interior_loses_loose_nodes :
    ∃ g' u u' g'', deleteInterior looseGrid (0, 0) (2, 2) = .ok (g', u) ∧ u.restore g' = .ok (u', g'') ∧
      looseGrid.node 2 2 = some 32 ∧ g''.node 2 2 = none := by
  refine ⟨_, _, _, _, rfl, rfl, by decide, by decide +kernel⟩

example : WF (fullGrid 4 5) ∧ (fullGrid 4 5).numN = 4 ∧ (fullGrid 4 5).numM = 5 := ⟨⟨by decide, by decide⟩, by decide, by decide⟩

example : ∀ n m, n < (fullGrid 4 5).numN → m < (fullGrid 4 5).numM → valid ((fullGrid 4 5).node n m) = true := fun _ _ _ _ => rfl

/-- The hypotheses of `undo_delete_exterior_partial` hold here with a margin of two lines. -/
example : (2 : Nat) + 2 ≠ (fullGrid 4 5).numM := by decide

theorem fullGrid_noLoose : NoLoose (fullGrid 3 3) := by
  intro n m hn hm _
  have hn' : n < 3 := hn
  have hm' : m < 3 := hm
  obtain ⟨i, j, h1, h2, h3⟩ := corner_in_rect 0 2 0 2 n m (by omega) (by omega) (by omega) (by omega)
  exact ⟨i, j, show i + 1 < 3 by omega, show j + 1 < 3 by omega, rfl, h1⟩

end Verif.Curvi
