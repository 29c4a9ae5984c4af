import Verif.CurviLine.MirrorLemmas
import Verif.CurviLine.AttractLemmas
import Mathlib.Algebra.Order.Field.Rat
/-!
# C59: mirroring a boundary line adds one line of mirrored nodes, and undo takes it away again (C19)
-/
namespace Verif.CurviLine
open Verif.Curvi

variable {K : Type} [Field K] [LinearOrder K]

theorem depth_two {P : Type} {g : Grid P} (hg : WF g) (s : Side) : 2 ≤ s.depth g := by
  have h6 := hg.two_le_numN
  have h7 := hg.two_le_numM
  cases s <;> assumption

/-- C59. The grid gets one line more at the side: beside the line the images of the second nodes in the first ones,
missing nodes elsewhere. Everything else stays. Not covered, see the negations below: a line that is not on a side of
the grid, lines hidden earlier at the side that are not missing or lie at the opposite side only, and at the left side a
line that starts beyond the number of columns. -/
theorem mirror_exact_partial (g : Grid (Pt K)) (l : Line) (s : Side) (f : K) (hf : 0 < f) (hc : CanMirror g l s) :
    ∃ g' u, mirror g [l] f = .ok (g', u) ∧ Mirrored g g' s l f := by
  obtain ⟨g', e1, e2⟩ := mirror_general hf hc
  have ha := added s g hc.wf hc.fresh
  obtain ⟨hd, hw⟩ := added_depth ha
  have h0 := depth_two hc.wf s
  have dep : s.depth g' = s.depth (addLine s g) := by cases s <;> simp only [Side.depth, e2.shape.numN, e2.shape.numM]
  have wid : s.width g' = s.width (addLine s g) := by cases s <;> simp only [Side.width, e2.shape.numN, e2.shape.numM]
  have nodes : ∀ k i, k < s.depth (addLine s g) → i < s.width (addLine s g) → s.node g' k i =
      if k = 0 ∧ l.start ≤ i ∧ i < l.stop + 1 then s.made (addLine s g) f i else s.node (addLine s g) k i := by
    intro k i hk hi
    have q := place_in (s := s) (g := addLine s g) hk hi
    unfold Side.node
    rw [place_congr e2.shape, e2.visible _ _ q.1 q.2, Side.filled, show ((s.place (addLine s g) k i).1, (s.place (addLine s g) k i).2) =
      s.place (addLine s g) k i from rfl, level_place hk, pos_place]
  refine ⟨g', _, e1, by omega, by omega, fun k i hk hi => ?_, fun i hi => ?_⟩
  · rw [nodes _ _ (by omega) (by omega), if_neg (by omega), added_node ha hk hi]
  · rw [nodes _ _ (by omega) (by omega)]
    by_cases c : l.start ≤ i ∧ i ≤ l.stop
    · rw [if_pos ⟨rfl, c.1, by omega⟩, if_pos c, made_eq ha f h0 hi]
    · rw [if_neg (by omega), if_neg c, ha.outside i hi]

omit [LinearOrder K] in
/-- The image of the second node lies on the line through both nodes, on the other side of the boundary node, `f` times
as far. -/
theorem image_between (s : Side) (g : Grid (Pt K)) (f : K) (i : Nat) :
    sub (s.image g f i) (s.node g 0 i) = scale (sub (s.node g 0 i) (s.node g 1 i)) f := by
  simp only [Side.image, sub, add, scale]
  congr 1 <;> ring

/-- The call of the library for two nodes of a side. -/
theorem api_mirror (g : Grid (Pt K)) (s : Side) (f : K) (hf : 0 < f) (a b : Nat × Nat) (hc : CanMirror g (lineOf a b) s)
    (hab : LineOk g a b) (hN : g.numN ≤ missing) (hM : g.numM ≤ missing) : apiMirror g f a b = mirror g [lineOf a b] f := by
  have hv : g.isValid = true := (isValid_iff g).2 ⟨by have := hc.wf.two_le_numM; omega, by have := hc.wf.two_le_numN; omega⟩
  unfold apiMirror
  rw [hv, if_neg (by decide), if_neg (not_le.2 hf), setLine_ok hN hM hab, Res.ok_bind]

/-- Two nodes of a side span a line on that side. -/
theorem lineOf_onSide {P : Type} (g : Grid P) (hg : WF g) (s : Side) (i j : Nat) (hi : i < s.width g) (hj : j < s.width g) (hij : i ≠ j) :
    LineOk g (s.place g 0 i) (s.place g 0 j) ∧ (lineOf (s.place g 0 i) (s.place g 0 j)).OnSide g s ∧
      (lineOf (s.place g 0 i) (s.place g 0 j)).start = min i j ∧ (lineOf (s.place g 0 i) (s.place g 0 j)).stop = max i j := by
  have h0 := depth_two hg s
  have st : (lineOf (s.place g 0 i) (s.place g 0 j)).start = min i j ∧ (lineOf (s.place g 0 i) (s.place g 0 j)).stop = max i j := by
    cases s <;> simp [lineOf, Line.start, Line.stop, Line.alongN, Side.place] <;> omega
  refine ⟨⟨place_in (by omega) hi, place_in (by omega) hj, fun e => hij (place_inj (by omega) (by omega) e).2, ?_⟩,
    ⟨?_, ?_, ?_, ?_⟩, st⟩
  · cases s <;> simp [Side.place]
  · rw [st.1]; cases s <;> simp [lineOf, Side.place]
  · rw [st.2]; cases s <;> simp [lineOf, Side.place]
  · rw [st.1, st.2]; omega
  · rw [st.2]; omega

/-! ## Undo and redo -/

theorem exists_ok {α β : Type} {x : Res (α × β)} {a : α} {b c : β} (h : x = .ok (a, b)) (e : b = c) : ∃ a, x = .ok (a, c) :=
  ⟨a, e ▸ h⟩

/-- The grid after the block has been put back, before the line is hidden. -/
theorem restore_inside {g h g' : Grid (Pt K)} {l : Line} {s : Side} {f : K} (hc : CanMirror g l s) (ha : Added s g h)
    (he : Edited h g' (s.filled h f l.start (l.stop + 1))) :
    ∃ b' e, swapBlock ⟨(mirrorBlock h l s).1.1, (mirrorBlock h l s).1.2, (mirrorBlock h l s).2.1, (mirrorBlock h l s).2.2,
        savedNodes h (mirrorBlock h l s).1.1 (mirrorBlock h l s).1.2 (mirrorBlock h l s).2.1 (mirrorBlock h l s).2.2⟩ g' = .ok (b', e) ∧
      SameShape h e ∧ Inside g e s.dn s.dm ∧
      (¬ (s = .left ∧ 0 < l.start) → e = h) ∧ (s = .left ∧ 0 < l.start → e = g') ∧
      ∃ b'', swapBlock b' e = .ok (b'', g') := by
  obtain ⟨b1, b2, b3, b4⟩ := block_in hc ha
  have hlow : ¬ (s = .left ∧ 0 < l.start) → ∀ n m, n < h.numN → m < h.numM →
      ¬ (((mirrorBlock h l s).1.1 ≤ n ∧ n < (mirrorBlock h l s).2.1) ∧ ((mirrorBlock h l s).1.2 ≤ m ∧ m < (mirrorBlock h l s).2.2)) →
      s.filled h f l.start (l.stop + 1) n m = h.node n m := by
    intro hs n m hn hm c
    unfold Side.filled
    rw [if_neg]
    rintro ⟨w1, w2, w3⟩
    apply c
    cases s <;> simp only [mirrorBlock, Side.level, Side.pos, true_and, reduceCtorEq, false_and, not_false_eq_true] at * <;> omega
  have hleft : s = .left ∧ 0 < l.start → ∀ n m,
      (((mirrorBlock h l s).1.1 ≤ n ∧ n < (mirrorBlock h l s).2.1) ∧ ((mirrorBlock h l s).1.2 ≤ m ∧ m < (mirrorBlock h l s).2.2)) →
      s.filled h f l.start (l.stop + 1) n m = h.node n m := by
    rintro ⟨rfl, hs⟩ n m c
    unfold Side.filled
    rw [if_neg]
    rintro ⟨w1, w2, w3⟩
    simp only [mirrorBlock, Side.level, Side.pos] at *
    omega
  generalize (mirrorBlock h l s).1.1 = bn at *
  generalize (mirrorBlock h l s).1.2 = bm at *
  generalize (mirrorBlock h l s).2.1 = tn at *
  generalize (mirrorBlock h l s).2.2 = tm at *
  have hnode : ∀ n m, n < h.numN → m < h.numM →
      (mapBlock g' bn tn bm tm (fun n m _ => (savedNodes h bn bm tn tm).cell (n - bn) (m - bm))).node n m =
        if (bn ≤ n ∧ n < tn) ∧ (bm ≤ m ∧ m < tm) then h.node n m else g'.node n m := by
    intro n m hn hm
    rw [mapBlock_node]
    by_cases c : (bn ≤ n ∧ n < tn) ∧ bm ≤ m ∧ m < tm
    · rw [if_pos c, if_pos c, savedNodes_node _ _ _ _ _ _ _ (by omega) (by omega), show n - bn + bn = n by omega, show m - bm + bm = m by omega]
    · rw [if_neg c, if_neg c]
  have hshape : SameShape h (mapBlock g' bn tn bm tm (fun n m _ => (savedNodes h bn bm tn tm).cell (n - bn) (m - bm))) :=
    he.shape.trans (mapBlock_shape ..)
  have hhid := mapBlock_hidden' h g' he.shape bn tn bm tm (fun n m _ => (savedNodes h bn bm tn tm).cell (n - bn) (m - bm)) b3 b4
  refine ⟨_, _, swapBlock_ok ⟨bn, bm, tn, tm, savedNodes h bn bm tn tm⟩ g' b1 b2 (by rw [he.shape.numN]; exact b3)
    (by rw [he.shape.numM]; exact b4) rfl rfl, hshape, ?_, ?_, ?_, ?_⟩
  · have hi := filled_inside ha he
    refine ⟨by rw [hshape.numN]; exact ha.inside.n, by rw [hshape.numM]; exact ha.inside.m, fun n m hn hm => ?_⟩
    have h1 := ha.inside.n
    have h2 := ha.inside.m
    rw [hnode _ _ (by omega) (by omega)]
    split
    · exact ha.inside.node n m hn hm
    · exact hi.node n m hn hm
  · intro hs
    refine Grid.ext_node hshape (fun n m hn hm => ?_) fun i j hij => ?_
    · rw [hnode n m hn hm]
      by_cases c : (bn ≤ n ∧ n < tn) ∧ bm ≤ m ∧ m < tm
      · rw [if_pos c]
      · rw [if_neg c, he.visible n m hn hm, hlow hs n m hn hm c]
    · rw [hhid i j hij, he.hidden i j hij]
  · intro hs
    refine Grid.ext_node (mapBlock_shape ..) (fun n m hn hm => ?_) fun i j hij => ?_
    · rw [he.shape.numN] at hn
      rw [he.shape.numM] at hm
      rw [hnode n m hn hm]
      by_cases c : (bn ≤ n ∧ n < tn) ∧ bm ≤ m ∧ m < tm
      · rw [if_pos c, he.visible n m hn hm, hleft hs n m c]
      · rw [if_neg c]
    · rw [hhid i j (by rw [he.shape.numN, he.shape.numM, he.shape.sn, he.shape.sm] at hij; exact hij)]
  · refine exists_ok (swapBlock_ok _ _ b1 b2 (by rw [hshape.numN]; exact b3) (by rw [hshape.numM]; exact b4) rfl rfl) ?_
    show mapBlock (mapBlock g' bn tn bm tm (fun n m _ => (savedNodes h bn bm tn tm).cell (n - bn) (m - bm))) bn tn bm tm
      (fun n m _ => (mapBlock (savedNodes h bn bm tn tm) 0 (tn - bn) 0 (tm - bm) (fun r c _ => g'.node (r + bn) (c + bm))).cell (n - bn) (m - bm)) = g'
    refine Grid.ext_node ((mapBlock_shape ..).trans (mapBlock_shape ..)) (fun n m hn hm => ?_) fun i j hij => ?_
    · rw [he.shape.numN] at hn
      rw [he.shape.numM] at hm
      rw [mapBlock_node]
      by_cases c : (bn ≤ n ∧ n < tn) ∧ bm ≤ m ∧ m < tm
      · rw [if_pos c]
        show (mapBlock (savedNodes h bn bm tn tm) 0 (tn - bn) 0 (tm - bm) (fun r c _ => g'.node (r + bn) (c + bm))).node (n - bn) (m - bm) = _
        rw [mapBlock_node, if_pos (by omega), show n - bn + bn = n by omega, show m - bm + bm = m by omega]
      · rw [if_neg c, hnode n m hn hm, if_neg c]
    · rw [he.shape.numN, he.shape.numM, he.shape.sn, he.shape.sm] at hij
      rw [mapBlock_hidden' h _ hshape _ _ _ _ _ b3 b4 i j hij, hhid i j hij]

/-- C59, C19: undo takes the line away again: the grid looks as before. -/
theorem mirror_undo_partial (g : Grid (Pt K)) (l : Line) (s : Side) (f : K) (hf : 0 < f) (hc : CanMirror g l s) :
    ∃ g' u u' g'', mirror g [l] f = .ok (g', u) ∧ u.restore g' = .ok (u', g'') ∧ SameVisible g g'' := by
  obtain ⟨g', e1, e2⟩ := mirror_general hf hc
  have ha := added s g hc.wf hc.fresh
  obtain ⟨b', e, s1, s2, s3, -⟩ := restore_inside hc ha e2
  obtain ⟨c, c1, c2⟩ := clean_exact e (s2.wf ha.wf)
  obtain ⟨w1, w2⟩ := hidden_visible hc.wf ha (s2.trans c2.shape) (s3.clean hc.noLoose c2)
  refine ⟨g', _, ⟨some s, b'⟩, hidden s c, e1, ?_, w2⟩
  unfold MirrorAct.restore swapAndClean
  simp only
  rw [s1]
  simp only [Res.ok_bind]
  rw [c1]
  simp only [Res.ok_bind]
  rw [hideLine_eq, clean_of_no_loose _ w1 (w2.noLoose hc.noLoose)]
  rfl

/-- C59: after undo the same side can be mirrored again, for any part of the side at which mirroring was possible before.
Not covered: the left side when the line did not start at the first row, see `mirror_left_undo_leaves_column`. -/
theorem mirror_undo_repeat_partial (g : Grid (Pt K)) (l : Line) (s : Side) (f : K) (hf : 0 < f) (hc : CanMirror g l s)
    (hs : s = .left → l.start = 0) :
    ∃ g' u u' g'', mirror g [l] f = .ok (g', u) ∧ u.restore g' = .ok (u', g'') ∧ SameVisible g g'' ∧
      ∀ l', CanMirror g l' s → CanMirror g'' l' s := by
  obtain ⟨g', e1, e2⟩ := mirror_general hf hc
  have ha := added s g hc.wf hc.fresh
  obtain ⟨b', e, s1, s2, s3, s4, -⟩ := restore_inside hc ha e2
  have eh : e = addLine s g := s4 fun c => by have := hs c.1; omega
  subst eh
  obtain ⟨w1, w2⟩ := hidden_visible hc.wf ha (SameShape.refl _) s3
  have hloose := w2.noLoose hc.noLoose
  refine ⟨g', _, ⟨some s, b'⟩, hidden s (addLine s g), e1, ?_, w2, fun l' hl' => ?_⟩
  · unfold MirrorAct.restore swapAndClean
    simp only
    rw [s1]
    simp only [Res.ok_bind]
    rw [clean_of_no_loose _ ha.wf (ha.noLoose hc.noLoose)]
    simp only [Res.ok_bind]
    rw [hideLine_eq, clean_of_no_loose _ w1 hloose]
    rfl
  · have hpl : ∀ k i, s.place (hidden s (addLine s g)) k i = s.place g k i := by
      intro k i; cases s <;> simp only [Side.place, w2.1, w2.2.1]
    have hwid : s.width (hidden s (addLine s g)) = s.width g := by
      cases s <;> simp only [Side.width, w2.1, w2.2.1]
    have hnode : ∀ i, i < s.width g → s.node (hidden s (addLine s g)) 0 i = s.node g 0 i := by
      intro i hi
      have q := place_in (s := s) (g := g) (k := 0) (i := i) (by have := depth_two hc.wf s; omega) hi
      unfold Side.node
      rw [hpl, w2.2.2 _ _ q.1 q.2]
    have o := hl'.onSide
    refine ⟨w1, hloose, ?_, ?_, ?_, ?_, ?_, ?_⟩
    · refine ⟨?_, ?_, o.2.2.1, ?_⟩
      · rw [hpl]; exact o.1
      · rw [hpl]; exact o.2.1
      · rw [hwid]; exact o.2.2.2
    · have out := ha.outside
      have n1 := ha.numN
      have n2 := ha.numM
      have b1 := hc.wf.n
      have b2 := hc.wf.m
      have c1 := ha.wf.n
      have c2 := ha.wf.m
      have v1 := w2.1
      have v2 := w2.2.1
      cases s
      all_goals
        simp only [Side.Fresh, Side.width, Side.node, Side.place, Grid.node, Side.growN, Side.growM] at *
        intro _ i hi
        simp only [v1, v2] at *
        have := out i hi
        simp only [hidden]
        rw [← this]
        congr 1
        first | rfl | omega
    · cases s <;> simp only [Side.Safe, hidden]
      · right; omega
      · right; omega
    · rw [hnode _ (by have := o.2.2; omega)]; exact hl'.first
    · rw [hnode _ (by have := o.2.2; omega)]; exact hl'.last
    · rw [w2.2.1]; exact hl'.block

/-- A square of valid nodes at the side is a face. -/
theorem square_inFace {P : Type} [PointLike P] {g : Grid P} {s : Side} {i : Nat} (hd : 2 ≤ s.depth g) (hi : i + 1 < s.width g)
    (h1 : valid (s.node g 0 i) = true) (h2 : valid (s.node g 0 (i + 1)) = true) (h3 : valid (s.node g 1 i) = true)
    (h4 : valid (s.node g 1 (i + 1)) = true) :
    InFace g (s.place g 0 i).1 (s.place g 0 i).2 ∧ InFace g (s.place g 0 (i + 1)).1 (s.place g 0 (i + 1)).2 := by
  cases s <;> simp only [Side.node, Side.place, Side.depth, Side.width] at *
  · have hf : faceValid g i 0 = true := by simp only [faceValid, h1, h2, h3, h4, Nat.zero_add, Bool.and_self]
    exact ⟨⟨i, 0, by omega, by omega, hf, .inl rfl, .inl rfl⟩, ⟨i, 0, by omega, by omega, hf, .inr rfl, .inl rfl⟩⟩
  · have e : g.numM - 1 - 0 = g.numM - 1 - 1 + 1 := by omega
    rw [e] at h1 h2 ⊢
    have hf : faceValid g i (g.numM - 1 - 1) = true := by simp only [faceValid, h1, h2, h3, h4, Bool.and_self]
    exact ⟨⟨i, _, by omega, by omega, hf, .inl rfl, .inr rfl⟩, ⟨i, _, by omega, by omega, hf, .inr rfl, .inr rfl⟩⟩
  · have hf : faceValid g 0 i = true := by simp only [faceValid, h1, h2, h3, h4, Nat.zero_add, Bool.and_self]
    exact ⟨⟨0, i, by omega, by omega, hf, .inl rfl, .inl rfl⟩, ⟨0, i, by omega, by omega, hf, .inl rfl, .inr rfl⟩⟩
  · have e : g.numN - 1 - 0 = g.numN - 1 - 1 + 1 := by omega
    rw [e] at h1 h2 ⊢
    have hf : faceValid g (g.numN - 1 - 1) i = true := by simp only [faceValid, h1, h2, h3, h4, Bool.and_self]
    exact ⟨⟨_, i, by omega, by omega, hf, .inr rfl, .inl rfl⟩, ⟨_, i, by omega, by omega, hf, .inr rfl, .inr rfl⟩⟩

/-- With valid nodes on the line and valid images no node of the new grid is loose. -/
theorem mirrored_noLoose {g h g' : Grid (Pt K)} {l : Line} {s : Side} {f : K} (hc : CanMirror g l s) (ha : Added s g h)
    (he : Edited h g' (s.filled h f l.start (l.stop + 1)))
    (hv : ∀ i, l.start ≤ i → i ≤ l.stop → valid (s.node g 0 i) = true ∧ valid (s.image g f i) = true) : NoLoose g' := by
  have hd := added_depth ha
  have h0 := depth_two hc.wf s
  have hlt := hc.onSide.2.2.1
  have hle := hc.onSide.2.2.2
  have dep : s.depth g' = s.depth h := by cases s <;> simp only [Side.depth, he.shape.numN, he.shape.numM]
  have wid : s.width g' = s.width h := by cases s <;> simp only [Side.width, he.shape.numN, he.shape.numM]
  have at0 : ∀ i, l.start ≤ i → i ≤ l.stop → s.node g' 0 i = s.image g f i := by
    intro i h1 h2
    have q := place_in (s := s) (g := h) (k := 0) (i := i) (by omega) (by omega)
    unfold Side.node
    rw [place_congr he.shape, he.visible _ _ q.1 q.2, Side.filled, if_pos, show ((s.place h 0 i).1, (s.place h 0 i).2) =
      s.place h 0 i from rfl, pos_place, made_eq ha f h0 (by omega)]
    rw [show ((s.place h 0 i).1, (s.place h 0 i).2) = s.place h 0 i from rfl, level_place (by omega), pos_place]
    exact ⟨rfl, h1, by omega⟩
  have at1 : ∀ i, i < s.width g → s.node g' 1 i = s.node g 0 i := by
    intro i hi
    have q := place_in (s := s) (g := h) (k := 1) (i := i) (by omega) (by omega)
    rw [← added_node ha (k := 0) (by omega) hi]
    unfold Side.node
    rw [place_congr he.shape, he.visible _ _ q.1 q.2, Side.filled, if_neg]
    rintro ⟨w, -⟩
    rw [show ((s.place h (0 + 1) i).1, (s.place h (0 + 1) i).2) = s.place h (0 + 1) i from rfl, level_place (by omega)] at w
    omega
  have square : ∀ i, l.start ≤ i → i + 1 ≤ l.stop →
      InFace g' (s.place g' 0 i).1 (s.place g' 0 i).2 ∧ InFace g' (s.place g' 0 (i + 1)).1 (s.place g' 0 (i + 1)).2 := by
    intro i h1 h2
    refine square_inFace (by omega) (by omega) ?_ ?_ ?_ ?_
    · rw [at0 i h1 (by omega)]; exact (hv i h1 (by omega)).2
    · rw [at0 _ (by omega) h2]; exact (hv _ (by omega) h2).2
    · rw [at1 i (by omega)]; exact (hv i h1 (by omega)).1
    · rw [at1 _ (by omega)]; exact (hv _ (by omega) h2).1
  intro n m hn hm hval
  rw [he.shape.numN] at hn
  rw [he.shape.numM] at hm
  rcases ha.cases hn hm with ⟨i, hi, e⟩ | ⟨n', m', h1, h2, rfl, rfl⟩
  · have e' : s.place g' 0 i = (n, m) := by rw [place_congr he.shape, e]
    by_cases c : l.start ≤ i ∧ i ≤ l.stop
    · by_cases c' : i + 1 ≤ l.stop
      · have := (square i c.1 c').1
        rw [e'] at this
        exact this
      · have := (square (i - 1) (by omega) (by omega)).2
        rw [show i - 1 + 1 = i by omega, e'] at this
        exact this
    · exfalso
      rw [he.visible n m hn hm, Side.filled, e, level_place (by omega), pos_place, if_neg (by omega)] at hval
      have o := ha.outside i hi
      unfold Side.node at o
      rw [← e] at o
      rw [o, PointLike.valid_inv] at hval
      cases hval
  · have hi := filled_inside ha he
    refine hi.inFace (hc.noLoose n' m' h1 h2 ?_)
    rw [← hi.node n' m' h1 h2]
    exact hval

/-- C59, C19: redo after undo gives the mirrored grid again, when the nodes of the line and the new nodes are valid. -/
theorem mirror_redo_partial (g : Grid (Pt K)) (l : Line) (s : Side) (f : K) (hf : 0 < f) (hc : CanMirror g l s)
    (hv : ∀ i, l.start ≤ i → i ≤ l.stop → valid (s.node g 0 i) = true ∧ valid (s.image g f i) = true) :
    ∃ g' u u' g'' u'', mirror g [l] f = .ok (g', u) ∧ u.restore g' = .ok (u', g'') ∧ u'.commit g'' = .ok (u'', g') := by
  obtain ⟨g', e1, e2⟩ := mirror_general hf hc
  have ha := added s g hc.wf hc.fresh
  have hl' := mirrored_noLoose hc ha e2 hv
  have hl := ha.noLoose hc.noLoose
  obtain ⟨b', e, s1, s2, s3, s4, s5, b'', s6⟩ := restore_inside hc ha e2
  have hle : NoLoose e := by
    by_cases c : s = .left ∧ 0 < l.start
    · rw [s5 c]; exact hl'
    · rw [s4 c]; exact hl
  obtain ⟨w1, w2⟩ := hidden_visible hc.wf ha s2 s3
  have hcl := clean_of_no_loose e (s2.wf ha.wf) hle
  refine ⟨g', _, ⟨some s, b'⟩, hidden s e, ⟨some s, b''⟩, e1, ?_, ?_⟩
  · unfold MirrorAct.restore swapAndClean
    simp only
    rw [s1]
    simp only [Res.ok_bind]
    rw [hcl]
    simp only [Res.ok_bind]
    rw [hideLine_eq, clean_of_no_loose _ w1 (w2.noLoose hc.noLoose)]
    rfl
  · have show_ : showLine (hidden s e) s = clean e := by cases s <;> rfl
    unfold MirrorAct.commit swapAndClean
    simp only
    rw [show_, hcl, Res.ok_bind, s6]
    simp only [Res.ok_bind]
    rw [clean_of_no_loose _ (e2.shape.wf ha.wf) hl']
    rfl

/-! ## Where it fails -/

/-- C59 fails for missing nodes on the line: from a missing boundary node (both coordinates -999) and a valid node behind
it a valid new node is computed. -/
theorem mirror_invents_node (g : Grid (Pt K)) (l : Line) (s : Side) (f : K) (hf : 0 < f) (hc : CanMirror g l s) (i : Nat)
    (h1 : l.start ≤ i) (h2 : i ≤ l.stop) (h3 : s.node g 0 i = inv) (h4 : valid (s.node g 1 i) = true) :
    ∃ g' u, mirror g [l] f = .ok (g', u) ∧ valid (s.node g' 0 i) = true := by
  obtain ⟨g', u, e1, e2⟩ := mirror_exact_partial g l s f hf hc
  refine ⟨g', u, e1, ?_⟩
  rw [e2.new i (by have := hc.onSide.2.2.2; omega), if_pos ⟨h1, h2⟩]
  unfold Side.image
  rw [h3]
  generalize s.node g 1 i = q at h4
  have h4' : (decide (q.x ≠ -999) && decide (q.y ≠ -999)) = true := h4
  simp only [Bool.and_eq_true, decide_eq_true_eq] at h4'
  have ne : ∀ x : K, x ≠ -999 → -999 + (-999 - x) * f ≠ -999 := by
    intro x hx c
    have : (-999 - x) * f = 0 := by linear_combination c
    rcases mul_eq_zero.1 this with h | h
    · exact hx (by linear_combination -h)
    · exact hf.ne' h
  show (decide (-999 + (-999 - q.x) * f ≠ -999) && decide (-999 + (-999 - q.y) * f ≠ -999)) = true
  rw [decide_eq_true (ne q.x h4'.1), decide_eq_true (ne q.y h4'.2)]
  rfl

/-- C59 fails at the left side for a line that starts beyond the number of columns: the block that is saved is one
column of the grid at the number of the first *row* (`CurvilinearGridLineMirror.cpp:93-96`), so the call fails, after the
line has been added to the grid (`CurvilinearGrid.cpp:771-789` works in place, `CurvilinearGridLineMirror.cpp:69`); no
undo action is left for it. -/
theorem mirror_left_fails (g : Grid (Pt K)) (l : Line) (f : K) (hf : 0 < f) (hg : WF g) (hl : NoLoose g) (hh : NoHidden g)
    (ho : l.OnSide g .left) (h1 : valid (Side.left.node g 0 l.start) = true) (h2 : valid (Side.left.node g 0 l.stop) = true)
    (hs : g.numM < l.start) :
    mirror g [l] f = .throw ∧ ∃ h, addGridLine g l.first l.last = .ok (h, some .left) ∧ h.numM = g.numM + 1 := by
  obtain ⟨z1, z2, z3, z4⟩ := hh
  have fr : Side.left.Fresh g := fun h => by omega
  have hb := boundaryType_ok hg hl ho fr trivial h1 h2
  have ha := added .left g hg fr
  have e := addGridLine_ok hg ho hb h1 h2
  have hv : g.isValid = true := (isValid_iff g).2 ⟨by have := hg.two_le_numM; omega, by have := hg.two_le_numN; omega⟩
  refine ⟨?_, _, e, ha.numM⟩
  unfold mirror
  rw [if_neg (not_le.2 hf)]
  simp only [hv, Bool.not_true, Bool.false_eq_true, if_false]
  rw [clean_of_no_loose g hg hl, Res.ok_bind, hb, Res.ok_bind, e, Res.ok_bind, clean_of_no_loose _ ha.wf (ha.noLoose hl), Res.ok_bind]
  have c : (addLine .left g).cols = g.numM + 1 ∧ 0 < (addLine .left g).rows := by
    have := hg.n
    unfold addLine addLeft Grid.numM
    simp only [if_pos z2]
    omega
  have hr : getNode (addLine .left g) (0 + 0) (0 + l.start) = .throw := by
    unfold getNode
    rw [if_neg (by omega), if_pos (by omega)]
  have hsave : saveBlock (addLine .left g) 0 l.start (l.stop + 1) (l.start + 1) = .throw := by
    unfold saveBlock
    rw [if_pos (by omega), show l.stop + 1 - 0 = l.stop + 1 by omega, show l.start + 1 - l.start = 1 by omega]
    unfold forRange
    simp only [Nat.sub_zero, loopN, copyNode, hr]
    rfl
  show (do
    let b ← saveBlock (addLine .left g) 0 l.start (l.stop + 1) (l.start + 1)
    let g3 ← forRange l.start (l.stop + 1) (mirrorNode f .left) (addLine .left g)
    Res.ok (g3, (⟨some .left, b⟩ : MirrorAct (Pt K)))) = Res.throw
  rw [hsave]
  rfl

/-- C59 fails for a line inside the grid: a row of the interior from end to end is accepted as a boundary line
(`CurvilinearGrid.cpp:824-840`), no line is added and the nodes of the first row are overwritten. -/
theorem mirror_overwrites_first_row (g : Grid (Pt K)) (f : K) (hf : 0 < f) (hg : WF g)
    (hv : ∀ n m, n < g.numN → m < g.numM → valid (g.node n m) = true) (k : Nat) (hk : 0 < k) (hk' : k + 1 < g.numN) :
    ∃ g' u, mirror g [⟨(k, 0), (k, g.numM - 1)⟩] f = .ok (g', u) ∧ g'.numN = g.numN ∧ g'.numM = g.numM ∧
      (∀ m, m < g.numM → g'.node 0 m = add (g.node 1 m) (scale (sub (g.node 1 m) (g.node 2 m)) f)) ∧
      ∀ n m, 0 < n → n < g.numN → m < g.numM → g'.node n m = g.node n m := by
  have h1 := hg.two_le_numN
  have h2 := hg.two_le_numM
  have h3 := hg.n
  have hl := noLoose_of_all_valid hg hv
  have raw : ∀ n m, n < g.numN → m < g.numM → valid (g.cell (n + g.sn) (m + g.sm)) = true := hv
  have t1 : nodeType g k 0 = .bottom := by
    have a := raw k 0 (by omega) (by omega)
    have b := raw (k - 1) 0 (by omega) (by omega)
    have c := raw (k + 1) 0 (by omega) (by omega)
    have d : k ≠ 0 := by omega
    have e : k ≠ g.numN - 1 := by omega
    simp only [nodeType, a, b, c, d, e, if_true, if_false, Bool.not_true, Bool.false_eq_true]
  have t2 : nodeType g k (g.numM - 1) = .up := by
    have a := raw k (g.numM - 1) (by omega) (by omega)
    have b := raw (k - 1) (g.numM - 1) (by omega) (by omega)
    have c := raw (k + 1) (g.numM - 1) (by omega) (by omega)
    have d : k ≠ 0 := by omega
    have e : k ≠ g.numN - 1 := by omega
    have z : g.numM - 1 ≠ 0 := by omega
    simp only [nodeType, a, b, c, d, e, z, if_true, if_false, Bool.not_true, Bool.false_eq_true]
  have hb : boundaryType g (k, 0) (k, g.numM - 1) = .ok .bottom := by
    have r1 : getNode g (k + 1) 0 = .ok (g.node (k + 1) 0) := getNode_ok (by omega) (by omega)
    have r2 : getNode g (k + 1) (g.numM - 1) = .ok (g.node (k + 1) (g.numM - 1)) := getNode_ok (by omega) (by omega)
    have v1 := hv (k + 1) 0 (by omega) (by omega)
    have v2 := hv (k + 1) (g.numM - 1) (by omega) (by omega)
    have z : ¬ 0 = g.numM - 1 := by omega
    have c : k + 1 < g.rows := by unfold Grid.numN at hk'; omega
    simp only [boundaryType, t1, t2, r1, r2, v1, v2, z, c, Res.ok_bind, if_true, if_false, reduceCtorEq, or_self, and_self,
      and_false, false_and, Bool.not_true, Bool.false_eq_true]
  have ha : addGridLine g (k, 0) (k, g.numM - 1) = .ok (g, none) := by
    unfold addGridLine
    rw [getNode_ok (by omega) (by omega), getNode_ok (by omega) (by omega), hb]
    simp only [Res.ok_bind]
    have z : ¬ (k = 0 ∨ k = 0) := by omega
    rw [hv k 0 (by omega) (by omega), hv k (g.numM - 1) (by omega) (by omega)]
    simp only [Bool.and_self, if_true, if_neg z]
  have ns : (⟨(k, 0), (k, g.numM - 1)⟩ : Line).start = 0 ∧ (⟨(k, 0), (k, g.numM - 1)⟩ : Line).stop = g.numM - 1 := by
    have : ¬ (0 = g.numM - 1) := by omega
    simp only [Line.start, Line.stop, Line.alongN, this, decide_false, Bool.false_eq_true, if_false, and_self]
  obtain ⟨g', e1, e2⟩ := mirrorLoop_ok .bottom g f (a := 0) (b := g.numM - 1 + 1) (by omega) (show 3 ≤ g.numN by omega)
    (show g.numM - 1 + 1 ≤ g.numM by omega)
  have hval : g.isValid = true := (isValid_iff g).2 ⟨by omega, by omega⟩
  refine ⟨g', ⟨none, ⟨0, 0, 1, g.numM - 1 + 1, savedNodes g 0 0 1 (g.numM - 1 + 1)⟩⟩, ?_, e2.shape.numN, e2.shape.numM, fun m hm => ?_,
    fun n m hn hn' hm => ?_⟩
  · unfold mirror
    rw [if_neg (not_le.2 hf)]
    simp only [hval, Bool.not_true, Bool.false_eq_true, if_false]
    rw [clean_of_no_loose g hg hl, Res.ok_bind, hb, Res.ok_bind, ha, Res.ok_bind]
    simp only [mirrorBlock, ns.1, ns.2]
    rw [clean_of_no_loose g hg hl, Res.ok_bind, saveBlock_ok _ _ _ _ _ (by omega) (by omega) (by omega) (by omega), Res.ok_bind, e1,
      Res.ok_bind]
  · rw [e2.visible 0 m (by omega) hm, Side.filled, if_pos ⟨rfl, Nat.zero_le _, show m < g.numM - 1 + 1 by omega⟩]
    simp only [Side.made, Side.node, Side.place, Side.pos, add, scale, sub]
    congr 1 <;> ring
  · rw [e2.visible n m hn' hm, Side.filled, if_neg]
    rintro ⟨w, -⟩
    simp only [Side.level] at w
    omega

/-- C59 fails after an undo at the opposite side: with a row hidden at the bottom, mirroring the top line from its first
node on reads outside the node matrix (`CurvilinearGrid.cpp:833-836`: the test takes the number of rows of the matrix, the
access adds the offset). -/
theorem mirror_reads_outside (g : Grid (Pt K)) (l : Line) (f : K) (hf : 0 < f) (hg : WF g) (hl : NoLoose g) (ho : l.OnSide g .top)
    (h1 : valid (Side.top.node g 0 l.start) = true) (h2 : valid (Side.top.node g 0 l.stop) = true)
    (hs : l.start = 0) (h3 : 0 < g.sn) (h4 : g.en = 0) : mirror g [l] f = .ub := by
  have a := hg.two_le_numN
  have b := hg.two_le_numM
  have c := hg.n
  have hv : g.isValid = true := (isValid_iff g).2 ⟨by omega, by omega⟩
  obtain ⟨e1, e2, hlt, hw⟩ := ho
  unfold mirror
  rw [if_neg (not_le.2 hf)]
  simp only [hv, Bool.not_true, Bool.false_eq_true, if_false]
  rw [clean_of_no_loose g hg hl, Res.ok_bind, e1, e2]
  simp only [Side.place, Side.node, Nat.sub_zero] at *
  rw [hs] at h1 hlt ⊢
  have t1 : nodeType g (g.numN - 1) 0 = .bottomRight := by
    have raw : valid (g.cell (g.numN - 1 + g.sn) (0 + g.sm)) = true := h1
    have z : g.numN - 1 ≠ 0 := by omega
    simp only [nodeType, raw, z, if_true, if_false, Bool.not_true, Bool.false_eq_true]
  have hr : getNode g (g.numN - 1 + 1) 0 = .ub := by
    unfold getNode
    rw [if_neg (by unfold Grid.numN; omega), if_neg (by have := hg.m; omega), if_neg (by unfold Grid.numN; omega)]
  have hb : boundaryType g (g.numN - 1, 0) (g.numN - 1, l.stop) = .ub := by
    have z : ¬ 0 = l.stop := by omega
    have y : g.numN - 1 + 1 < g.rows := by unfold Grid.numN; omega
    rcases top_type hg h2 with t2 | t2 | t2 <;>
      simp only [boundaryType, t1, t2, hr, z, y, if_true, if_false, reduceCtorEq, or_self, and_self, false_and] <;> rfl
  rw [hb]
  rfl

/-! ## Examples -/

/-- Five rows of three nodes. -/
def tallGrid : Grid (Pt ℚ) := ⟨5, 3, fun i j => ⟨j, i⟩, 0, 0, 0, 0⟩

theorem tall_valid (n m : Nat) (_ : n < tallGrid.numN) (_ : m < tallGrid.numM) : valid (tallGrid.node n m) = true := by
  show (decide (((m + 0 : Nat) : ℚ) ≠ -999) && decide (((n + 0 : Nat) : ℚ) ≠ -999)) = true
  have h : ∀ k : Nat, ((k + 0 : Nat) : ℚ) ≠ -999 := fun k => by
    have : (0 : ℚ) ≤ ((k + 0 : Nat) : ℚ) := Nat.cast_nonneg _
    intro c
    rw [c] at this
    exact absurd this (by norm_num)
  rw [decide_eq_true (h m), decide_eq_true (h n)]
  rfl

theorem tall_wf : WF tallGrid := ⟨by decide, by decide⟩

theorem tall_left : CanMirror tallGrid ⟨(2, 0), (4, 0)⟩ .left :=
  ⟨tall_wf, noLoose_of_all_valid tall_wf tall_valid, ⟨rfl, rfl, by decide, by decide⟩, fun h => absurd h (by decide), trivial,
    tall_valid _ _ (by decide) (by decide), tall_valid _ _ (by decide) (by decide), fun _ => by decide⟩

theorem tall_top : CanMirror tallGrid ⟨(4, 0), (4, 1)⟩ .top :=
  ⟨tall_wf, noLoose_of_all_valid tall_wf tall_valid, ⟨rfl, rfl, by decide, by decide⟩, fun h => absurd h (by decide), .inl rfl,
    tall_valid _ _ (by decide) (by decide), tall_valid _ _ (by decide) (by decide), fun h => by cases h⟩

/-- C59 fails at the left side after an undo: the block saved there is not the one that was changed
(`CurvilinearGridLineMirror.cpp:93-96`), so the mirrored column is only hidden, and mirroring another part of the side
shows it again. Two grids that look the same give different results. -/
theorem mirror_left_undo_leaves_column :
    ∃ (g' : Grid (Pt ℚ)) (u u' : MirrorAct (Pt ℚ)) (g'' h h' : Grid (Pt ℚ)) (v v' : MirrorAct (Pt ℚ)),
      mirror tallGrid [⟨(2, 0), (4, 0)⟩] 1 = .ok (g', u) ∧ u.restore g' = .ok (u', g'') ∧ SameVisible tallGrid g'' ∧
        mirror tallGrid [⟨(0, 0), (1, 0)⟩] 1 = .ok (h, v) ∧ mirror g'' [⟨(0, 0), (1, 0)⟩] 1 = .ok (h', v') ∧
        h.node 3 0 = inv ∧ h'.node 3 0 = ⟨-1, 3⟩ := by
  have key : (do
      let r ← mirror tallGrid [⟨(2, 0), (4, 0)⟩] 1
      let q ← r.2.restore r.1
      let t ← mirror tallGrid [⟨(0, 0), (1, 0)⟩] 1
      let w ← mirror q.2 [⟨(0, 0), (1, 0)⟩] 1
      Res.ok (t.1.node 3 0, w.1.node 3 0)) = .ok ((inv : Pt ℚ), ⟨-1, 3⟩) := by decide +kernel
  obtain ⟨r, e1, k1⟩ := Res.bind_eq_ok.1 key
  obtain ⟨q, e2, k2⟩ := Res.bind_eq_ok.1 k1
  obtain ⟨t, e3, k3⟩ := Res.bind_eq_ok.1 k2
  obtain ⟨w, e4, k4⟩ := Res.bind_eq_ok.1 k3
  obtain ⟨g', u, u', g'', m1, m2, m3⟩ := mirror_undo_partial tallGrid _ .left 1 one_pos tall_left
  rw [m1] at e1
  cases e1
  rw [m2] at e2
  cases e2
  have k5 := Res.ok.inj k4
  exact ⟨g', u, u', g'', t.1, w.1, t.2, w.2, m1, m2, m3, e3, e4, congrArg Prod.fst k5, congrArg Prod.snd k5⟩

end Verif.CurviLine
