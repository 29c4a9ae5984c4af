import Verif.InsertFace.Lemmas
/-!
# C69: inserting a face adds one face beyond an edge, and undo takes it away again (C19)

An edge has the nodes `a` and `b` and, on the side away from `s`, a face with the further nodes `a'` and `b'`. On the side
`s` there is no face. Either the two nodes beyond the edge are in the grid but missing (inside), or the edge is on the
border of the grid.
-/
namespace Verif.InsertFace
open Verif.Curvi Verif.CurviLine

variable {K : Type} [Field K] [LinearOrder K]

theorem behind_eq {s : Side} {v w : Nat × Nat} (h : Beside s w v) : behind s v = w := by
  obtain ⟨v1, v2⟩ := v
  obtain ⟨w1, w2⟩ := w
  cases s <;> simp only [Beside, Prod.mk.injEq] at h <;> obtain ⟨rfl, rfl⟩ := h <;> simp [behind, before]

theorem ahead_eq {s : Side} {v w : Nat × Nat} (h : Beside s v w) : ahead false s v = w := by
  obtain ⟨v1, v2⟩ := v
  obtain ⟨w1, w2⟩ := w
  cases s <;> simp only [Beside, Prod.mk.injEq] at h <;> obtain ⟨rfl, rfl⟩ := h <;> simp [ahead, before]

theorem no_line {P : Type} [PointLike P] {s : Side} {g : Grid P} {a b c d : Nat × Nat} (ia : In g a) (ib : In g b)
    (hb : boundaryType g a b = .ok s) (va : valid (at' g a) = true) (vb : valid (at' g b) = true) (hc : Beside s a c)
    (hd : Beside s b d) (ic : In g c) (id : In g d) : addGridLine g a b = .ok (g, none) := by
  unfold addGridLine
  rw [getNode_ok ia.1 ia.2, getNode_ok ib.1 ib.2, hb]
  simp only [Res.ok_bind]
  unfold at' at va vb
  rw [va, vb]
  obtain ⟨an, am⟩ := a
  obtain ⟨bn, bm⟩ := b
  obtain ⟨cn, cm⟩ := c
  obtain ⟨dn, dm⟩ := d
  cases s <;> simp only [Beside, In, Prod.mk.injEq] at * <;> simp only [Bool.and_self, if_true] <;> rw [if_neg (by omega)]

/-- What inserting a face inside the grid needs. -/
structure CanInsert (g : Grid (Pt K)) (s : Side) (a b a' b' c d : Nat × Nat) : Prop where
  wf : WF g
  noLoose : NoLoose g
  rows : g.numN ≤ missing
  cols : g.numM ≤ missing
  face : HasFace s g a b a' b'
  besideA : Beside s a c
  besideB : Beside s b d
  inC : In g c
  inD : In g d
  missingC : valid (at' g c) = false
  missingD : valid (at' g d) = false
  validC : valid (image (at' g a) (at' g a')) = true
  validD : valid (image (at' g b) (at' g b')) = true

theorem inside_general {g : Grid (Pt K)} {s : Side} {a b a' b' c d : Nat × Nat} (h : CanInsert g s a b a' b' c d) :
    insertFace g a b = .ok ⟨setTwo g c d (image (at' g a) (at' g a')) (image (at' g b) (at' g b')),
      some (actTwo g none c d (image (at' g a) (at' g a')) (image (at' g b) (at' g b')))⟩ ∧
    NoLoose (setTwo g c d (image (at' g a) (at' g a')) (image (at' g b) (at' g b'))) := by
  have f := h.face
  have hb := types_inside f h.besideA h.besideB h.inC h.inD h.missingC h.missingD
  have hl := setTwo_noLoose h.noLoose f.edge f.inA f.inB h.besideA h.besideB h.inC h.inD f.validA f.validB h.validC h.validD
  exact ⟨insert_general h.wf h.noLoose hb f.inA f.inB f.inA' f.inB' (behind_eq f.besideA) (behind_eq f.besideB)
    (no_line f.inA f.inB hb f.validA f.validB h.besideA h.besideB h.inC h.inD) (ahead_eq h.besideA) (ahead_eq h.besideB)
    h.inC h.inD h.rows h.cols h.wf hl, hl⟩

/-- C69, inside the grid: the two missing nodes beyond the edge get the images of `a'` in `a` and of `b'` in `b`; every
other node stays. Not covered, see the negations: one of the two nodes exists already, or both do. -/
theorem insert_inside_partial (g : Grid (Pt K)) (s : Side) (a b a' b' c d : Nat × Nat) (h : CanInsert g s a b a' b' c d) :
    ∃ g' u, insertFace g a b = .ok ⟨g', some u⟩ ∧
      Edited g g' (fun n m => if (n, m) = c then image (at' g a) (at' g a')
        else if (n, m) = d then image (at' g b) (at' g b') else g.node n m) := by
  refine ⟨_, _, (inside_general h).1, setTwo_shape .., fun n m hn hm => ?_, fun i j hij => ?_⟩
  · rw [setTwo_node]
    by_cases c1 : (n, m) = c
    · have c2 : (n, m) ≠ d := by
        rintro rfl
        subst c1
        have e := h.face.edge
        have x := h.besideA
        have y := h.besideB
        revert e x y
        obtain ⟨an, am⟩ := a
        obtain ⟨bn, bm⟩ := b
        cases s <;> simp only [Edge, Beside, Prod.mk.injEq] <;> omega
      rw [if_neg c2, if_pos c1, if_pos c1]
    · by_cases c2 : (n, m) = d
      · rw [if_pos c2, if_neg c1, if_pos c2]
      · rw [if_neg c2, if_neg c1, if_neg c1, if_neg c2]
  · have o : ∀ (k : Grid (Pt K)) (v : Nat × Nat) (p : Pt K), SameShape g k → In g v → (setAt k v p).cell i j = k.cell i j := by
      intro k v p hk hv
      show upd k.cell (v.1 + k.sn) (v.2 + k.sm) p i j = _
      unfold upd
      rw [if_neg]
      rintro ⟨rfl, rfl⟩
      have h1 := hv.1
      have h2 := hv.2
      rw [hk.sn, hk.sm] at hij
      exact hij ⟨by omega, by omega, by omega, by omega⟩
    show (setAt (setAt g c _) d _).cell i j = _
    rw [o _ _ _ (setAt_shape ..) h.inD, o _ _ _ (SameShape.refl g) h.inC]

/-- C69, C19, inside the grid: undo gives back the grid, redo the new one. -/
theorem insert_inside_undo_redo_partial (g : Grid (Pt K)) (s : Side) (a b a' b' c d : Nat × Nat) (h : CanInsert g s a b a' b' c d) :
    ∃ g' u u' u'', insertFace g a b = .ok ⟨g', some u⟩ ∧ u.restore g' = .ok (u', g) ∧ u'.commit g = .ok (u'', g') :=
  ⟨_, _, _, _, (inside_general h).1, restore_two h.inC h.inD _ _, commit_two h.inC h.inD _ _ none⟩

/-! ## At the border -/

/-- What inserting a face at the border needs: the edge between the positions `i` and `i + 1` of the side. -/
structure CanExtend (g : Grid (Pt K)) (s : Side) (i : Nat) : Prop where
  wf : WF g
  noLoose : NoLoose g
  rows : g.numN < missing
  cols : g.numM < missing
  pos : i + 1 < s.width g
  fresh : s.Fresh g
  safe : s.Safe g
  validA : valid (s.node g 0 i) = true
  validB : valid (s.node g 0 (i + 1)) = true
  validC : valid (image (s.node g 0 i) (s.node g 1 i)) = true
  validD : valid (image (s.node g 0 (i + 1)) (s.node g 1 (i + 1))) = true

omit [LinearOrder K] in
theorem behind_place {g : Grid (Pt K)} {s : Side} (hg : WF g) (i : Nat) : behind s (s.place g 0 i) = s.place g 1 i := by
  have h1 := hg.two_le_numN
  have h2 := hg.two_le_numM
  have e : ∀ n, 2 ≤ n → before (n - 1 - 0) = n - 1 - 1 := by
    intro n hn
    unfold before
    rw [if_neg (by omega)]
    omega
  cases s
  case left => rfl
  case bottom => rfl
  case right => exact Prod.ext rfl (e _ h2)
  case top => exact Prod.ext (e _ h1) rfl

theorem ahead_place {g h : Grid (Pt K)} {s : Side} (hg : WF g) (ha : Added s g h) (i : Nat) :
    ahead true s (s.place g 0 i) = s.place h 0 i := by
  have h1 := hg.two_le_numN
  have h2 := hg.two_le_numM
  have h3 := ha.numN
  have h4 := ha.numM
  cases s <;> simp only [ahead, Side.place, Side.growN, Side.growM, if_true, Prod.mk.injEq, and_true, true_and] at * <;> omega

theorem border_general {g : Grid (Pt K)} {s : Side} {i : Nat} (h : CanExtend g s i) :
    insertFace g (s.place g 0 i) (s.place g 0 (i + 1)) =
      .ok ⟨setTwo (addLine s g) (s.place (addLine s g) 0 i) (s.place (addLine s g) 0 (i + 1))
          (image (s.node g 0 i) (s.node g 1 i)) (image (s.node g 0 (i + 1)) (s.node g 1 (i + 1))),
        some (actTwo (addLine s g) (some s) (s.place (addLine s g) 0 i) (s.place (addLine s g) 0 (i + 1))
          (image (s.node g 0 i) (s.node g 1 i)) (image (s.node g 0 (i + 1)) (s.node g 1 (i + 1))))⟩ := by
  have ha := added s g h.wf h.fresh
  have hd := added_depth ha
  have h0 := depth_two h.wf s
  have hp := h.pos
  have o : (⟨s.place g 0 i, s.place g 0 (i + 1)⟩ : Line).OnSide g s ∧ (⟨s.place g 0 i, s.place g 0 (i + 1)⟩ : Line).start = i ∧
      (⟨s.place g 0 i, s.place g 0 (i + 1)⟩ : Line).stop = i + 1 := by
    have e : (⟨s.place g 0 i, s.place g 0 (i + 1)⟩ : Line).start = i ∧ (⟨s.place g 0 i, s.place g 0 (i + 1)⟩ : Line).stop = i + 1 := by
      cases s <;> simp [Line.start, Line.stop, Line.alongN, Side.place]
    refine ⟨⟨?_, ?_, ?_, ?_⟩, e⟩
    · rw [e.1]
    · rw [e.2]
    · rw [e.1, e.2]; omega
    · rw [e.2]; exact hp
  have hb := boundaryType_ok h.wf h.noLoose o.1 h.fresh h.safe (by rw [o.2.1]; exact h.validA) (by rw [o.2.2]; exact h.validB)
  have hadd := addGridLine_ok h.wf o.1 hb (by rw [o.2.1]; exact h.validA) (by rw [o.2.2]; exact h.validB)
  have ia : In g (s.place g 0 i) := place_in (by omega) (by omega)
  have ib : In g (s.place g 0 (i + 1)) := place_in (by omega) (by omega)
  have ia' : In g (s.place g 1 i) := place_in (by omega) (by omega)
  have ib' : In g (s.place g 1 (i + 1)) := place_in (by omega) (by omega)
  have ic : In (addLine s g) (s.place (addLine s g) 0 i) := place_in (by omega) (by omega)
  have id : In (addLine s g) (s.place (addLine s g) 0 (i + 1)) := place_in (by omega) (by omega)
  have ja : In (addLine s g) (s.place (addLine s g) 1 i) := place_in (by omega) (by omega)
  have jb : In (addLine s g) (s.place (addLine s g) 1 (i + 1)) := place_in (by omega) (by omega)
  have va : at' (addLine s g) (s.place (addLine s g) 1 i) = s.node g 0 i := added_node ha (by omega) (by omega)
  have vb : at' (addLine s g) (s.place (addLine s g) 1 (i + 1)) = s.node g 0 (i + 1) := added_node ha (by omega) (by omega)
  have n1 := ha.numN
  have n2 := ha.numM
  have k1 := h.rows
  have k2 := h.cols
  have hl := setTwo_noLoose (s := s) (g := addLine s g) (a := s.place (addLine s g) 1 i) (b := s.place (addLine s g) 1 (i + 1))
    (c := s.place (addLine s g) 0 i) (d := s.place (addLine s g) 0 (i + 1)) (ha.noLoose h.noLoose)
    (by cases s <;> simp [Edge, Side.place])
    ja jb
    (by cases s <;> simp only [Beside, Side.place, Side.depth, Prod.mk.injEq, and_true, true_and, Nat.zero_add] at * <;> omega)
    (by cases s <;> simp only [Beside, Side.place, Side.depth, Prod.mk.injEq, and_true, true_and, Nat.zero_add] at * <;> omega)
    ic id (by rw [va]; exact h.validA) (by rw [vb]; exact h.validB) h.validC h.validD
  exact insert_general h.wf h.noLoose hb ia ib ia' ib' (behind_place h.wf i) (behind_place h.wf (i + 1)) hadd
    (ahead_place h.wf ha i) (ahead_place h.wf ha (i + 1)) ic id
    (by rw [n1]; cases s <;> simp only [Side.growN] <;> omega) (by rw [n2]; cases s <;> simp only [Side.growM] <;> omega) ha.wf hl

theorem newLine_of {g : Grid (Pt K)} {s : Side} {i : Nat} (hg : WF g) (ha : Added s g (addLine s g)) (hp : i + 1 < s.width g) (p q : Pt K) :
    NewLine g (setTwo (addLine s g) (s.place (addLine s g) 0 i) (s.place (addLine s g) 0 (i + 1)) p q) s i p q := by
  have hd := added_depth ha
  have h0 := depth_two hg s
  have sh := setTwo_shape (addLine s g) (s.place (addLine s g) 0 i) (s.place (addLine s g) 0 (i + 1)) p q
  refine ⟨?_, ?_, fun k j hk hj => ?_, fun j hj => ?_⟩
  · rw [← hd.1]; cases s <;> simp only [Side.depth, sh.numN, sh.numM]
  · rw [← hd.2]; cases s <;> simp only [Side.width, sh.numN, sh.numM]
  · rw [← added_node ha hk hj]
    unfold Side.node
    rw [place_congr sh, setTwo_node, if_neg, if_neg]
    · intro e
      have := (place_inj (by omega) (by omega) e).1
      omega
    · intro e
      have := (place_inj (by omega) (by omega) e).1
      omega
  · unfold Side.node
    rw [place_congr sh, setTwo_node]
    by_cases c1 : j = i
    · subst c1
      rw [if_neg, if_pos rfl, if_pos rfl]
      intro e
      have := (place_inj (by omega) (by omega) e).2
      omega
    · rw [if_neg c1]
      by_cases c2 : j = i + 1
      · subst c2
        rw [if_pos rfl, if_pos rfl]
      · rw [if_neg c2, if_neg, if_neg]
        · exact ha.outside j hj
        · intro e
          exact c1 (place_inj (by omega) (by omega) e).2
        · intro e
          exact c2 (place_inj (by omega) (by omega) e).2

/-- C69, at the border: the grid gets one line more with the images of the second nodes in the first ones at the ends of the
edge, and missing nodes elsewhere. Everything else stays. Not covered: lines hidden earlier at the side that are not missing
or lie at the opposite side only (see C59). -/
theorem insert_border_partial (g : Grid (Pt K)) (s : Side) (i : Nat) (h : CanExtend g s i) :
    ∃ g' u, insertFace g (s.place g 0 i) (s.place g 0 (i + 1)) = .ok ⟨g', some u⟩ ∧
      NewLine g g' s i (image (s.node g 0 i) (s.node g 1 i)) (image (s.node g 0 (i + 1)) (s.node g 1 (i + 1))) :=
  ⟨_, _, border_general h, newLine_of h.wf (added s g h.wf h.fresh) h.pos _ _⟩

theorem show_hidden {P : Type} [PointLike P] (s : Side) (g : Grid P) : showLine (CurviLine.hidden s g) s = clean g := by
  cases s <;> simp only [showLine, CurviLine.hidden, Nat.add_sub_cancel]

theorem redo_line {g h : Grid (Pt K)} {s : Side} {c d : Nat × Nat} (hs : showLine h s = .ok g) (hc : In g c) (hd : In g d) (p q : Pt K) :
    (actTwo g (some s) c d p q).commit h = .ok (actTwo g (some s) c d p q, setTwo g c d p q) := by
  unfold FaceAct.commit
  show (do let g' ← showLine h s; (actTwo g (some s) c d p q).commitNodes g') = _
  rw [hs, Res.ok_bind]
  exact commit_two hc hd p q (some s)

/-- C69, C19, at the border: undo takes the line away, the grid looks as before; redo gives the new grid again. -/
theorem insert_border_undo_redo_partial (g : Grid (Pt K)) (s : Side) (i : Nat) (h : CanExtend g s i) :
    ∃ g' u u' g'' u'', insertFace g (s.place g 0 i) (s.place g 0 (i + 1)) = .ok ⟨g', some u⟩ ∧
      u.restore g' = .ok (u', g'') ∧ SameVisible g g'' ∧ u'.commit g'' = .ok (u'', g') := by
  have ha := added s g h.wf h.fresh
  have hd := added_depth ha
  have h0 := depth_two h.wf s
  have hp := h.pos
  have ic : In (addLine s g) (s.place (addLine s g) 0 i) := place_in (by omega) (by omega)
  have id : In (addLine s g) (s.place (addLine s g) 0 (i + 1)) := place_in (by omega) (by omega)
  obtain ⟨w1, w2⟩ := hidden_visible h.wf ha (SameShape.refl _) ha.inside
  have hh : hideLine (addLine s g) s = .ok (CurviLine.hidden s (addLine s g)) := by
    rw [hideLine_eq]
    exact clean_of_no_loose _ w1 (w2.noLoose h.noLoose)
  exact ⟨_, _, _, _, _, border_general h, restore_two_line ic id _ _ s hh, w2,
    redo_line (by rw [show_hidden, clean_of_no_loose _ ha.wf (ha.noLoose h.noLoose)]) ic id _ _⟩

/-! ## What is refused -/

/-- A node with a face on each of its four sides. -/
def Inner {P : Type} [PointLike P] (g : Grid P) (v : Nat × Nat) : Prop :=
  0 < v.1 ∧ v.1 + 1 < g.numN ∧ 0 < v.2 ∧ v.2 + 1 < g.numM ∧
    ∀ n m, v.1 - 1 ≤ n → n ≤ v.1 + 1 → v.2 - 1 ≤ m → m ≤ v.2 + 1 → valid (g.node n m) = true

theorem inner_type {P : Type} [PointLike P] {g : Grid P} {v : Nat × Nat} (h : Inner g v) : nodeType g v.1 v.2 = .internal := by
  obtain ⟨h1, h2, h3, h4, h5⟩ := h
  rw [type_inner (by omega) (by omega) (by omega) (by omega) (h5 _ _ (by omega) (by omega) (by omega) (by omega))]
  have f : ∀ n m, v.1 - 1 ≤ n → n ≤ v.1 → v.2 - 1 ≤ m → m ≤ v.2 → faceOk g n m = true := by
    intro n m w1 w2 w3 w4
    have x1 := h5 n m (by omega) (by omega) (by omega) (by omega)
    have x2 := h5 (n + 1) m (by omega) (by omega) (by omega) (by omega)
    have x3 := h5 n (m + 1) (by omega) (by omega) (by omega) (by omega)
    have x4 := h5 (n + 1) (m + 1) (by omega) (by omega) (by omega) (by omega)
    unfold Grid.node at *
    simp only [faceOk, x1, x2, x3, x4, Bool.and_self]
  rw [f _ _ (by omega) (by omega) (by omega) (by omega), f _ _ (by omega) (by omega) (by omega) (by omega),
    f _ _ (by omega) (by omega) (by omega) (by omega), f _ _ (by omega) (by omega) (by omega) (by omega)]
  rfl

theorem line_kept {P : Type} [PointLike P] {g h : Grid P} {s : Side} {line : Option Side} {a b : Nat × Nat}
    (hb : boundaryType g a b = .ok s) (ha : addGridLine g a b = .ok (h, line)) (ia : In g a) (ib : In g b) (hg : WF g) :
    In h (ahead line.isSome s a) ∧ In h (ahead line.isSome s b) ∧ h.numN ≤ g.numN + 1 ∧ h.numM ≤ g.numM + 1 := by
  have va : valid (g.node a.1 a.2) = true := by
    by_contra c
    unfold boundaryType nodeType at hb
    unfold Grid.node at c
    simp [c] at hb
  have vb : valid (g.node b.1 b.2) = true := by
    by_contra c
    have t : nodeType g b.1 b.2 = .invalid := by
      unfold nodeType
      unfold Grid.node at c
      simp [c]
    unfold boundaryType at hb
    simp [t] at hb
  unfold addGridLine at ha
  rw [getNode_ok ia.1 ia.2, getNode_ok ib.1 ib.2, hb] at ha
  simp only [Res.ok_bind, va, vb, Bool.and_self, if_true] at ha
  have h1 := hg.n
  have h2 := hg.m
  have a1 := ia.1
  have a2 := ia.2
  have b1 := ib.1
  have b2 := ib.2
  have e : ∀ n, n ≠ 0 → before n = n - 1 := fun n hn => if_neg hn
  cases s <;> simp only at ha <;> split at ha <;> cases ha <;>
    simp only [Option.isSome, ahead, In, if_true, Bool.false_eq_true, if_false] <;>
    unfold Grid.numN Grid.numM at *
  all_goals
    first
    | (rw [e a.1 (by omega), e b.1 (by omega)]; omega)
    | (rw [e a.2 (by omega), e b.2 (by omega)]; omega)
    | (unfold addLeft; split <;> simp only <;> omega)
    | (unfold addRight; split <;> simp only <;> omega)
    | (unfold addBottom; split <;> simp only <;> omega)
    | (unfold addTop; split <;> simp only <;> omega)
    | omega

/-- Nothing can go wrong once the positions are known: `AddEdge` reports errors before it changes the grid. -/
theorem addEdge_fails_early {g : Grid (Pt K)} {a b : Nat × Nat} {s : Side} {p q : Pt K} (hg : WF g) (ia : In g a) (ib : In g b)
    (hN : g.numN < missing) (hM : g.numM < missing) (hb : boundaryType g a b = .ok s) (hp : newPosition g s a = .ok p)
    (hq : newPosition g s b = .ok q) : ∃ r, addEdge g a b = .ok r := by
  have hadd : ∃ r, addGridLine g a b = .ok r := by
    unfold addGridLine
    rw [getNode_ok ia.1 ia.2, getNode_ok ib.1 ib.2, hb]
    simp only [Res.ok_bind]
    split
    · cases s <;> exact ⟨_, rfl⟩
    · exact ⟨_, rfl⟩
  obtain ⟨⟨h, line⟩, hadd⟩ := hadd
  obtain ⟨k1, k2, k3, k4⟩ := line_kept hb hadd ia ib hg
  unfold addEdge
  rw [hb, Res.ok_bind, hp, Res.ok_bind, hq, Res.ok_bind, hadd, Res.ok_bind, move_at k1 (by omega) (by omega), Res.ok_bind]
  simp only
  rw [move_at (g := setAt h _ p) k2.setAt (show h.numN ≤ missing by omega) (show h.numM ≤ missing by omega)]
  exact ⟨_, rfl⟩

/-- If the side cannot be determined the call reports an error and leaves the grid alone. -/
theorem refused {g : Grid (Pt K)} {a b : Nat × Nat} (hg : WF g) (hl : NoLoose g) (hb : boundaryType g a b = .throw) :
    insertFace g a b = .ok ⟨g, none⟩ := by
  have hv : g.isValid = true := (isValid_iff g).2 ⟨by have := hg.two_le_numM; omega, by have := hg.two_le_numN; omega⟩
  unfold insertFace
  rw [hv]
  simp only [Bool.not_true, Bool.false_eq_true, if_false]
  rw [clean_of_no_loose g hg hl, Res.ok_bind]
  have e : addEdge g a b = .throw := by
    unfold addEdge
    rw [hb]
    rfl
  rw [e]

/-- C69: at an edge with an end inside the grid, surrounded by faces, the call reports an error and nothing changes. Not covered,
see the negations: an edge between two faces whose ends are both on the outline of the grid. -/
theorem insert_between_faces_refused_partial (g : Grid (Pt K)) (a b : Nat × Nat) (hg : WF g) (hl : NoLoose g) (h : Inner g a ∨ Inner g b) :
    insertFace g a b = .ok ⟨g, none⟩ := by
  refine refused hg hl ?_
  unfold boundaryType
  rcases h with h | h
  · simp [inner_type h]
  · simp [inner_type h]

/-- C69: at an edge with a missing end the call reports an error and nothing changes. -/
theorem insert_missing_refused (g : Grid (Pt K)) (a b : Nat × Nat) (hg : WF g) (hl : NoLoose g)
    (h : valid (at' g a) = false ∨ valid (at' g b) = false) : insertFace g a b = .ok ⟨g, none⟩ := by
  refine refused hg hl ?_
  have t : ∀ v, valid (at' g v) = false → nodeType g v.1 v.2 = .invalid := by
    intro v hv
    unfold at' Grid.node at hv
    unfold nodeType
    simp [hv]
  unfold boundaryType
  rcases h with h | h
  · simp [t _ h]
  · simp [t _ h]

end Verif.InsertFace
