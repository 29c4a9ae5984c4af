import Verif.Snap.Lemmas
/-!
# Lemmas about snapping: control nodes, the loop over the line, nearest points
-/
namespace Verif.Snap
open Verif.Curvi Verif.CurviLine
variable {K : Type} [Field K] [LinearOrder K]

/-! ## Control nodes -/

/-- What `Initialise` finds for control nodes. -/
structure ZoneFor (a b : Nat × Nat) (rest : List (Nat × Nat)) (z : Zone) : Prop where
  first : z.first = (min a.1 b.1, min a.2 b.2)
  last : z.last = (max a.1 b.1, max a.2 b.2)
  ind : z.ind = (min 1 (max a.2 b.2 - min a.2 b.2), min 1 (max a.1 b.1 - min a.1 b.1))
  user : z.user = !rest.isEmpty
  lo : rest ≠ [] → z.lo = (around a (b :: rest)).1
  up : rest ≠ [] → z.up = (around a (b :: rest)).2

omit [Field K] [LinearOrder K] in
theorem blockFromCorners_ok {g : Grid (Pt K)} (hN : g.numN ≤ missing) (hM : g.numM ≤ missing) {a b : Nat × Nat} (ha : In g a) (hb : In g b) :
    blockFromCorners g a b = .ok ((min a.1 b.1, min a.2 b.2), (max a.1 b.1, max a.2 b.2)) := by
  unfold In at ha hb
  unfold blockFromCorners
  simp only
  rw [if_neg (by omega), if_neg (by omega), if_neg (by omega)]

omit [Field K] [LinearOrder K] in
theorem initialise_ok {g : Grid (Pt K)} (hN : g.numN ≤ missing) (hM : g.numM ≤ missing) {a b : Nat × Nat} {rest : List (Nat × Nat)}
    (hr : rest.length ≤ 2) (hin : ∀ v ∈ a :: b :: rest, In g v) : ∃ z, initialise g (a :: b :: rest) = .ok z ∧ ZoneFor a b rest z := by
  have ha := hin a (by simp)
  have hb := hin b (by simp)
  match rest, hr, hin with
  | [], _, _ =>
    simp only [initialise]
    rw [blockFromCorners_ok hN hM ha hb, Res.ok_bind]
    exact ⟨_, rfl, rfl, rfl, rfl, rfl, fun c => absurd rfl c, fun c => absurd rfl c⟩
  | [c], _, _ =>
    simp only [initialise]
    rw [blockFromCorners_ok hN hM ha hb, Res.ok_bind]
    refine ⟨_, rfl, rfl, rfl, rfl, rfl, fun _ => ?_, fun _ => ?_⟩
    · simp only [around]
      exact Prod.ext (by simp only; omega) (by simp only; omega)
    · simp only [around]
      exact Prod.ext (by simp only; omega) (by simp only; omega)
  | [c, d], _, hin =>
    simp only [initialise]
    rw [blockFromCorners_ok hN hM ha hb, Res.ok_bind, blockFromCorners_ok hN hM (hin c (by simp)) (hin d (by simp)), Res.ok_bind]
    refine ⟨_, rfl, rfl, rfl, rfl, rfl, fun _ => ?_, fun _ => ?_⟩
    · simp only [around]
      exact Prod.ext (by simp only; omega) (by simp only; omega)
    · simp only [around]
      exact Prod.ext (by simp only; omega) (by simp only; omega)
  | _ :: _ :: _ :: _, hr, _ => simp at hr

theorem around_bounds (a : Nat × Nat) (l : List (Nat × Nat)) : ∀ v ∈ a :: l,
    ((around a l).1.1 ≤ v.1 ∧ v.1 ≤ (around a l).2.1) ∧ (around a l).1.2 ≤ v.2 ∧ v.2 ≤ (around a l).2.2 := by
  induction l generalizing a with
  | nil =>
    intro v hv
    rw [List.mem_singleton] at hv
    subst hv
    simp [around]
  | cons b l ih =>
    intro v hv
    simp only [around]
    rcases List.mem_cons.1 hv with rfl | hv
    · omega
    · have := ih b v hv
      omega

theorem around_in {P : Type} {g : Grid P} (a : Nat × Nat) (l : List (Nat × Nat)) (h : ∀ v ∈ a :: l, In g v) : In g (around a l).2 := by
  induction l generalizing a with
  | nil => exact h a (by simp)
  | cons b l ih =>
    have h1 := h a (by simp)
    have h2 := ih b (fun v hv => h v (List.mem_cons_of_mem _ hv))
    unfold In at *
    simp only [around]
    omega

omit [Field K] [LinearOrder K] in
theorem seeAll_ok {see : Pt K → Res (Nat × Nat)} {points : List (Pt K)} {vs : List (Nat × Nat)}
    (h : List.Forall₂ (fun p v => see p = .ok v) points vs) : seeAll see points = .ok vs := by
  induction h with
  | nil => rfl
  | cons h1 _ ih =>
    simp only [seeAll]
    rw [h1, Res.ok_bind, ih, Res.ok_bind]

theorem construct_ok {see : Pt K → Res (Nat × Nat)} {g : Grid (Pt K)} (hN : g.numN ≤ missing) (hM : g.numM ≤ missing) {points : List (Pt K)}
    {a b : Nat × Nat} {rest : List (Nat × Nat)} (hr : rest.length ≤ 2)
    (h : List.Forall₂ (fun p v => valid p = true ∧ see p = .ok v ∧ In g v) points (a :: b :: rest)) :
    ∃ z, construct see g points = .ok z ∧ ZoneFor a b rest z := by
  have hlen : points.length = rest.length + 2 := by rw [h.length_eq]; rfl
  have hall : points.all valid = true := by
    rw [List.all_eq_true]
    intro p hp
    obtain ⟨k, hk, rfl⟩ := List.mem_iff_getElem.1 hp
    exact (List.forall₂_iff_get.1 h |>.2 k hk (by rw [← h.length_eq]; exact hk)).1
  have hin : ∀ v ∈ a :: b :: rest, In g v := by
    intro v hv
    obtain ⟨k, hk, rfl⟩ := List.mem_iff_getElem.1 hv
    exact (List.forall₂_iff_get.1 h |>.2 k (by rw [h.length_eq]; exact hk) hk).2.2
  unfold construct
  rw [if_neg (by omega), if_neg (by simp [hall]), seeAll_ok (h.imp fun _ _ c => c.2.1), Res.ok_bind]
  exact initialise_ok hN hM hr hin

/-! ## Straight lines -/

theorem presetLow_zero (x : Nat) : presetLow x 0 = x := by unfold presetLow; omega

theorem presetLow_one (x y : Nat) : presetLow x 1 ≤ y ↔ x ≤ y + 80 := by unfold presetLow; omega

theorem presetUp_zero {num x : Nat} (h : x < num) : presetUp num x 0 = x := by unfold presetUp; omega

theorem presetUp_one {num x y : Nat} (h : y < num) : y ≤ presetUp num x 1 ↔ y ≤ x + 80 := by unfold presetUp; omega

theorem userLow_zero {low x : Nat} (h : low ≤ x) : userLow low x 0 = x := by unfold userLow; omega

theorem userLow_one (low x y : Nat) : userLow low x 1 ≤ y ↔ low ≤ y ∧ x ≤ y + 10000 := by unfold userLow; omega

theorem userUp_zero {up x : Nat} (h : x ≤ up) : userUp up x 0 = x := by unfold userUp; omega

theorem userUp_one (up x y : Nat) : y ≤ userUp up x 1 ↔ y ≤ up ∧ y ≤ x + 10000 := by unfold userUp; omega

omit [Field K] [LinearOrder K] in
theorem window_iff {g : Grid (Pt K)} {a b : Nat × Nat} {rest : List (Nat × Nat)} {z : Zone} (hz : ZoneFor a b rest z)
    (hgrid : In g a ∧ In g b) (hab : a ≠ b) (hs : a.1 = b.1 ∨ a.2 = b.2) {k : Nat} (hk1 : (lineOf a b).start ≤ k) (hk2 : k ≤ (lineOf a b).stop)
    {w : Nat × Nat} (hw : In g w) :
    (((bounds g z ((lineOf a b).nodeAt k)).1.1 ≤ w.1 ∧ w.1 ≤ (bounds g z ((lineOf a b).nodeAt k)).2.1) ∧
      (bounds g z ((lineOf a b).nodeAt k)).1.2 ≤ w.2 ∧ w.2 ≤ (bounds g z ((lineOf a b).nodeAt k)).2.2) ↔
      (lineOf a b).along w = k ∧ (reachOf a b rest).Within (lineOf a b) w := by
  have hab' : a.1 ≠ b.1 ∨ a.2 ≠ b.2 := by
    by_contra c
    exact hab (Prod.ext (by omega) (by omega))
  have hkey : (lineOf a b).alongN = decide (a.2 = b.2) := by
    show decide (min a.2 b.2 = max a.2 b.2) = _
    exact decide_eq_decide.2 (by omega)
  unfold In at hw hgrid
  by_cases c : a.2 = b.2
  · have hN : (lineOf a b).alongN = true := by rw [hkey, decide_eq_true c]
    have e1 : (lineOf a b).nodeAt k = (k, a.2) := by
      unfold Line.nodeAt Line.const
      rw [hN, if_pos rfl, if_pos rfl]
      exact Prod.ext rfl (by show min a.2 b.2 = _; omega)
    have e2 : (lineOf a b).const = a.2 := by
      unfold Line.const
      rw [hN, if_pos rfl]
      show min a.2 b.2 = _; omega
    have e3 : (lineOf a b).start = min a.1 b.1 := by unfold Line.start; rw [hN, if_pos rfl]; rfl
    have e4 : (lineOf a b).stop = max a.1 b.1 := by unfold Line.stop; rw [hN, if_pos rfl]; rfl
    have e5 : ∀ v, (lineOf a b).across v = v.2 := fun v => by unfold Line.across; rw [hN, if_pos rfl]
    have e6 : ∀ v, (lineOf a b).along v = v.1 := fun v => by unfold Line.along; rw [hN, if_pos rfl]
    have e7 : z.ind = (0, 1) := by rw [hz.ind]; exact Prod.ext (by simp only; omega) (by simp only; omega)
    rw [e3] at hk1
    rw [e4] at hk2
    rw [e1, e6]
    unfold bounds
    rw [hz.user, e7]
    cases rest with
    | nil =>
      show (presetLow k 0 ≤ _ ∧ _ ≤ presetUp _ k 0) ∧ presetLow _ 1 ≤ _ ∧ _ ≤ presetUp _ _ 1 ↔ _ ∧ _ ≤ _ ∧ _ ≤ _
      rw [presetLow_zero, presetUp_zero (by omega), presetLow_one, presetUp_one hw.2, e2, e5]
      omega
    | cons c l =>
      have hb := around_bounds a (b :: c :: l)
      have hA := hb a (by simp)
      have hB := hb b (by simp)
      rw [hz.lo (by simp), hz.up (by simp)]
      simp only [List.isEmpty_cons, Bool.not_false, if_true, reachOf, Reach.Within]
      rw [e5, e5, e5, e2]
      generalize around a (b :: c :: l) = r at *
      rw [userLow_zero (by omega), userUp_zero (by omega), userLow_one, userUp_one]
      omega
  · have hN : (lineOf a b).alongN = false := by rw [hkey, decide_eq_false c]
    have e1 : (lineOf a b).nodeAt k = (a.1, k) := by
      unfold Line.nodeAt Line.const
      rw [hN, if_neg Bool.false_ne_true, if_neg Bool.false_ne_true]
      exact Prod.ext (by show min a.1 b.1 = _; omega) rfl
    have e2 : (lineOf a b).const = a.1 := by
      unfold Line.const
      rw [hN, if_neg Bool.false_ne_true]
      show min a.1 b.1 = _; omega
    have e3 : (lineOf a b).start = min a.2 b.2 := by unfold Line.start; rw [hN, if_neg Bool.false_ne_true]; rfl
    have e4 : (lineOf a b).stop = max a.2 b.2 := by unfold Line.stop; rw [hN, if_neg Bool.false_ne_true]; rfl
    have e5 : ∀ v, (lineOf a b).across v = v.1 := fun v => by unfold Line.across; rw [hN, if_neg Bool.false_ne_true]
    have e6 : ∀ v, (lineOf a b).along v = v.2 := fun v => by unfold Line.along; rw [hN, if_neg Bool.false_ne_true]
    have e7 : z.ind = (1, 0) := by rw [hz.ind]; exact Prod.ext (by simp only; omega) (by simp only; omega)
    rw [e3] at hk1
    rw [e4] at hk2
    rw [e1, e6]
    unfold bounds
    rw [hz.user, e7]
    cases rest with
    | nil =>
      show (presetLow _ 1 ≤ _ ∧ _ ≤ presetUp _ _ 1) ∧ presetLow _ 0 ≤ _ ∧ _ ≤ presetUp _ _ 0 ↔ _ ∧ _ ≤ _ ∧ _ ≤ _
      rw [presetLow_zero, presetUp_zero (by omega), presetLow_one, presetUp_one hw.1, e2, e5]
      omega
    | cons c l =>
      have hb := around_bounds a (b :: c :: l)
      have hA := hb a (by simp)
      have hB := hb b (by simp)
      rw [hz.lo (by simp), hz.up (by simp)]
      simp only [List.isEmpty_cons, Bool.not_false, if_true, reachOf, Reach.Within]
      rw [e5, e5, e5, e2]
      generalize around a (b :: c :: l) = r at *
      rw [userLow_zero (by omega), userUp_zero (by omega), userLow_one, userUp_one]
      omega

theorem shareOf_straight (o : Means K) {g : Grid (Pt K)} {a b : Nat × Nat} {rest : List (Nat × Nat)} {z : Zone} (hz : ZoneFor a b rest z)
    (hab : a ≠ b) (hs : a.1 = b.1 ∨ a.2 = b.2) {w : Nat × Nat} (hw : (reachOf a b rest).Within (lineOf a b) w) :
    shareOf o g z (foothold (lineOf a b) w) (o.nearest (g.node (foothold (lineOf a b) w).1 (foothold (lineOf a b) w).2)) w =
      (reachOf a b rest).share o g (lineOf a b) w := by
  have hab' : a.1 ≠ b.1 ∨ a.2 ≠ b.2 := by
    by_contra c
    exact hab (Prod.ext (by omega) (by omega))
  have hkey : (lineOf a b).alongN = decide (a.2 = b.2) := by
    show decide (min a.2 b.2 = max a.2 b.2) = _
    exact decide_eq_decide.2 (by omega)
  unfold shareOf
  cases rest with
  | nil =>
    rw [hz.user]
    rfl
  | cons c l =>
    rw [hz.user]
    show userFactor o z _ _ = _
    have hu : userFactor o z (foothold (lineOf a b) w) w =
        if a.2 = b.2 then factor o.geo w.2 (foothold (lineOf a b) w).2 z.lo.2 z.up.2
        else factor o.geo w.1 (foothold (lineOf a b) w).1 z.lo.1 z.up.1 := by
      unfold userFactor
      simp only
      rw [hz.ind]
      simp only
      by_cases c : a.2 = b.2
      · rw [if_pos c, if_neg (by omega), if_neg (by omega), if_pos (by omega)]
      · rw [if_neg c, if_neg (by omega), if_pos (by omega)]
    rw [hu, hz.lo (by simp), hz.up (by simp)]
    simp only [reachOf, Reach.share, Reach.Within] at hw ⊢
    generalize around a (b :: c :: l) = r at *
    by_cases c : a.2 = b.2
    · have e : ∀ v, (lineOf a b).across v = v.2 := fun v => by unfold Line.across; rw [hkey, decide_eq_true c, if_pos rfl]
      rw [if_pos c]
      simp only [e] at hw ⊢
      rw [factor_eq o.geo hw.1.1 hw.1.2]
      have : (foothold (lineOf a b) w).2 = (lineOf a b).const := by
        unfold foothold Line.nodeAt
        rw [hkey, decide_eq_true c, if_pos rfl]
      rw [this]
    · have e : ∀ v, (lineOf a b).across v = v.1 := fun v => by
        unfold Line.across; rw [hkey, decide_eq_false c, if_neg Bool.false_ne_true]
      rw [if_neg c]
      simp only [e] at hw ⊢
      rw [factor_eq o.geo hw.1.1 hw.1.2]
      have : (foothold (lineOf a b) w).1 = (lineOf a b).const := by
        unfold foothold Line.nodeAt
        rw [hkey, decide_eq_false c, if_neg Bool.false_ne_true]
      rw [this]

theorem along_nodeAt (l : Line) (k : Nat) : l.along (l.nodeAt k) = k := by
  unfold Line.along Line.nodeAt
  split <;> rfl

/-- The round for the node of the line at `k` puts the nodes beside it where they should be. -/
theorem snapped_straight (o : Means K) {g : Grid (Pt K)} {a b : Nat × Nat} {rest : List (Nat × Nat)} {z : Zone} (hz : ZoneFor a b rest z)
    (hgrid : In g a ∧ In g b) (hab : a ≠ b) (hs : a.1 = b.1 ∨ a.2 = b.2) {k : Nat} (hk1 : (lineOf a b).start ≤ k) (hk2 : k ≤ (lineOf a b).stop)
    {w : Nat × Nat} (hw : In g w) (old : Pt K) (hold : (lineOf a b).along w = k → old = g.node w.1 w.2) :
    snapped o g g z ((lineOf a b).nodeAt k) w old =
      if (lineOf a b).along w = k then target o g (lineOf a b) (reachOf a b rest) w else old := by
  classical
  unfold snapped
  simp only
  by_cases hk : (lineOf a b).along w = k
  · rw [if_pos hk, hold hk]
    have hf : (lineOf a b).nodeAt k = foothold (lineOf a b) w := by unfold foothold; rw [hk]
    have hbeside : Beside (lineOf a b) w := ⟨by omega, by omega⟩
    have hwin := window_iff (g := g) hz hgrid hab hs hk1 hk2 hw
    rw [hf] at hwin ⊢
    unfold target
    simp only
    by_cases hp : valid (g.node (foothold (lineOf a b) w).1 (foothold (lineOf a b) w).2) = true
    · have hbp : Beside (lineOf a b) w ∧ valid (g.node (foothold (lineOf a b) w).1 (foothold (lineOf a b) w).2) = true := ⟨hbeside, hp⟩
      rw [if_pos hp, if_pos hbp]
      by_cases e : w = foothold (lineOf a b) w
      · rw [if_pos e, if_pos e]
      · rw [if_neg e, if_neg e]
        by_cases c : (reachOf a b rest).Within (lineOf a b) w
        · by_cases hn : Near (g.node (foothold (lineOf a b) w).1 (foothold (lineOf a b) w).2)
              (o.nearest (g.node (foothold (lineOf a b) w).1 (foothold (lineOf a b) w).2))
          · rw [if_neg (fun d => d.2 hn), if_neg (fun d => d.2.2.1 hn)]
          · rw [if_pos ⟨hwin.2 ⟨hk, c⟩, hn⟩]
            unfold carried
            rw [shareOf_straight o hz hab hs c]
            by_cases d : valid (g.node w.1 w.2) = true ∧ (reachOf a b rest).share o g (lineOf a b) w > 0
            · rw [if_pos d, if_pos ⟨c, d.1, hn, d.2⟩]
            · rw [if_neg d, if_neg (fun f => d ⟨f.2.1, f.2.2.2⟩)]
        · rw [if_neg (fun d => c (hwin.1 d.1).2), if_neg (fun d => c d.1)]
    · have hbp : ¬ (Beside (lineOf a b) w ∧ valid (g.node (foothold (lineOf a b) w).1 (foothold (lineOf a b) w).2) = true) := fun c => hp c.2
      rw [if_neg hp, if_neg hbp]
  · rw [if_neg hk]
    have hne : w ≠ (lineOf a b).nodeAt k := by
      rintro rfl
      exact hk (along_nodeAt _ _)
    rw [ite_cond_eq_false (h := eq_false hne), if_neg (fun c : _ ∧ ¬ Near _ _ => hk ((window_iff hz hgrid hab hs hk1 hk2 hw).1 c.1).1)]
    split <;> rfl

/-! ## The loop over the line -/

section
variable {P : Type}

theorem edited_refl (g : Grid P) : Edited g g (fun n m => g.node n m) := ⟨SameShape.refl g, fun _ _ _ _ => rfl, fun _ _ _ => rfl⟩

theorem edited_trans {g h k : Grid P} {f1 f2 : Nat → Nat → P} (h1 : Edited g h f1) (h2 : Edited h k f2) : Edited g k f2 := by
  refine ⟨h1.shape.trans h2.shape, fun n m hn hm => h2.visible n m (by rw [h1.shape.numN]; exact hn) (by rw [h1.shape.numM]; exact hm), fun i j c => ?_⟩
  rw [h2.hidden i j (by rw [h1.shape.numN, h1.shape.numM, h1.shape.sn, h1.shape.sm]; exact c), h1.hidden i j c]

theorem edited_congr {g h : Grid P} {f1 f2 : Nat → Nat → P} (h1 : Edited g h f1) (e : ∀ n m, n < g.numN → m < g.numM → f1 n m = f2 n m) :
    Edited g h f2 := ⟨h1.shape, fun n m hn hm => by rw [h1.visible n m hn hm, e n m hn hm], h1.hidden⟩

end

variable [IsStrictOrderedRing K]

/-- The loop over the nodes of a block: it finishes, and the round for the last node comes last. -/
theorem rounds_ok {o : Means K} (ho : o.Good) {orig g : Grid (Pt K)} (z : Zone) (hl : In g z.last) (hfl : z.first.1 ≤ z.last.1 ∧ z.first.2 ≤ z.last.2)
    (hz : z.user = true → In g z.up) (hN : g.numN ≤ orig.numN) (hM : g.numM ≤ orig.numM) :
    ∃ (g' : Grid (Pt K)) (old : Nat → Nat → Pt K), forRange z.first.2 (z.last.2 + 1) (fun m => forRange z.first.1 (z.last.1 + 1) (snapNode o orig z m)) g = .ok g' ∧
      Edited g g' (fun n m => snapped o orig g z z.last (n, m) (old n m)) := by
  have inner : ∀ m h, m ≤ z.last.2 → Edited g h (fun n m => h.node n m) →
      ∃ (h' : Grid (Pt K)) (old : Nat → Nat → Pt K), forRange z.first.1 (z.last.1 + 1) (snapNode o orig z m) h = .ok h' ∧
        Edited g h' (fun n m' => snapped o orig g z (z.last.1, m) (n, m') (old n m')) := by
    intro m h hm hh
    obtain ⟨h', r1, r2⟩ := forRange_inv (f := snapNode o orig z m) (lo := z.first.1) (hi := z.last.1 + 1) (s := h)
      (fun k t => Edited g t (fun n m => t.node n m) ∧
        (k = z.last.1 + 1 → ∃ old : Nat → Nat → Pt K, Edited g t (fun n m' => snapped o orig g z (z.last.1, m) (n, m') (old n m'))))
      (by omega) ⟨hh, fun c => absurd c (by omega)⟩ (by
        intro k t h1 h2 ht
        obtain ⟨t', e1, e2⟩ := snapNode_ok (v := (k, m)) ho z ht.1.shape ⟨by show k < _; have := hl.1; omega, by show m < _; have := hl.2; omega⟩ hz hN hM
        have e3 := edited_trans ht.1 e2
        refine ⟨t', e1, ⟨e3.shape, fun _ _ _ _ => rfl, e3.hidden⟩, fun c => ⟨fun n m => t.node n m, ?_⟩⟩
        obtain rfl : k = z.last.1 := by omega
        exact e3)
    obtain ⟨old, r3⟩ := r2.2 rfl
    exact ⟨h', old, r1, r3⟩
  obtain ⟨g', r1, r2⟩ := forRange_inv (f := fun m => forRange z.first.1 (z.last.1 + 1) (snapNode o orig z m)) (lo := z.first.2)
    (hi := z.last.2 + 1) (s := g)
    (fun k t => Edited g t (fun n m => t.node n m) ∧
      (k = z.last.2 + 1 → ∃ old : Nat → Nat → Pt K, Edited g t (fun n m' => snapped o orig g z z.last (n, m') (old n m'))))
    (by omega) ⟨edited_refl g, fun c => absurd c (by omega)⟩ (by
      intro k t h1 h2 ht
      obtain ⟨t', old, e1, e2⟩ := inner k t (by omega) ht.1
      refine ⟨t', e1, ⟨e2.shape, fun _ _ _ _ => rfl, e2.hidden⟩, fun c => ⟨old, ?_⟩⟩
      obtain rfl : k = z.last.2 := by omega
      exact e2)
  obtain ⟨old, r3⟩ := r2.2 rfl
  exact ⟨g', old, r1, r3⟩

omit [IsStrictOrderedRing K] in
theorem compute_of_loop (o : Means K) (orig g g' : Grid (Pt K)) (z : Zone)
    (h : forRange z.first.2 (z.last.2 + 1) (fun m => forRange z.first.1 (z.last.1 + 1) (snapNode o orig z m)) g = .ok g') :
    compute o orig g z = .ok (g', .block ⟨0, 0, g.numN, g.numM, savedNodes g 0 0 g.numN g.numM⟩) := by
  unfold compute
  rw [saveBlock_ok g 0 0 g.numN g.numM (by omega) (by omega) (by omega) (by omega), Res.ok_bind, h, Res.ok_bind]

/-- The loop over a straight line. -/
theorem straight_ok {o : Means K} (ho : o.Good) {g : Grid (Pt K)} {a b : Nat × Nat} {rest : List (Nat × Nat)} {z : Zone}
    (hz : ZoneFor a b rest z) (hin : ∀ v ∈ a :: b :: rest, In g v) (hab : a ≠ b) (hs : a.1 = b.1 ∨ a.2 = b.2) :
    ∃ g', forRange z.first.2 (z.last.2 + 1) (fun m => forRange z.first.1 (z.last.1 + 1) (snapNode o g z m)) g = .ok g' ∧
      Edited g g' (fun n m => target o g (lineOf a b) (reachOf a b rest) (n, m)) := by
  classical
  have ha := hin a (by simp)
  have hb := hin b (by simp)
  have hup : z.user = true → In g z.up := by
    intro c
    have hr : rest ≠ [] := by
      rintro rfl
      rw [hz.user] at c
      cases c
    rw [hz.up hr]
    exact around_in _ _ hin
  have hkey : (lineOf a b).alongN = decide (a.2 = b.2) := by
    show decide (min a.2 b.2 = max a.2 b.2) = _
    exact decide_eq_decide.2 (by omega)
  let goal : Nat → Nat → Nat → Pt K := fun k n m =>
    if (lineOf a b).start ≤ (lineOf a b).along (n, m) ∧ (lineOf a b).along (n, m) < k then target o g (lineOf a b) (reachOf a b rest) (n, m)
    else g.node n m
  have step : ∀ k t, (lineOf a b).start ≤ k → k ≤ (lineOf a b).stop → In g ((lineOf a b).nodeAt k) → Edited g t (goal k) →
      ∃ t', snapNode o g z ((lineOf a b).nodeAt k).2 ((lineOf a b).nodeAt k).1 t = .ok t' ∧ Edited g t' (goal (k + 1)) := by
    intro k t h1 h2 h3 ht
    obtain ⟨t', e1, e2⟩ := snapNode_ok ho z ht.shape h3 hup (Nat.le_refl _) (Nat.le_refl _) (orig := g)
    refine ⟨t', e1, edited_congr (edited_trans ht e2) fun n m hn hm => ?_⟩
    rw [snapped_straight o hz ⟨ha, hb⟩ hab hs h1 h2 ⟨hn, hm⟩ _ (fun c => by
      rw [ht.visible n m hn hm]
      exact if_neg (by omega)), ht.visible n m hn hm]
    show (if _ then _ else if _ then _ else _) = if _ then _ else _
    by_cases c : (lineOf a b).along (n, m) = k
    · rw [if_pos c, if_pos (by omega)]
    · rw [if_neg c]
      by_cases d : (lineOf a b).start ≤ (lineOf a b).along (n, m) ∧ (lineOf a b).along (n, m) < k
      · rw [if_pos d, if_pos (by omega)]
      · rw [if_neg d, if_neg (by omega)]
  have start : Edited g g (goal (lineOf a b).start) := edited_congr (edited_refl g) fun n m _ _ => (if_neg (by omega)).symm
  have finish : ∀ t, Edited g t (goal ((lineOf a b).stop + 1)) →
      Edited g t (fun n m => target o g (lineOf a b) (reachOf a b rest) (n, m)) := by
    intro t ht
    refine edited_congr ht fun n m _ _ => ?_
    show (if _ then _ else _) = _
    by_cases c : (lineOf a b).start ≤ (lineOf a b).along (n, m) ∧ (lineOf a b).along (n, m) < (lineOf a b).stop + 1
    · rw [if_pos c]
    · rw [if_neg c]
      unfold target
      simp only
      rw [if_neg (fun d => c ⟨d.1.1, Nat.lt_succ_of_le d.1.2⟩)]
  rw [hz.first, hz.last]
  unfold In at ha hb
  by_cases c : a.2 = b.2
  · have hN : (lineOf a b).alongN = true := by rw [hkey, decide_eq_true c]
    have e1 : ∀ k, (lineOf a b).nodeAt k = (k, a.2) := by
      intro k
      unfold Line.nodeAt Line.const
      rw [hN, if_pos rfl, if_pos rfl]
      exact Prod.ext rfl (by show min a.2 b.2 = _; omega)
    have e3 : (lineOf a b).start = min a.1 b.1 := by unfold Line.start; rw [hN, if_pos rfl]; rfl
    have e4 : (lineOf a b).stop = max a.1 b.1 := by unfold Line.stop; rw [hN, if_pos rfl]; rfl
    obtain ⟨t, r1, r2⟩ := forRange_inv (f := snapNode o g z a.2) (lo := min a.1 b.1) (hi := max a.1 b.1 + 1) (s := g)
      (fun k t => Edited g t (goal k)) (by omega) (by rw [← e3]; exact start) (by
        intro k t h1 h2 ht
        have := step k t (by omega) (by omega) (by rw [e1]; exact ⟨by show k < _; omega, by show a.2 < _; omega⟩) ht
        rw [e1] at this
        exact this)
    refine ⟨t, ?_, finish t (by rw [e4]; exact r2)⟩
    have hm1 : min a.2 b.2 = a.2 := by omega
    have hm2 : max a.2 b.2 = a.2 := by omega
    simp only [hm1, hm2]
    have := forRange_eq (f := fun m => forRange (min a.1 b.1) (max a.1 b.1 + 1) (snapNode o g z m)) (fun k => if k = a.2 then g else t)
      (lo := a.2) (hi := a.2 + 1) (by omega) (by
        intro i h1 h2
        obtain rfl : i = a.2 := by omega
        show forRange _ _ _ (if _ then _ else _) = .ok (if _ then _ else _)
        rw [if_pos rfl, if_neg (by omega), r1])
    simpa using this
  · have hN : (lineOf a b).alongN = false := by rw [hkey, decide_eq_false c]
    have e1 : ∀ k, (lineOf a b).nodeAt k = (a.1, k) := by
      intro k
      unfold Line.nodeAt Line.const
      rw [hN, if_neg Bool.false_ne_true, if_neg Bool.false_ne_true]
      exact Prod.ext (by show min a.1 b.1 = _; omega) rfl
    have e3 : (lineOf a b).start = min a.2 b.2 := by unfold Line.start; rw [hN, if_neg Bool.false_ne_true]; rfl
    have e4 : (lineOf a b).stop = max a.2 b.2 := by unfold Line.stop; rw [hN, if_neg Bool.false_ne_true]; rfl
    have hm1 : min a.1 b.1 = a.1 := by omega
    have hm2 : max a.1 b.1 = a.1 := by omega
    simp only [hm1, hm2]
    obtain ⟨t, r1, r2⟩ := forRange_inv (f := fun m => forRange a.1 (a.1 + 1) (snapNode o g z m)) (lo := min a.2 b.2)
      (hi := max a.2 b.2 + 1) (s := g)
      (fun k t => Edited g t (goal k)) (by omega) (by rw [← e3]; exact start) (by
        intro k t h1 h2 ht
        obtain ⟨t', q1, q2⟩ := step k t (by omega) (by omega) (by rw [e1]; exact ⟨by show a.1 < _; omega, by show k < _; omega⟩) ht
        rw [e1] at q1
        refine ⟨t', ?_, q2⟩
        have := forRange_eq (f := snapNode o g z k) (fun i => if i = a.1 then t else t') (lo := a.1) (hi := a.1 + 1) (by omega) (by
          intro i h1 h2
          obtain rfl : i = a.1 := by omega
          show snapNode _ _ _ _ _ (if _ then _ else _) = .ok (if _ then _ else _)
          rw [if_pos rfl, if_neg (by omega)]
          exact q1)
        simpa using this)
    exact ⟨t, r1, finish t (by rw [e4]; exact r2)⟩

end Verif.Snap
