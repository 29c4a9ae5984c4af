import Verif.Smooth.DirectLemmas
/-!
# C68: smoothing a curvilinear grid along a line
-/
namespace Verif.Smooth
open Verif.Curvi Verif.CurviLine

variable {K : Type} [Field K] [LinearOrder K] [IsStrictOrderedRing K]

/-- The call, for a grid without hidden lines. -/
theorem smoothingDirectional_ok (geo : Geo K) (g g1 : Grid (Pt K)) (hg : WF g) (hh : NoHidden g) (hc : clean g = .ok g1)
    (hN : g.numN ≤ missing) (hM : g.numM ≤ missing) (k : Int) {a b c d : Nat × Nat} (hl : LineOk g a b) (hb : BlockOk g c d)
    (hw : (lineOf a b).across c ≠ (lineOf a b).across d) :
    ∃ g', smoothingDirectional geo g k a b c d = .ok ⟨g', some g'⟩ ∧
      DSteps geo g1 (lineOf a b) (low c d) (high c d) (unsigned k) g1 g' := by
  obtain ⟨g1', types, h1, h2, hs, ht⟩ := setup_ok g hg
  rw [hc] at h2
  cases h2
  have hb1 : BlockOk g1 c d := by unfold BlockOk at *; rw [hs.numN, hs.numM]; exact hb
  have hl1 : LineOk g1 a b := by unfold LineOk at *; rw [hs.numN, hs.numM]; exact hl
  have hN1 : g1.numN ≤ missing := by rw [hs.numN]; exact hN
  have hM1 : g1.numM ≤ missing := by rw [hs.numM]; exact hM
  have hh1 := noHidden_same hs hh
  obtain ⟨g', h3, h4⟩ := directRounds_ok geo (lineOf a b) (low c d) (high c d) types g1 (unsigned k) g1 hh1 (lineOf_in hl1)
    (zone_of_block hb1) ht
  refine ⟨g', ?_, h4⟩
  have hdir : ¬ (((!(lineOf a b).alongN) = true ∧ (low c d).1 = (high c d).1) ∨ ((lineOf a b).alongN = true ∧ (low c d).2 = (high c d).2)) := by
    unfold Line.across at hw
    unfold low high
    cases hA : (lineOf a b).alongN
    · simp only [hA, Bool.false_eq_true, if_false] at hw
      simp; omega
    · simp only [hA, if_true] at hw
      simp; omega
  unfold smoothingDirectional
  rw [isValid_of_wf hg, if_neg Bool.false_ne_true, h1, Res.ok_bind]
  simp only [setLine_ok hN1 hM1 hl1, setBlock_block hN1 hM1 hb1]
  unfold computeDirectional
  simp only []
  rw [if_neg hdir, h3]
  simp only [copyGrid_eq (noHidden_same h4.shape hh1)]

/-- C68, what moves: on a grid without hidden lines and without loose nodes, the call carries out the given number of
rounds. In each round every free node of the zone moves towards the farther of its two neighbours along the line, by a
share that depends on how different the distances are and fades out across the line, and all else stays (`DStep`).
Missing: grids with hidden lines (`hidden_line_misread_along`), and undo (`undo_does_nothing`). -/
theorem directional_exact_partial (geo : Geo K) (g : Grid (Pt K)) (hg : WF g) (hh : NoHidden g) (hn : NoLoose g) (hN : g.numN ≤ missing)
    (hM : g.numM ≤ missing) (k : Nat) (hk : k < 2147483648) {a b c d : Nat × Nat} (hl : LineOk g a b) (hb : BlockOk g c d)
    (hw : (lineOf a b).across c ≠ (lineOf a b).across d) :
    ∃ g' o, smoothingDirectional geo g k a b c d = .ok o ∧ o.grid = g' ∧ DSteps geo g (lineOf a b) (low c d) (high c d) k g g' := by
  obtain ⟨g', h1, h2⟩ := smoothingDirectional_ok geo g g hg hh (clean_of_no_loose g hg hn) hN hM k hl hb hw
  have : unsigned (k : Int) = k := by unfold unsigned; omega
  rw [this] at h2
  exact ⟨g', _, h1, rfl, h2⟩

/-- C68 fails for undo: on every grid without hidden lines and for every accepted call, the grid that undo puts back is the
smoothed one. -/
theorem undo_does_nothing (geo : Geo K) (g : Grid (Pt K)) (hg : WF g) (hh : NoHidden g) (hN : g.numN ≤ missing) (hM : g.numM ≤ missing) (k : Int)
    {a b c d : Nat × Nat} (hl : LineOk g a b) (hb : BlockOk g c d) (hw : (lineOf a b).across c ≠ (lineOf a b).across d) :
    ∃ o, smoothingDirectional geo g k a b c d = .ok o ∧ o.kept = some o.grid := by
  obtain ⟨g1, hc, _⟩ := clean_exact g hg
  obtain ⟨g', h1, _⟩ := smoothingDirectional_ok geo g g1 hg hh hc hN hM k hl hb hw
  exact ⟨_, h1, rfl⟩

/-- C68, what is accepted: a line between two different nodes of one grid line, and a zone between two nodes that differ
across the line. -/
theorem directional_accepted_iff (geo : Geo K) (g : Grid (Pt K)) (hg : WF g) (hN : g.numN ≤ missing) (hM : g.numM ≤ missing) (k : Int)
    (a b c d : Nat × Nat) : ∃ o, smoothingDirectional geo g k a b c d = .ok o ∧ ((∃ h, o.kept = some h) ↔
      LineOk g a b ∧ BlockOk g c d ∧ (lineOf a b).across c ≠ (lineOf a b).across d) := by
  obtain ⟨g1, types, h1, h2, hs, _⟩ := setup_ok g hg
  have hN1 : g1.numN ≤ missing := by rw [hs.numN]; exact hN
  have hM1 : g1.numM ≤ missing := by rw [hs.numM]; exact hM
  have eb : BlockOk g1 c d ↔ BlockOk g c d := by unfold BlockOk; rw [hs.numN, hs.numM]
  have el : LineOk g1 a b ↔ LineOk g a b := by unfold LineOk; rw [hs.numN, hs.numM]
  unfold smoothingDirectional
  rw [isValid_of_wf hg, if_neg Bool.false_ne_true, h1, Res.ok_bind, ← eb, ← el]
  by_cases hl : LineOk g1 a b
  · simp only [setLine_ok hN1 hM1 hl]
    by_cases hb : BlockOk g1 c d
    · simp only [setBlock_block hN1 hM1 hb]
      have hdir : ((((!(lineOf a b).alongN) = true ∧ (low c d).1 = (high c d).1) ∨ ((lineOf a b).alongN = true ∧ (low c d).2 = (high c d).2))) ↔
          (lineOf a b).across c = (lineOf a b).across d := by
        unfold Line.across low high
        cases hA : (lineOf a b).alongN
        · simp
        · simp
      unfold computeDirectional
      simp only []
      by_cases hw : (lineOf a b).across c = (lineOf a b).across d
      · rw [if_pos (hdir.2 hw)]
        exact ⟨_, rfl, ⟨fun ⟨h, hu⟩ => (by cases hu), fun e => absurd hw e.2.2⟩⟩
      · rw [if_neg (fun e => hw (hdir.1 e))]
        obtain ⟨r1, r2, r3, r4⟩ := region_in (lineOf_in hl) (zone_of_block hb)
        obtain ⟨g', h3, _⟩ := directRounds_total geo (lineOf a b) (regionOf (lineOf a b) (low c d) (high c d)).1
          (regionOf (lineOf a b) (low c d) (high c d)).2 types (unsigned k) g1 r3 r4
        rw [h3]
        exact ⟨_, rfl, ⟨fun _ => ⟨hl, hb, hw⟩, fun _ => ⟨_, rfl⟩⟩⟩
    · simp only [setBlock_not hN1 hM1 hb]
      exact ⟨_, rfl, ⟨fun ⟨h, hu⟩ => (by cases hu), fun e => absurd e.2.1 hb⟩⟩
  · have : setLine g1 [] a b = .throw := by
      cases e : setLine g1 [] a b with
      | ok ls => exact absurd (lineOk_of_ok hN1 hM1 e).1 hl
      | throw => rfl
      | ub =>
        exfalso
        unfold setLine blockFromCorners makeLine at e
        simp only at e
        split at e
        · cases e
        · split at e
          · cases e
          · split at e
            · cases e
            · rw [Res.ok_bind] at e
              simp only at e
              split at e
              · cases e
              · split at e
                · cases e
                · rw [Res.ok_bind] at e
                  simp at e
    simp only [this]
    exact ⟨_, rfl, ⟨fun ⟨h, hu⟩ => (by cases hu), fun e => absurd e.1 hl⟩⟩

/-- C68, convexity: after any number of rounds the grid is still in every half plane it was in. -/
theorem directional_convex (geo : Geo K) (hgeo : geo.Good) {g g' : Grid (Pt K)} {l : Line} {lo up : Nat × Nat} {k : Nat}
    (h : DSteps geo g l lo up k g g') (α β γ : K)
    (hp : ∀ n m, n < g.numN → m < g.numM → valid (g.node n m) = true → level α β (g.node n m) ≤ γ) :
    ∀ n m, n < g.numN → m < g.numM → valid (g.node n m) = true → level α β (g'.node n m) ≤ γ := by
  refine h.keep (fun c => ∀ n m, n < g.numN → m < g.numM → valid (g.node n m) = true → level α β (c n m) ≤ γ) ?_
    ⟨rfl, rfl, rfl, rfl, rfl, rfl⟩ hp
  intro g1 g2 hs s hI n m hn hm hv
  by_cases w : l.Zone lo up (n, m) ∧ Free l.alongN g n m
  · rw [s.moves n m (by rw [hs.numN]; exact hn) (by rw [hs.numM]; exact hm) w.1 w.2, level_onWay]
    have hf0 := fading_nonneg geo hgeo (l.across (n, m)) l.const (l.across lo) (l.across up)
    have hf1 := fading_le geo hgeo (l.across (n, m)) l.const (l.across lo) (l.across up)
    have p0 := pace_nonneg hf0 (g1.node n m) (prevOf g1.node l.alongN n m) (nextOf g1.node l.alongN n m)
    have p1 := pace_le_half hf1 (g1.node n m) (prevOf g1.node l.alongN n m) (nextOf g1.node l.alongN n m)
    have h0 := hI n m hn hm hv
    have ha : level α β (farther (g1.node n m) (prevOf g1.node l.alongN n m) (nextOf g1.node l.alongN n m)) ≤ γ := by
      have hf := w.2.around
      unfold farther prevOf nextOf
      cases hA : l.alongN
      · rw [hA] at hf
        obtain ⟨_, b, v1, v2⟩ := hf
        simp only [Bool.false_eq_true, if_false]
        split
        · exact hI n (m - 1) hn (by omega) v1
        · exact hI n (m + 1) hn (by omega) v2
      · rw [hA] at hf
        obtain ⟨_, b, v1, v2⟩ := hf
        simp only [if_true]
        split
        · exact hI (n - 1) m (by omega) hm v1
        · exact hI (n + 1) m (by omega) hm v2
    have h1 := mul_le_mul_of_nonneg_left ha p0
    have h2 := mul_le_mul_of_nonneg_left h0 (sub_nonneg.2 (p1.trans (by linarith : (1 / 2 : K) ≤ 1)))
    linarith
  · rw [s.stays n m (by rw [hs.numN]; exact hn) (by rw [hs.numM]; exact hm) w]
    exact hI n m hn hm hv

/-- Two nodes next to each other along the line, both there. -/
def Next {P : Type} [PointLike P] (alongN : Bool) (g : Grid P) (n m n' m' : Nat) : Prop :=
  (if alongN then n' = n + 1 ∧ m' = m else n' = n ∧ m' = m + 1) ∧ n' < g.numN ∧ m' < g.numM ∧ valid (g.node n m) = true ∧
    valid (g.node n' m') = true

/-- How far a node of an ordered line can move. -/
theorem move_bounds {α β : K} {p a b : Pt K} {r : K} (h1 : level α β a ≤ level α β p) (h2 : level α β p ≤ level α β b) (h0 : 0 ≤ r) :
    level α β p - r * (level α β p - level α β a) ≤ level α β (onWay p (farther p a b) r) ∧
      level α β (onWay p (farther p a b) r) ≤ level α β p + r * (level α β b - level α β p) := by
  rw [level_onWay]
  unfold farther
  have e1 : 0 ≤ r * (level α β p - level α β a) := mul_nonneg h0 (by linarith)
  have e2 : 0 ≤ r * (level α β b - level α β p) := mul_nonneg h0 (by linarith)
  split
  · constructor <;> linarith
  · constructor <;> linarith

/-- One round, with a bound `t` for the share: how far the two nodes of a step can come towards each other. -/
theorem next_bounds (geo : Geo K) (hgeo : geo.Good) {g0 g g' : Grid (Pt K)} {l : Line} {lo up : Nat × Nat} (hs : SameShape g0 g)
    (s : DStep geo g0 l lo up g g') (t : K) (α β : K)
    (hI : ∀ n m n' m', Next l.alongN g0 n m n' m' → level α β (g.node n m) ≤ level α β (g.node n' m'))
    (ht : ∀ n m, n < g0.numN → m < g0.numM → l.Zone lo up (n, m) → Free l.alongN g0 n m →
      pace (fading geo (l.across (n, m)) l.const (l.across lo) (l.across up)) (g.node n m) (prevOf g.node l.alongN n m)
        (nextOf g.node l.alongN n m) ≤ t) {n m n' m' : Nat} (hx : Next l.alongN g0 n m n' m') (ht0 : 0 ≤ t) :
    level α β (g'.node n m) ≤ level α β (g.node n m) + t * (level α β (g.node n' m') - level α β (g.node n m)) ∧
      level α β (g.node n' m') - t * (level α β (g.node n' m') - level α β (g.node n m)) ≤ level α β (g'.node n' m') := by
  have hle := hI n m n' m' hx
  have hd : 0 ≤ level α β (g.node n' m') - level α β (g.node n m) := by linarith
  have htd := mul_nonneg ht0 hd
  have hx' := hx
  obtain ⟨ha, hn', hm', v, v'⟩ := hx
  have hn : n < g0.numN := by split at ha <;> omega
  have hm : m < g0.numM := by split at ha <;> omega
  constructor
  · by_cases w : l.Zone lo up (n, m) ∧ Free l.alongN g0 n m
    · rw [s.moves n m (by rw [hs.numN]; exact hn) (by rw [hs.numM]; exact hm) w.1 w.2]
      have hr := ht n m hn hm w.1 w.2
      have hr0 := pace_nonneg (fading_nonneg geo hgeo (l.across (n, m)) l.const (l.across lo) (l.across up)) (g.node n m)
        (prevOf g.node l.alongN n m) (nextOf g.node l.alongN n m)
      have hf := w.2.around
      have e1 : level α β (prevOf g.node l.alongN n m) ≤ level α β (g.node n m) := by
        unfold prevOf
        cases hA : l.alongN
        · rw [hA] at hf hI
          obtain ⟨_, b, v1, v2⟩ := hf
          simp only [Bool.false_eq_true, if_false]
          exact hI n (m - 1) n m ⟨by simp; omega, hn, hm, v1, v⟩
        · rw [hA] at hf hI
          obtain ⟨_, b, v1, v2⟩ := hf
          simp only [if_true]
          exact hI (n - 1) m n m ⟨by simp; omega, hn, hm, v1, v⟩
      have e2 : nextOf g.node l.alongN n m = g.node n' m' := by
        unfold nextOf
        split
        · rename_i c; rw [if_pos c] at ha; rw [ha.1, ha.2]
        · rename_i c; rw [if_neg c] at ha; rw [ha.1, ha.2]
      have := (move_bounds (α := α) (β := β) (b := nextOf g.node l.alongN n m) e1 (by rw [e2]; exact hle) hr0).2
      refine this.trans ?_
      rw [e2] at hr ⊢
      have := mul_le_mul_of_nonneg_right hr hd
      linarith
    · rw [s.stays n m (by rw [hs.numN]; exact hn) (by rw [hs.numM]; exact hm) w]
      linarith
  · by_cases w : l.Zone lo up (n', m') ∧ Free l.alongN g0 n' m'
    · rw [s.moves n' m' (by rw [hs.numN]; exact hn') (by rw [hs.numM]; exact hm') w.1 w.2]
      have hr := ht n' m' hn' hm' w.1 w.2
      have hr0 := pace_nonneg (fading_nonneg geo hgeo (l.across (n', m')) l.const (l.across lo) (l.across up)) (g.node n' m')
        (prevOf g.node l.alongN n' m') (nextOf g.node l.alongN n' m')
      have hf := w.2.around
      have e1 : level α β (g.node n' m') ≤ level α β (nextOf g.node l.alongN n' m') := by
        unfold nextOf
        cases hA : l.alongN
        · rw [hA] at hf hI
          obtain ⟨_, b, v1, v2⟩ := hf
          simp only [Bool.false_eq_true, if_false]
          exact hI n' m' n' (m' + 1) ⟨by simp, hn', b.2, v', v2⟩
        · rw [hA] at hf hI
          obtain ⟨_, b, v1, v2⟩ := hf
          simp only [if_true]
          exact hI n' m' (n' + 1) m' ⟨by simp, b.2, hm', v', v2⟩
      have e2 : prevOf g.node l.alongN n' m' = g.node n m := by
        unfold prevOf
        split
        · rename_i c; rw [if_pos c] at ha; rw [ha.1, ha.2, Nat.add_sub_cancel]
        · rename_i c; rw [if_neg c] at ha; rw [ha.1, ha.2, Nat.add_sub_cancel]
      have := (move_bounds (α := α) (β := β) (p := g.node n' m') (a := prevOf g.node l.alongN n' m') (by rw [e2]; exact hle) e1 hr0).1
      refine le_trans ?_ this
      rw [e2] at hr ⊢
      have := mul_le_mul_of_nonneg_right hr hd
      linarith
    · rw [s.stays n' m' (by rw [hs.numN]; exact hn') (by rw [hs.numM]; exact hm') w]
      linarith

/-- C68, order: if going along the line never goes back in some direction, it does not after any number of rounds. -/
theorem order_kept (geo : Geo K) (hgeo : geo.Good) {g g' : Grid (Pt K)} {l : Line} {lo up : Nat × Nat} {k : Nat}
    (h : DSteps geo g l lo up k g g') (α β : K)
    (hp : ∀ n m n' m', Next l.alongN g n m n' m' → level α β (g.node n m) ≤ level α β (g.node n' m')) :
    ∀ n m n' m', Next l.alongN g n m n' m' → level α β (g'.node n m) ≤ level α β (g'.node n' m') := by
  refine h.keep (fun c => ∀ n m n' m', Next l.alongN g n m n' m' → level α β (c n m) ≤ level α β (c n' m')) ?_
    ⟨rfl, rfl, rfl, rfl, rfl, rfl⟩ hp
  intro g1 g2 hs s hI n m n' m' hx
  have := next_bounds geo hgeo hs s (1 / 2) α β hI
    (fun n m _ _ _ _ => pace_le_half (fading_le geo hgeo _ _ _ _) _ _ _) hx (by positivity)
  linarith [this.1, this.2]

/-- C68, strict order: if going along the line always goes forward in some direction, it does so after a round, unless
some node has both neighbours very near. What is missing: then the nodes can meet (`near_nodes_meet`). -/
theorem strict_order_kept_partial (geo : Geo K) (hgeo : geo.Good) {g g' : Grid (Pt K)} {l : Line} {lo up : Nat × Nat}
    (s : DStep geo g l lo up g g') (α β : K)
    (ht : ∀ n m, Free l.alongN g n m → ¬ (dist2 (g.node n m) (prevOf g.node l.alongN n m) < tiny ∧
      dist2 (g.node n m) (nextOf g.node l.alongN n m) < tiny))
    (hp : ∀ n m n' m', Next l.alongN g n m n' m' → level α β (g.node n m) < level α β (g.node n' m')) :
    ∀ n m n' m', Next l.alongN g n m n' m' → level α β (g'.node n m) < level α β (g'.node n' m') := by
  intro n m n' m' hx
  have := next_bounds geo hgeo ⟨rfl, rfl, rfl, rfl, rfl, rfl⟩ s (1 / 4) α β (fun n m n' m' h => (hp n m n' m' h).le)
    (fun n m _ _ _ hf => pace_le (fading_le geo hgeo _ _ _ _) _ _ _ (ht n m hf)) hx (by positivity)
  have := hp n m n' m' hx
  linarith

/-- C68, even spacing: if every free node of the zone is equally far from its two neighbours along the line, and not very
near to them, nothing moves. What is missing: very near nodes (`near_nodes_move`). -/
theorem even_unchanged_partial (geo : Geo K) {g g' : Grid (Pt K)} {l : Line} {lo up : Nat × Nat} {k : Nat}
    (h : DSteps geo g l lo up k g g')
    (he : ∀ n m, l.Zone lo up (n, m) → Free l.alongN g n m →
      dist2 (g.node n m) (prevOf g.node l.alongN n m) = dist2 (g.node n m) (nextOf g.node l.alongN n m) ∧
      tiny ≤ dist2 (g.node n m) (nextOf g.node l.alongN n m)) : g' = g := by
  have key : ∀ g0 g1, g0 = g → DStep geo g l lo up g0 g1 → g1 = g := by
    intro g0 g1 e s
    subst e
    refine Grid.ext_node s.shape (fun n m hn hm => ?_) s.hidden
    by_cases w : l.Zone lo up (n, m) ∧ Free l.alongN g0 n m
    · rw [s.moves n m hn hm w.1 w.2]
      obtain ⟨e1, e2⟩ := he n m w.1 w.2
      unfold pace
      rw [if_neg (fun c => absurd c.2 (not_lt.2 e2)), e1, sub_self, abs_zero, mul_zero, zero_div]
      unfold onWay
      simp
    · exact s.stays n m hn hm w
  suffices ∀ g0, g0 = g → DSteps geo g l lo up k g0 g' → g' = g from this g rfl h
  clear h
  induction k with
  | zero =>
    intro g0 e h
    cases h
    exact e
  | succ k ih =>
    intro g0 e h
    cases h with
    | next s t => exact ih _ (key _ _ e s) t

end Verif.Smooth
