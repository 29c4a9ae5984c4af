import Verif.Smooth.Lemmas
/-!
# Lemmas: one round of smoothing
-/
namespace Verif.Smooth
open Verif.Curvi Verif.CurviLine

variable {K : Type} [Field K] [LinearOrder K] [IsStrictOrderedRing K]

theorem dist2_eq_zero {p a : Pt K} : dist2 p a = 0 ↔ a = p := by
  unfold dist2
  constructor
  · intro h
    have h1 := sq_nonneg (a.x - p.x)
    have h2 := sq_nonneg (a.y - p.y)
    have e1 : (a.x - p.x) ^ 2 = 0 := by linarith
    have e2 : (a.y - p.y) ^ 2 = 0 := by linarith
    have := sub_eq_zero.1 (pow_eq_zero_iff (two_ne_zero) |>.1 e1)
    have := sub_eq_zero.1 (pow_eq_zero_iff (two_ne_zero) |>.1 e2)
    cases a; cases p; simp_all
  · rintro rfl; simp

theorem dist2_nonneg (p a : Pt K) : 0 ≤ dist2 p a := add_nonneg (sq_nonneg _) (sq_nonneg _)

omit [LinearOrder K] [IsStrictOrderedRing K] in
theorem len2_eq (p a : Pt K) : len2 (sub a p) = dist2 p a := by unfold len2 sub dist2; ring

theorem footAt_iff {p a q : Pt K} (h : a ≠ p) (r : K) : FootAt p a q r ↔ r = ratio p a q := by
  have hd : dist2 p a ≠ 0 := fun c => h (dist2_eq_zero.1 c)
  unfold FootAt ratio
  rw [len2_eq, eq_div_iff hd]
  constructor
  · rintro ⟨_, e⟩; rw [e]; unfold sub; ring
  · intro e; refine ⟨h, ?_⟩; rw [e]; unfold sub; ring

omit [LinearOrder K] [IsStrictOrderedRing K] in
theorem onWay_eq (p a : Pt K) (r : K) : add p (scale (sub a p) r) = onWay p a r := by
  unfold add scale sub onWay; congr 1 <;> ring

theorem foot_some {p a q : Pt K} (h : a ≠ p) :
    foot p a q = some ⟨onWay p a (ratio p a q), ratio p a q ^ 2 * dist2 p a, decide (ratio p a q ≥ 0) && decide (ratio p a q ≤ 1)⟩ := by
  unfold foot
  rw [len2_eq, if_neg (fun c => h (dist2_eq_zero.1 c)), onWay_eq, ← sq]

theorem foot_none (p q : Pt K) : foot p p q = none := by
  unfold foot
  rw [len2_eq, if_pos (dist2_eq_zero.2 rfl)]

omit [IsStrictOrderedRing K] in
theorem unit_iff (r : K) : (decide (r ≥ 0) && decide (r ≤ 1)) = true ↔ Unit r := by
  simp [Unit]

instance (r : K) : Decidable (Unit r) := by unfold Unit; infer_instance

omit [IsStrictOrderedRing K] in
theorem unit_eq (r : K) : (decide (r ≥ 0) && decide (r ≤ 1)) = decide (Unit r) := by
  rw [Bool.eq_iff_iff, unit_iff, decide_eq_true_eq]

theorem slide_iff (p a b q z : Pt K) : slide p a b q = some z ↔ Slid p a b q z := by
  unfold Slid
  by_cases ha : a = p
  · subst ha
    by_cases hb : b = a
    · subst hb
      simp [slide, foot_none, FootAt]
    · simp only [slide, foot_none, foot_some hb]
      constructor
      · intro h
        split at h
        · rename_i u
          exact Or.inr (Or.inl ⟨ratio a b q, (footAt_iff hb _).2 rfl, (unit_iff _).1 u, (Option.some.inj h).symm,
            fun r hr => absurd rfl hr.1⟩)
        · cases h
      · rintro (⟨r, h, _⟩ | ⟨s, h, u, e, _⟩ | ⟨r, s, h, _⟩)
        · exact absurd rfl h.1
        · rw [footAt_iff hb] at h; subst h
          rw [if_pos ((unit_iff _).2 u), e]
        · exact absurd rfl h.1
  · by_cases hb : b = p
    · subst hb
      simp only [slide, foot_none, foot_some ha]
      constructor
      · intro h
        split at h
        · rename_i u
          exact Or.inl ⟨ratio b a q, (footAt_iff ha _).2 rfl, (unit_iff _).1 u, (Option.some.inj h).symm,
            fun r hr => absurd rfl hr.1⟩
        · cases h
      · rintro (⟨r, h, u, e, _⟩ | ⟨s, h, _⟩ | ⟨r, s, _, h, _⟩)
        · rw [footAt_iff ha] at h; subst h
          rw [if_pos ((unit_iff _).2 u), e]
        · exact absurd rfl h.1
        · exact absurd rfl h.1
    · simp only [slide, foot_some ha, foot_some hb, footAt_iff ha, footAt_iff hb, unit_eq, Bool.and_eq_true, decide_eq_true_eq]
      generalize ratio p a q = r
      generalize ratio p b q = s
      by_cases hr : Unit r
      · by_cases hs : Unit s
        · by_cases hc : s ^ 2 * dist2 p b > r ^ 2 * dist2 p a
          · rw [if_pos ⟨⟨hr, hs⟩, hc⟩]
            constructor
            · intro h
              exact Or.inr (Or.inl ⟨s, rfl, hs, (Option.some.inj h).symm, fun r' e _ => by rw [e]; exact hc⟩)
            · rintro (⟨r', e, _, _, h⟩ | ⟨s', e, _, h, _⟩ | ⟨r', s', e, _, h, _⟩)
              · exact absurd (h s rfl hs) (by rw [e]; exact not_le.2 hc)
              · rw [h, e]
              · exact absurd (e ▸ hr) h
          · rw [if_neg (fun c => hc c.2), if_pos ⟨⟨hr, hs⟩, not_lt.1 hc⟩]
            constructor
            · intro h
              exact Or.inl ⟨r, rfl, hr, (Option.some.inj h).symm, fun s' e _ => by rw [e]; exact not_lt.1 hc⟩
            · rintro (⟨r', e, _, h, _⟩ | ⟨s', e, _, _, h⟩ | ⟨r', s', e, _, h, _⟩)
              · rw [h, e]
              · exact absurd (h r rfl hr) (by rw [e]; exact hc)
              · exact absurd (e ▸ hr) h
        · rw [if_neg (fun c => hs c.1.2), if_neg (fun c => hs c.1.2), if_pos hr]
          constructor
          · intro h
            exact Or.inl ⟨r, rfl, hr, (Option.some.inj h).symm, fun s' e u => absurd (e ▸ u) hs⟩
          · rintro (⟨r', e, _, h, _⟩ | ⟨s', e, u, _, _⟩ | ⟨r', s', e, _, h, _⟩)
            · rw [h, e]
            · exact absurd (e ▸ u) hs
            · exact absurd (e ▸ hr) h
      · rw [if_neg (fun c => hr c.1.1), if_neg (fun c => hr c.1.1), if_neg hr]
        by_cases hs : Unit s
        · rw [if_pos hs]
          constructor
          · intro h
            exact Or.inr (Or.inl ⟨s, rfl, hs, (Option.some.inj h).symm, fun r' e u => absurd (e ▸ u) hr⟩)
          · rintro (⟨r', e, u, _, _⟩ | ⟨s', e, u, h, _⟩ | ⟨r', s', _, e, _, h, _⟩)
            · exact absurd (e ▸ u) hr
            · rw [h, e]
            · exact absurd (e ▸ hs) h
        · rw [if_neg hs]
          constructor
          · intro h
            refine Or.inr (Or.inr ⟨r, s, rfl, rfl, hr, hs, ?_⟩)
            rw [← Option.some.inj h]
            unfold scale add
            congr 1 <;> ring
          · rintro (⟨r', e, u, _, _⟩ | ⟨s', e, u, h, _⟩ | ⟨r', s', e, e', _, _, h⟩)
            · exact absurd (e ▸ u) hr
            · exact absurd (e ▸ u) hs
            · rw [h, e, e']
              unfold scale add
              congr 2 <;> ring

omit [LinearOrder K] [IsStrictOrderedRing K] in
theorem pulledTo_eq [CharZero K] (p a b c : Pt K) : pulledTo p a b c = goal p a b c := by
  unfold pulledTo goal add scale
  congr 1
  · simp only []; field_simp; ring
  · simp only []; field_simp; ring

/-- What the model asks of the new position of a node. -/
def Moves (g0 : Grid (Pt K)) (c : Nat → Nat → Pt K) (n m : Nat) (z : Pt K) : Prop :=
  (Inner g0 n m → z = relaxed c n m) ∧
  (EdgeN g0 n m → Slid (c n m) (c (n - 1) m) (c (n + 1) m)
    (goal (c n m) (c (n - 1) m) (c (n + 1) m) (c n (if aboveN g0 n m then m + 1 else m - 1))) z) ∧
  (EdgeM g0 n m → Slid (c n m) (c n (m - 1)) (c n (m + 1))
    (goal (c n m) (c n (m - 1)) (c n (m + 1)) (c (if aboveM g0 n m then n + 1 else n - 1) m)) z)

section
variable {P : Type} [PointLike P] {g : Grid P} {n m : Nat}

theorem Inner.not_edgeN (h : Inner g n m) : ¬ EdgeN g n m := by
  intro e
  have h1 := h.2.1
  rcases e.2.2.2.2 with c | c | c
  · omega
  · omega
  · exact c.2.2.2 (h.2.2.1.trans h.2.2.2.2.1.symm)

theorem Inner.not_edgeM (h : Inner g n m) : ¬ EdgeM g n m := by
  intro e
  have h1 := h.1
  rcases e.2.2.2.2 with c | c | c
  · omega
  · omega
  · exact c.2.2.2 (h.2.2.1.trans h.2.2.2.1.symm)

theorem EdgeN.not_edgeM (h : EdgeN g n m) : ¬ EdgeM g n m := by
  intro e
  have h1 := h.1
  have h2 := e.1
  rcases e.2.2.2.2 with c | c | c
  · omega
  · omega
  · rcases h.2.2.2.2 with d | d | d
    · omega
    · omega
    · exact c.2.2.2 d.2.1

theorem skipped_iff {t : NodeType} (h : Says g n m t) : skipped t = true ↔ ¬ (Inner g n m ∨ EdgeN g n m ∨ EdgeM g n m) := by
  cases t <;> simp only [skipped, Says] at * <;> simp_all

end

theorem position_iff {g0 : Grid (Pt K)} {n m : Nat} {t : NodeType} (h : Says g0 n m t) (hk : skipped t = false) (c : Nat → Nat → Pt K)
    (z : Pt K) : position t c n m = some z ↔ Moves g0 c n m z := by
  cases t
  case internal =>
    simp only [Says] at h
    simp only [Moves, h, h.not_edgeN, h.not_edgeM, forall_const, false_implies, and_true, position]
    constructor
    · intro e
      rw [← Option.some.inj e]
      unfold relaxed add scale
      congr 1
      · simp only []; ring
      · simp only []; ring
    · intro e
      rw [e]
      unfold relaxed add scale
      congr 2
      · simp only []; ring
      · simp only []; ring
  case bottom =>
    simp only [Says] at h
    have h1 : ¬ Inner g0 n m := fun c => c.not_edgeN h.1
    simp only [Moves, h.1, h1, h.1.not_edgeM, h.2, forall_const, false_implies, true_and, and_true, position, slide_iff, pulledTo_eq, if_true]
  case up =>
    simp only [Says] at h
    have h1 : ¬ Inner g0 n m := fun c => c.not_edgeN h.1
    simp only [Moves, h.1, h1, h.1.not_edgeM, h.2, forall_const, false_implies, true_and, and_true, position, slide_iff, pulledTo_eq,
      Bool.false_eq_true, if_false]
  case left =>
    simp only [Says] at h
    have h1 : ¬ Inner g0 n m := fun c => c.not_edgeM h.1
    have h2 : ¬ EdgeN g0 n m := fun c => c.not_edgeM h.1
    simp only [Moves, h.1, h1, h2, h.2, forall_const, false_implies, true_and, and_true, position, slide_iff, pulledTo_eq, if_true]
  case right =>
    simp only [Says] at h
    have h1 : ¬ Inner g0 n m := fun c => c.not_edgeM h.1
    have h2 : ¬ EdgeN g0 n m := fun c => c.not_edgeM h.1
    simp only [Moves, h.1, h1, h2, h.2, forall_const, false_implies, true_and, and_true, position, slide_iff, pulledTo_eq,
      Bool.false_eq_true, if_false]
  all_goals simp [skipped] at hk

omit [IsStrictOrderedRing K] in
theorem allNumbers_iff (types : Nat → Nat → NodeType) (c : Nat → Nat → Pt K) (lo up : Nat × Nat) :
    allNumbers types c lo up = true ↔ ∀ n m, Within lo up n m → skipped (types n m) = true ∨ ∃ z, position (types n m) c n m = some z := by
  unfold allNumbers Within
  simp only [List.all_eq_true, List.mem_range'_1, Bool.or_eq_true, Option.isSome_iff_exists]
  constructor
  · intro h n m w
    exact h n (by omega) m (by omega)
  · intro h n hn m hm
    exact h n m (by omega)

omit [IsStrictOrderedRing K] in
theorem smoothNode_ok (types : Nat → Nat → NodeType) (c : Nat → Nat → Pt K) (g h : Grid (Pt K)) (hs : SameShape g h) {n m : Nat}
    (hn : n < g.numN) (hm : m < g.numM) :
    smoothNode types c n m h = .ok { h with cell := upd h.cell (n + h.sn) (m + h.sm) (if skipped (types n m) then h.node n m else (position (types n m) c n m).getD inv) } := by
  unfold smoothNode
  split
  · rw [upd_same]
  · rw [setNode_ok _ (by rw [hs.numN]; exact hn) (by rw [hs.numM]; exact hm)]

omit [LinearOrder K] [IsStrictOrderedRing K] [Field K] in
theorem noHidden_cell {P : Type} {g : Grid P} (h : NoHidden g) : g.cell = g.node := by
  funext n m
  unfold Grid.node
  rw [h.1, h.2.1]
  rfl

theorem noHidden_same {P : Type} {g h : Grid P} (s : SameShape g h) (e : NoHidden g) : NoHidden h := by
  unfold NoHidden at *
  rw [s.sn, s.sm, s.en, s.em]
  exact e

instance (lo up : Nat × Nat) (n m : Nat) : Decidable (Within lo up n m) := by unfold Within; infer_instance

/-- One round. -/
theorem solve_ok (types : Nat → Nat → NodeType) (lo up : Nat × Nat) (g0 g : Grid (Pt K)) (hh : NoHidden g) (h0 : SameShape g0 g)
    (hz : ZoneIn lo up g) (ht : ∀ n m, n < g.numN → m < g.numM → Says g0 n m (types n m)) :
    ∃ r, solve types lo up g = .ok r ∧ ∀ g', r = some g' ↔ Step g0 lo up g g' := by
  have hup := hz.inside
  have hin : ∀ {n m}, Within lo up n m → n < g.numN ∧ m < g.numM := fun w => by unfold Within at w; omega
  have hnm : ∀ {n m}, Inner g0 n m → n < g.numN ∧ m < g.numM := fun w => by
    have := w.1; have := w.2.1; rw [h0.numN, h0.numM]; omega
  unfold solve
  by_cases ha : allNumbers types g.cell lo up = true
  · rw [if_pos ha, forBlock g lo.1 (up.1 + 1) lo.2 (up.2 + 1)
      (fun n m p => if skipped (types n m) then p else (position (types n m) g.cell n m).getD inv) (smoothNode types g.cell)
      (fun n m h h1 h2 h3 h4 hs => smoothNode_ok types g.cell g h hs (by omega) (by omega)), Res.ok_bind]
    refine ⟨_, rfl, fun g' => ?_⟩
    rw [allNumbers_iff] at ha
    set G := mapBlock g lo.1 (up.1 + 1) lo.2 (up.2 + 1)
      (fun n m p => if skipped (types n m) then p else (position (types n m) g.cell n m).getD inv) with hG
    have hnode : ∀ n m, G.node n m = if Within lo up n m ∧ skipped (types n m) = false then (position (types n m) g.cell n m).getD inv
        else g.node n m := by
      intro n m
      rw [hG, mapBlock_node]
      by_cases w : Within lo up n m
      · rw [if_pos (by unfold Within at w; omega)]
        cases hk : skipped (types n m)
        · rw [if_neg Bool.false_ne_true, if_pos ⟨w, rfl⟩]
        · rw [if_pos rfl, if_neg (by simp)]
      · rw [if_neg (by unfold Within at w; omega), if_neg (fun c => w c.1)]
    have hmov : ∀ n m, Within lo up n m → skipped (types n m) = false → Moves g0 g.node n m (G.node n m) := by
      intro n m w hk
      rcases ha n m w with h | ⟨z, hzz⟩
      · rw [hk] at h; cases h
      · rw [hnode, if_pos ⟨w, hk⟩, hzz]
        rw [noHidden_cell hh] at hzz
        exact (position_iff (ht n m (hin w).1 (hin w).2) hk _ z).1 hzz
    have hsk : ∀ {n m}, n < g.numN → m < g.numM → (skipped (types n m) = false ↔ (Inner g0 n m ∨ EdgeN g0 n m ∨ EdgeM g0 n m)) := by
      intro n m hn hm
      have := skipped_iff (ht n m hn hm)
      cases hk : skipped (types n m)
      · rw [hk] at this
        simp only [true_iff]
        by_contra c
        exact Bool.false_ne_true (this.2 c)
      · rw [hk] at this
        have := this.1 rfl
        simp [this]
    have key : Step g0 lo up g G := by
      refine ⟨mapBlock_shape .., fun i j h => mapBlock_hidden _ _ _ _ _ _ (by omega) (by omega) i j h, fun n m hn hm h => ?_,
        fun n m w h => ?_, fun n m hn hm w h => ?_, fun n m hn hm w h => ?_⟩
      · rw [hnode, if_neg]
        exact fun c => h ⟨c.1, (hsk hn hm).1 c.2⟩
      · exact (hmov n m w ((hsk (hin w).1 (hin w).2).2 (Or.inl h))).1 h
      · exact (hmov n m w ((hsk (hin w).1 (hin w).2).2 (Or.inr (Or.inl h)))).2.1 h
      · exact (hmov n m w ((hsk (hin w).1 (hin w).2).2 (Or.inr (Or.inr h)))).2.2 h
    constructor
    · intro e
      rw [← Option.some.inj e]
      exact key
    · intro s
      congr 1
      refine (Grid.ext_node (show SameShape G g' from ⟨s.shape.rows, s.shape.cols, s.shape.sn, s.shape.sm, s.shape.en, s.shape.em⟩) (fun n m hn hm => ?_)
        fun i j h => ?_).symm
      · have hn' : n < g.numN := hn
        have hm' : m < g.numM := hm
        by_cases c : Within lo up n m ∧ skipped (types n m) = false
        · obtain ⟨w, hk⟩ := c
          have mv : Moves g0 g.node n m (g'.node n m) :=
            ⟨fun h => s.inner n m w h, fun h => s.edgeN n m hn' hm' w h, fun h => s.edgeM n m hn' hm' w h⟩
          rw [← noHidden_cell hh] at mv
          have := (position_iff (ht n m hn' hm') hk _ _).2 mv
          rw [hnode, if_pos ⟨w, hk⟩, this]
          rfl
        · rw [hnode, if_neg c]
          exact s.stays n m hn' hm' (fun d => c ⟨d.1, (hsk hn' hm').2 d.2⟩)
      · rw [s.hidden i j h]
        exact (key.hidden i j h).symm
  · rw [if_neg ha]
    refine ⟨_, rfl, fun g' => ⟨fun e => (by cases e), fun s => ?_⟩⟩
    exfalso
    apply ha
    rw [allNumbers_iff]
    intro n m w
    cases hk : skipped (types n m)
    · have mv : Moves g0 g.node n m (g'.node n m) :=
        ⟨fun h => s.inner n m w h, fun h => s.edgeN n m (hin w).1 (hin w).2 w h, fun h => s.edgeM n m (hin w).1 (hin w).2 w h⟩
      rw [← noHidden_cell hh] at mv
      exact Or.inr ⟨_, (position_iff (ht n m (hin w).1 (hin w).2) hk _ _).2 mv⟩
    · exact Or.inl rfl

theorem rounds_ok (types : Nat → Nat → NodeType) (lo up : Nat × Nat) (g0 : Grid (Pt K)) (k : Nat) (g : Grid (Pt K)) (hh : NoHidden g)
    (h0 : SameShape g0 g) (hz : ZoneIn lo up g) (ht : ∀ n m, n < g.numN → m < g.numM → Says g0 n m (types n m)) :
    ∃ r, rounds types lo up k g = .ok r ∧ ∀ g', r = some g' ↔ Steps g0 lo up k g g' := by
  induction k generalizing g with
  | zero =>
    refine ⟨some g, rfl, fun g' => ⟨fun e => ?_, fun s => ?_⟩⟩
    · cases e; exact .zero g
    · cases s; rfl
  | succ k ih =>
    obtain ⟨r, h1, h2⟩ := solve_ok types lo up g0 g hh h0 hz ht
    cases r with
    | none =>
      refine ⟨none, by rw [rounds, h1, Res.ok_bind], fun g' => ⟨fun e => (by cases e), fun s => ?_⟩⟩
      cases s with
      | next s _ => cases (h2 _).2 s
    | some g1 =>
      have s1 := (h2 g1).1 rfl
      obtain ⟨r, h3, h4⟩ := ih g1 (noHidden_same s1.shape hh) (h0.trans s1.shape)
        ⟨hz.n, hz.m, by rw [s1.shape.numN, s1.shape.numM]; exact hz.inside⟩ (by rw [s1.shape.numN, s1.shape.numM]; exact ht)
      refine ⟨r, by rw [rounds, h1, Res.ok_bind]; exact h3, fun g' => ⟨fun e => .next s1 ((h4 g').1 e), fun s => ?_⟩⟩
      cases s with
      | next s t =>
        cases (h2 _).2 s
        exact (h4 g').2 t

end Verif.Smooth
