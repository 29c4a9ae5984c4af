import Verif.CurviLine.AttractLemmas
/-!
# Lemmas about shifting a grid line
-/
namespace Verif.CurviLine
open Verif.Curvi

variable {K : Type} [Field K] [LinearOrder K]

/-! ## Moved nodes before and after a node -/

theorem lastKnot_ge (moved : Nat → Bool) (start : Nat) : ∀ j, start ≤ lastKnot moved start j
  | 0 => Nat.le_refl _
  | j + 1 => by
    unfold lastKnot
    split
    · exact Nat.le_refl _
    · split
      · omega
      · exact lastKnot_ge moved start j

theorem lastKnot_le (moved : Nat → Bool) {start : Nat} : ∀ {j}, start ≤ j → lastKnot moved start j ≤ j
  | 0, h => h
  | j + 1, h => by
    unfold lastKnot
    split
    · exact h
    · split
      · exact Nat.le_refl _
      · have := lastKnot_le moved (start := start) (j := j) (by omega)
        omega

theorem lastKnot_small (moved : Nat → Bool) {start : Nat} : ∀ {j}, j ≤ start → lastKnot moved start j = start
  | 0, _ => rfl
  | j + 1, h => by unfold lastKnot; rw [if_pos h]

/-- Between the last moved node up to `k` and `k` nothing is moved. -/
theorem lastKnot_none (moved : Nat → Bool) {start : Nat} : ∀ {k x}, lastKnot moved start k < x → x ≤ k → moved x = false
  | 0, x, h, hx => by omega
  | k + 1, x, h, hx => by
    unfold lastKnot at h
    split at h
    · omega
    · split at h
      · omega
      · rename_i hm
        by_cases e : x = k + 1
        · subst e; simpa using hm
        · exact lastKnot_none moved h (by omega)

theorem lastKnot_stable (moved : Nat → Bool) {start : Nat} : ∀ {k j}, lastKnot moved start k ≤ j → j ≤ k →
    lastKnot moved start j = lastKnot moved start k
  | 0, j, h, hj => by
    have : j = 0 := by omega
    rw [this]
  | k + 1, j, h, hj => by
    by_cases e : j = k + 1
    · rw [e]
    · have hk : lastKnot moved start (k + 1) = if k + 1 ≤ start then start else if moved (k + 1) then k + 1 else lastKnot moved start k := rfl
      by_cases c : k + 1 ≤ start
      · rw [hk, if_pos c] at h ⊢
        exact lastKnot_small moved (by omega)
      · rw [if_neg c] at hk
        by_cases d : moved (k + 1) = true
        · rw [if_pos d] at hk
          rw [hk] at h
          omega
        · rw [if_neg d] at hk
          rw [hk] at h ⊢
          exact lastKnot_stable moved h (by omega)

theorem nextKnot_eq (moved : Nat → Bool) {stop i : Nat} (hi : i ≤ stop) (he : moved i = true ∨ i = stop) :
    ∀ k j, stop - j = k → j < i → (∀ x, j < x → x < i → moved x = false) → nextKnot moved k j = i
  | 0, j, hk, hj, _ => by omega
  | k + 1, j, hk, hj, hn => by
    unfold nextKnot
    by_cases c : moved (j + 1) = true
    · rw [if_pos c]
      by_contra d
      have := hn (j + 1) (by omega) (by omega)
      rw [c] at this
      cases this
    · rw [if_neg c]
      by_cases d : j + 1 = i
      · have : i = stop := he.resolve_left (fun e => c (by rw [d]; exact e))
        have : k = 0 := by omega
        subst this
        unfold nextKnot
        exact d
      · exact nextKnot_eq moved hi he k (j + 1) (by omega) (by omega) (fun x h1 h2 => hn x (by omega) h2)

/-! ## Writing nodes -/

theorem _root_.Verif.Curvi.Edited.set {P : Type} {g h : Grid P} {new : Nat → Nat → P} (he : Edited g h new) {n m : Nat} (hn : n < g.numN)
    (hm : m < g.numM) (p : P) :
    ∃ h', setNode h n m p = .ok h' ∧ Edited g h' (fun a b => if a = n ∧ b = m then p else new a b) := by
  refine ⟨_, setNode_ok p (by rw [he.shape.numN]; exact hn) (by rw [he.shape.numM]; exact hm), ?_, ?_, ?_⟩
  · exact he.shape.trans ⟨rfl, rfl, rfl, rfl, rfl, rfl⟩
  · intro a b ha hb
    show upd h.cell (n + h.sn) (m + h.sm) p (a + h.sn) (b + h.sm) = _
    rw [upd_shift]
    by_cases c : a = n ∧ b = m
    · rw [if_pos c, if_pos c]
    · rw [if_neg c, if_neg c]
      exact he.visible a b ha hb
  · intro i j hij
    show upd h.cell (n + h.sn) (m + h.sm) p i j = _
    unfold upd
    rw [if_neg]
    · exact he.hidden i j hij
    · rintro ⟨rfl, rfl⟩
      obtain ⟨h1, h2, h3, h4, h5, h6⟩ := he.shape
      apply hij
      omega

theorem _root_.Verif.Curvi.Edited.refl {P : Type} (g : Grid P) : Edited g g g.node := ⟨SameShape.refl g, fun _ _ _ _ => rfl, fun _ _ _ => rfl⟩

theorem _root_.Verif.Curvi.Edited.congr {P : Type} {g h : Grid P} {new new' : Nat → Nat → P} (he : Edited g h new)
    (e : ∀ n m, n < g.numN → m < g.numM → new n m = new' n m) : Edited g h new' :=
  ⟨he.shape, fun n m hn hm => (he.visible n m hn hm).trans (e n m hn hm), he.hidden⟩

/-- The node at coordinate `i` across and `j` along the line. -/
def Line.pos (l : Line) (i j : Nat) : Nat × Nat := if l.alongN then (j, i) else (i, j)

theorem at_across (l : Line) (i j : Nat) : l.across (l.pos i j) = i := by
  unfold Line.across Line.pos; cases l.alongN <;> rfl

theorem at_along (l : Line) (i j : Nat) : l.along (l.pos i j) = j := by
  unfold Line.along Line.pos; cases l.alongN <;> rfl

theorem eq_at_iff (l : Line) (v : Nat × Nat) (i j : Nat) : v = l.pos i j ↔ l.across v = i ∧ l.along v = j := by
  unfold Line.across Line.along Line.pos
  cases l.alongN
  · simp [Prod.ext_iff]
  · simp [Prod.ext_iff, and_comm]

theorem nodeAt_eq (l : Line) (j : Nat) : l.nodeAt j = l.pos l.const j := rfl

/-- Where a node moves to when the node of the line beside it, at coordinate `j`, moves by `s`. -/
def carriedBy (geo : Geo K) (orig : Grid (Pt K)) (l : Line) (lo up : Nat × Nat) (s : Pt K) (j n m : Nat) : Pt K :=
  add (orig.node n m) (fromFrame geo orig n m
    (scale (inFrame geo orig (l.nodeAt j).1 (l.nodeAt j).2 s) (fading geo (l.across (n, m)) l.const (l.across lo) (l.across up))))

theorem carry_eq (geo : Geo K) (orig : Grid (Pt K)) (l : Line) (lo up : Nat × Nat) (j : Nat) (g : Grid (Pt K)) :
    carry geo orig l lo up (l.nodeAt j) g = (do
      let delta ← moved orig g (l.nodeAt j)
      let d ← transform geo orig delta (l.nodeAt j).1 (l.nodeAt j).2 true
      forRange (l.across lo) (l.across up + 1) (fun i => carryNode geo orig l lo up d (l.pos i j).1 (l.pos i j).2) g) := by
  unfold carry Line.across Line.pos Line.nodeAt
  cases l.alongN <;> rfl

/-- Sizes that fit: the line and the zone lie in both grids. -/
structure Fits {P : Type} (orig g : Grid P) (l : Line) (lo up : Nat × Nat) : Prop where
  numN : orig.numN = g.numN
  numM : orig.numM = g.numM
  line : l.In g
  zone : ZoneIn lo up g

theorem Fits.at_in {P : Type} {orig g : Grid P} {l : Line} {lo up : Nat × Nat} (h : Fits orig g l lo up) {i j : Nat}
    (hi : i ≤ l.across up ∨ i = l.const) (hj : j ≤ l.stop) : (l.pos i j).1 < g.numN ∧ (l.pos i j).2 < g.numM := by
  have h1 := h.line.last
  have h2 := h.line.first
  have h3 := h.zone.inside
  unfold Line.across Line.stop Line.pos Line.const at *
  cases hN : l.alongN
  · simp only [hN, Bool.false_eq_true, if_false] at *; omega
  · simp only [hN, if_true] at *; omega

theorem carry_ok (geo : Geo K) {orig g h : Grid (Pt K)} {l : Line} {lo up : Nat × Nat} (hf : Fits orig g l lo up)
    {new : Nat → Nat → Pt K} (he : Edited g h new) {j : Nat} (hj : j ≤ l.stop) (s : Pt K)
    (hs : new (l.nodeAt j).1 (l.nodeAt j).2 = add (orig.node (l.nodeAt j).1 (l.nodeAt j).2) s) :
    ∃ h', carry geo orig l lo up (l.nodeAt j) h = .ok h' ∧
      Edited g h' (fun n m => if (l.across lo ≤ l.across (n, m) ∧ l.across (n, m) ≤ l.across up) ∧ l.along (n, m) = j ∧
        valid (orig.node n m) = true then carriedBy geo orig l lo up s j n m else new n m) := by
  have hv := hf.at_in (i := l.const) (j := j) (Or.inr rfl) hj
  rw [← nodeAt_eq] at hv
  rw [carry_eq]
  have hm : moved orig h (l.nodeAt j) = .ok s := by
    unfold moved
    rw [getNode_ok (by rw [he.shape.numN]; exact hv.1) (by rw [he.shape.numM]; exact hv.2), Res.ok_bind,
      getNode_ok (by rw [hf.numN]; exact hv.1) (by rw [hf.numM]; exact hv.2), Res.ok_bind, he.visible _ _ hv.1 hv.2, hs]
    unfold sub add
    simp
  rw [hm, Res.ok_bind, transform_ok geo orig s true (by rw [hf.numN]; exact hv.1) (by rw [hf.numM]; exact hv.2), Res.ok_bind, if_pos rfl]
  by_cases hle : l.across lo ≤ l.across up + 1
  · obtain ⟨h', h1, h2⟩ := forRange_inv (f := fun i => carryNode geo orig l lo up (inFrame geo orig (l.nodeAt j).1 (l.nodeAt j).2 s)
      (l.pos i j).1 (l.pos i j).2) (fun i h' => Edited g h' (fun n m => if (l.across lo ≤ l.across (n, m) ∧ l.across (n, m) < i) ∧
        l.along (n, m) = j ∧ valid (orig.node n m) = true then carriedBy geo orig l lo up s j n m else new n m)) hle
      (he.congr fun n m _ _ => by rw [if_neg (by omega)]) (fun i t hi1 hi2 ht => by
        have hp := hf.at_in (i := i) (j := j) (Or.inl (by omega)) hj
        unfold carryNode
        rw [getNode_ok (by rw [hf.numN]; exact hp.1) (by rw [hf.numM]; exact hp.2), Res.ok_bind]
        by_cases hval : valid (orig.node (l.pos i j).1 (l.pos i j).2) = true
        · rw [if_neg (by simp [hval]), transform_ok geo orig _ false (by rw [hf.numN]; exact hp.1) (by rw [hf.numM]; exact hp.2),
            Res.ok_bind, if_neg Bool.false_ne_true]
          obtain ⟨t', h3, h4⟩ := ht.set hp.1 hp.2 (add (orig.node (l.pos i j).1 (l.pos i j).2) (fromFrame geo orig (l.pos i j).1 (l.pos i j).2
            (scale (inFrame geo orig (l.nodeAt j).1 (l.nodeAt j).2 s) (lineFactor geo l lo up (l.pos i j).1 (l.pos i j).2))))
          refine ⟨t', h3, h4.congr fun n m _ _ => ?_⟩
          have hiff := eq_at_iff l (n, m) i j
          by_cases c : n = (l.pos i j).1 ∧ m = (l.pos i j).2
          · have e : (n, m) = l.pos i j := Prod.ext c.1 c.2
            have e' := hiff.1 e
            rw [if_pos c, if_pos ⟨⟨by omega, by omega⟩, e'.2, by rw [c.1, c.2]; exact hval⟩]
            unfold carriedBy
            rw [← c.1, ← c.2, lineFactor_eq geo l (by omega) (by omega)]
          · have e : ¬ (l.across (n, m) = i ∧ l.along (n, m) = j) := fun q => c (Prod.ext_iff.1 (hiff.2 q))
            rw [if_neg c]
            by_cases q : (l.across lo ≤ l.across (n, m) ∧ l.across (n, m) < i) ∧ l.along (n, m) = j ∧ valid (orig.node n m) = true
            · rw [if_pos q, if_pos ⟨⟨q.1.1, by omega⟩, q.2⟩]
            · rw [if_neg q, if_neg (fun w => q ⟨⟨w.1.1, by have := w.2.1; omega⟩, w.2⟩)]
        · rw [if_pos (by simp [hval])]
          refine ⟨t, rfl, ht.congr fun n m _ _ => ?_⟩
          by_cases q : (l.across lo ≤ l.across (n, m) ∧ l.across (n, m) < i) ∧ l.along (n, m) = j ∧ valid (orig.node n m) = true
          · rw [if_pos q, if_pos ⟨⟨q.1.1, by omega⟩, q.2⟩]
          · rw [if_neg q, if_neg (fun w => q ⟨⟨w.1.1, ?_⟩, w.2⟩)]
            by_contra c
            have : (n, m) = l.pos i j := (eq_at_iff l (n, m) i j).2 ⟨by omega, w.2.1⟩
            rw [← this] at hval
            exact hval w.2.2)
    refine ⟨h', h1, h2.congr fun n m _ _ => ?_⟩
    by_cases q : (l.across lo ≤ l.across (n, m) ∧ l.across (n, m) < l.across up + 1) ∧ l.along (n, m) = j ∧ valid (orig.node n m) = true
    · rw [if_pos q, if_pos ⟨⟨q.1.1, by omega⟩, q.2⟩]
    · rw [if_neg q, if_neg (fun w => q ⟨⟨w.1.1, by omega⟩, w.2⟩)]
  · rw [forRange_empty (by omega)]
    exact ⟨h, rfl, he.congr fun n m _ _ => by rw [if_neg (by omega)]⟩

/-! ## The loop -/

/-- The nodes once the columns before `k` have been treated. -/
def shiftedTo (geo : Geo K) (eps : K) (orig g : Grid (Pt K)) (l : Line) (lo up : Nat × Nat) (k n m : Nat) : Pt K :=
  if l.Zone lo up (n, m) ∧ l.along (n, m) < k ∧ valid (orig.node n m) = true then carried geo eps orig g l lo up n m
  else if l.On (n, m) ∧ l.along (n, m) < k then add (orig.node n m) (share eps orig g l (l.along (n, m)))
  else g.node n m

theorem shareNode_ok (geo : Geo K) (eps : K) {orig g h : Grid (Pt K)} {l : Line} {lo up : Nat × Nat} (hf : Fits orig g l lo up)
    {j prev i : Nat} (h1 : l.start ≤ j) (hj : j ≤ l.stop) (prevDelta delta : Pt K)
    (hs : add (scale prevDelta (1 - ((j - prev : Nat) : K) / ((i - prev : Nat) : K))) (scale delta (((j - prev : Nat) : K) / ((i - prev : Nat) : K))) =
      share eps orig g l j)
    (he : Edited g h (shiftedTo geo eps orig g l lo up j)) :
    ∃ h', shareNode geo orig l lo up prev i prevDelta delta j h = .ok h' ∧ Edited g h' (shiftedTo geo eps orig g l lo up (j + 1)) := by
  have hv := hf.at_in (i := l.const) (j := j) (Or.inr rfl) hj
  rw [← nodeAt_eq] at hv
  unfold shareNode
  simp only
  rw [getNode_ok (by rw [hf.numN]; exact hv.1) (by rw [hf.numM]; exact hv.2), Res.ok_bind]
  have hp : add (add (orig.node (l.nodeAt j).1 (l.nodeAt j).2) (scale prevDelta (1 - ((j - prev : Nat) : K) / ((i - prev : Nat) : K))))
      (scale delta (((j - prev : Nat) : K) / ((i - prev : Nat) : K))) = add (orig.node (l.nodeAt j).1 (l.nodeAt j).2) (share eps orig g l j) := by
    rw [← hs]
    unfold add
    simp only [add_assoc]
  rw [hp]
  obtain ⟨t, h3, h4⟩ := he.set hv.1 hv.2 (add (orig.node (l.nodeAt j).1 (l.nodeAt j).2) (share eps orig g l j))
  rw [h3, Res.ok_bind]
  obtain ⟨t', h5, h6⟩ := carry_ok geo hf h4 hj (share eps orig g l j) (by rw [if_pos ⟨rfl, rfl⟩])
  refine ⟨t', h5, h6.congr fun n m _ _ => ?_⟩
  have hat := eq_at_iff l (n, m) l.const j
  rw [← nodeAt_eq] at hat
  have hat' : (n = (l.nodeAt j).1 ∧ m = (l.nodeAt j).2) ↔ l.across (n, m) = l.const ∧ l.along (n, m) = j := by
    rw [← hat, Prod.ext_iff]
  have hnew : ∀ k, shiftedTo geo eps orig g l lo up k n m =
    if l.Zone lo up (n, m) ∧ l.along (n, m) < k ∧ valid (orig.node n m) = true then carried geo eps orig g l lo up n m
    else if l.On (n, m) ∧ l.along (n, m) < k then add (orig.node n m) (share eps orig g l (l.along (n, m)))
    else g.node n m := fun k => rfl
  by_cases c : l.along (n, m) = j
  · have hold : shiftedTo geo eps orig g l lo up j n m = g.node n m := by
      rw [hnew, if_neg (fun w => by have := w.2.1; omega), if_neg (fun w => by have := w.2; omega)]
    by_cases z : (l.across lo ≤ l.across (n, m) ∧ l.across (n, m) ≤ l.across up) ∧ l.along (n, m) = j ∧ valid (orig.node n m) = true
    · rw [if_pos z, hnew, if_pos ⟨⟨by omega, z.1⟩, by omega, z.2.2⟩]
      unfold carriedBy carried
      simp only
      rw [c]
    · have z' : ¬ (l.Zone lo up (n, m) ∧ l.along (n, m) < j + 1 ∧ valid (orig.node n m) = true) := fun w => z ⟨w.1.2, c, w.2.2⟩
      rw [if_neg z, hnew (j + 1), if_neg z']
      by_cases o : l.across (n, m) = l.const
      · have e := hat'.2 ⟨o, c⟩
        have o' : l.On (n, m) ∧ l.along (n, m) < j + 1 := ⟨⟨o, by omega⟩, by omega⟩
        rw [if_pos e, if_pos o', c, ← e.1, ← e.2]
      · have e : ¬ (n = (l.nodeAt j).1 ∧ m = (l.nodeAt j).2) := fun q => o (hat'.1 q).1
        have o' : ¬ (l.On (n, m) ∧ l.along (n, m) < j + 1) := fun q => o q.1.1
        rw [if_neg e, if_neg o', hold]
  · have e : ¬ (n = (l.nodeAt j).1 ∧ m = (l.nodeAt j).2) := fun q => c (hat'.1 q).2
    have z : ¬ ((l.across lo ≤ l.across (n, m) ∧ l.across (n, m) ≤ l.across up) ∧ l.along (n, m) = j ∧ valid (orig.node n m) = true) :=
      fun w => c w.2.1
    rw [if_neg z, if_neg e, hnew, hnew]
    have e1 : l.along (n, m) < j + 1 ↔ l.along (n, m) < j := by omega
    simp only [e1]

theorem nodeAt_not_on (l : Line) {j : Nat} (h : j < l.start) : ¬ l.On (l.nodeAt j) := by
  rintro ⟨-, h1, -⟩
  rw [nodeAt_eq, at_along] at h1
  omega

theorem knot_of_zero {eps : K} (heps : 0 < eps) {orig g : Grid (Pt K)} {l : Line} {j : Nat} (h : moveAt orig g l j = ⟨0, 0⟩) [IsStrictOrderedRing K] :
    knot eps orig g l j = false := by
  unfold knot
  rw [h]
  simp [heps]

variable [IsStrictOrderedRing K]

/-- The state before round `i`. -/
structure Before (geo : Geo K) (eps : K) (orig g : Grid (Pt K)) (l : Line) (lo up : Nat × Nat) (i : Nat) (s : ShiftState K) : Prop where
  prev : i ≤ l.stop → s.prev = lastKnot (knot eps orig g l) l.start (i - 1)
  delta : i ≤ l.stop → s.delta = moveAt orig g l s.prev
  grid : Edited g s.grid (shiftedTo geo eps orig g l lo up (if i ≤ l.stop then s.prev else l.stop + 1))

theorem shiftStep_ok (geo : Geo K) (eps : K) {orig g : Grid (Pt K)} {l : Line} {lo up : Nat × Nat} (hf : Fits orig g l lo up)
    (hq : ∀ j, j < l.start → knot eps orig g l j = false) {i : Nat} (h1 : 1 ≤ i) (h2 : i ≤ l.stop) {s : ShiftState K}
    (hb : Before geo eps orig g l lo up i s) :
    ∃ s', shiftStep geo eps orig l lo up i s = .ok s' ∧ Before geo eps orig g l lo up (i + 1) s' := by
  have hss := hf.line.lt
  obtain ⟨hprev, hdelta, hgrid⟩ := hb
  replace hprev := hprev h2
  replace hdelta := hdelta h2
  rw [if_pos h2] at hgrid
  have hv := hf.at_in (i := l.const) (j := i) (Or.inr rfl) h2
  rw [← nodeAt_eq] at hv
  have hge : l.start ≤ s.prev := by rw [hprev]; exact lastKnot_ge _ _ _
  have hlt : l.start < i → s.prev < i := by
    intro h
    rw [hprev]
    have := lastKnot_le (knot eps orig g l) (start := l.start) (j := i - 1) (by omega)
    omega
  have hmv : moved orig s.grid (l.nodeAt i) = .ok (moveAt orig g l i) := by
    unfold moved
    rw [getNode_ok (by rw [hgrid.shape.numN]; exact hv.1) (by rw [hgrid.shape.numM]; exact hv.2), Res.ok_bind,
      getNode_ok (by rw [hf.numN]; exact hv.1) (by rw [hf.numM]; exact hv.2), Res.ok_bind, hgrid.visible _ _ hv.1 hv.2]
    have hal : l.along ((l.nodeAt i).1, (l.nodeAt i).2) = i := by rw [nodeAt_eq]; exact at_along l _ i
    have hno : ¬ l.along ((l.nodeAt i).1, (l.nodeAt i).2) < s.prev ∨ ¬ (l.start ≤ l.along ((l.nodeAt i).1, (l.nodeAt i).2)) := by
      rw [hal]
      by_cases c : l.start < i
      · left; have := hlt c; omega
      · by_cases d : i = l.start
        · left
          have : s.prev = l.start := by rw [hprev]; exact lastKnot_small _ (by omega)
          omega
        · right; omega
    unfold shiftedTo
    rw [if_neg (fun w => hno.elim (fun q => q w.2.1) (fun q => q w.1.1.1)), if_neg (fun w => hno.elim (fun q => q w.2) (fun q => q w.1.2.1))]
    rfl
  unfold shiftStep
  rw [hmv, Res.ok_bind]
  by_cases hk : knot eps orig g l i = true ∨ i = l.stop
  · have hcond : ¬ (|(moveAt orig g l i).x| < eps ∧ |(moveAt orig g l i).y| < eps ∧ i ≠ l.stop) := by
      rintro ⟨c1, c2, c3⟩
      rcases hk with hk | hk
      · unfold knot at hk
        simp [c1, c2] at hk
      · exact c3 hk
    rw [if_neg hcond]
    have hsi : l.start ≤ i := by
      by_contra c
      rcases hk with hk | hk
      · rw [hq i (by omega)] at hk; cases hk
      · omega
    have hle : s.prev ≤ (if i = l.stop then i else i - 1) + 1 := by
      by_cases c : l.start < i
      · have := hlt c
        split <;> omega
      · have : s.prev = l.start := by rw [hprev]; exact lastKnot_small _ (by omega)
        split <;> omega
    obtain ⟨t, h3, h4⟩ := forRange_inv (f := shareNode geo orig l lo up s.prev i s.delta (moveAt orig g l i))
      (fun j t => Edited g t (shiftedTo geo eps orig g l lo up j)) hle hgrid (fun j t hj1 hj2 ht => by
        have hji : j ≤ i := by split at hj2 <;> omega
        have hpi : s.prev < i := by
          by_contra c
          have : ¬ l.start < i := fun q => c (hlt q)
          split at hj2 <;> omega
        refine shareNode_ok geo eps hf (by omega) (by omega) _ _ ?_ ht
        by_cases hjs : j = l.stop
        · have hi : i = l.stop := by split at hj2 <;> omega
          have hne : (((i - s.prev : Nat) : K)) ≠ 0 := by
            have : 0 < i - s.prev := by omega
            exact_mod_cast this.ne'
          unfold share
          rw [if_pos hjs, hjs, ← hi, div_self hne]
          unfold add scale
          simp
        · have hji' : j < i := by
            split at hj2
            · omega
            · omega
          unfold share
          rw [if_neg hjs]
          simp only
          rw [lastKnot_stable (knot eps orig g l) (k := i - 1) (j := j) (by omega) (by omega), ← hprev, ← hdelta,
            nextKnot_eq (knot eps orig g l) h2 hk (l.stop - j) j rfl hji' (fun x hx1 hx2 =>
              lastKnot_none (knot eps orig g l) (start := l.start) (k := i - 1) (x := x) (by omega) (by omega))])
    rw [h3, Res.ok_bind]
    refine ⟨_, rfl, ?_, ?_, ?_⟩
    · intro h5
      show i = lastKnot _ _ (i + 1 - 1)
      rw [Nat.add_sub_cancel]
      have hk' : knot eps orig g l i = true := hk.resolve_right (by omega)
      obtain ⟨q, rfl⟩ : ∃ q, i = q + 1 := ⟨i - 1, by omega⟩
      unfold lastKnot
      split
      · omega
      · rfl
    · intro _
      rfl
    · show Edited g t _
      by_cases c : i = l.stop
      · rw [if_neg (by omega)]
        rw [if_pos c, c] at h4
        exact h4
      · rw [if_pos (by omega)]
        rw [if_neg c, Nat.sub_add_cancel h1] at h4
        exact h4
  · have hk1 : knot eps orig g l i = false := by
      cases c : knot eps orig g l i
      · rfl
      · exact absurd (Or.inl c) hk
    have hk2 : i ≠ l.stop := fun c => hk (Or.inr c)
    have hcond : |(moveAt orig g l i).x| < eps ∧ |(moveAt orig g l i).y| < eps ∧ i ≠ l.stop := by
      unfold knot at hk1
      simp only [Bool.not_eq_false', Bool.and_eq_true, decide_eq_true_eq] at hk1
      exact ⟨hk1.1, hk1.2, hk2⟩
    rw [if_pos hcond]
    have hsame : lastKnot (knot eps orig g l) l.start (i + 1 - 1) = lastKnot (knot eps orig g l) l.start (i - 1) := by
      rw [Nat.add_sub_cancel]
      obtain ⟨q, rfl⟩ : ∃ q, i = q + 1 := ⟨i - 1, by omega⟩
      rw [Nat.add_sub_cancel]
      conv_lhs => unfold lastKnot
      split
      · rw [lastKnot_small _ (by omega)]
      · rw [hk1, if_neg Bool.false_ne_true]
    refine ⟨s, rfl, ?_, ?_, ?_⟩
    · intro _; rw [hsame]; exact hprev
    · intro _; exact hdelta
    · rw [if_pos (by omega)]; exact hgrid

/-- What `Compute` does, for any line and zone. -/
theorem shift_general (geo : Geo K) (eps : K) {orig g : Grid (Pt K)} {l : Line} (ls : List Line) {lo up : Nat × Nat}
    (hf : Fits orig g l lo up) (hq : ∀ j, j < l.start → knot eps orig g l j = false) :
    ∃ g', shift geo eps orig g (l :: ls) lo up = .ok (g', .block ⟨(regionOf l lo up).1.1, (regionOf l lo up).1.2,
        (regionOf l lo up).2.1 + 1, (regionOf l lo up).2.2 + 1, savedNodes g (regionOf l lo up).1.1 (regionOf l lo up).1.2
        ((regionOf l lo up).2.1 + 1) ((regionOf l lo up).2.2 + 1)⟩) ∧
      Edited g g' (shiftedTo geo eps orig g l lo up (l.stop + 1)) := by
  obtain ⟨r1, r2, r3, r4⟩ := region_in hf.line hf.zone
  have hss := hf.line.lt
  have hfirst : l.first = l.nodeAt l.start := by
    unfold Line.nodeAt Line.start Line.const
    cases l.alongN <;> rfl
  have hv := hf.at_in (i := l.const) (j := l.start) (Or.inr rfl) (by omega)
  rw [← nodeAt_eq] at hv
  have hmv : moved orig g l.first = .ok (moveAt orig g l l.start) := by
    rw [hfirst]
    unfold moved
    rw [getNode_ok hv.1 hv.2, Res.ok_bind, getNode_ok (by rw [hf.numN]; exact hv.1) (by rw [hf.numM]; exact hv.2), Res.ok_bind]
    rfl
  obtain ⟨s, h1, h2⟩ := forRange_inv (f := shiftStep geo eps orig l lo up) (fun i s => Before geo eps orig g l lo up i s)
    (lo := 1) (hi := l.stop + 1) (by omega) (s := ⟨g, l.start, moveAt orig g l l.start⟩)
    ⟨fun _ => rfl, fun _ => rfl, by
      rw [if_pos (by omega)]
      refine (Edited.refl g).congr fun n m _ _ => ?_
      unfold shiftedTo
      rw [if_neg, if_neg]
      · rintro ⟨w, w'⟩
        have := w.2.1
        show False
        simp only at w'
        omega
      · rintro ⟨w, w', -⟩
        have := w.1.1
        simp only at w'
        omega⟩
    (fun i t hi1 hi2 ht => shiftStep_ok geo eps hf hq hi1 (by omega) ht)
  refine ⟨s.grid, ?_, ?_⟩
  · unfold shift
    simp only
    rw [saveBlock_ok g _ _ _ _ (by omega) (by omega) (by omega) (by omega), Res.ok_bind, hmv, Res.ok_bind, h1, Res.ok_bind]
  · have := h2.grid
    rwa [if_neg (by omega)] at this

end Verif.CurviLine
