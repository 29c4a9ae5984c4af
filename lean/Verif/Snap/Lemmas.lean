import Verif.Snap.Spec
import Verif.CurviLine.AttractLemmas
/-!
# Lemmas about snapping a grid line
-/
namespace Verif.Snap
open Verif.Curvi Verif.CurviLine

/-! ## Loops over blocks, column by column -/

section
variable {P : Type}

theorem mapBlock_col_step (g : Grid P) (m a n : Nat) (φ : Nat → Nat → P → P) (h : a ≤ n) :
    { mapBlock g a n m (m + 1) φ with
      cell := upd (mapBlock g a n m (m + 1) φ).cell (n + (mapBlock g a n m (m + 1) φ).sn)
        (m + (mapBlock g a n m (m + 1) φ).sm) (φ n m ((mapBlock g a n m (m + 1) φ).node n m)) } =
      mapBlock g a (n + 1) m (m + 1) φ := by
  refine Grid.ext' ⟨rfl, rfl, rfl, rfl, rfl, rfl⟩ fun i j => ?_
  show upd (mapBlock g a n m (m + 1) φ).cell (n + g.sn) (m + g.sm) (φ n m ((mapBlock g a n m (m + 1) φ).node n m)) i j = _
  rw [mapBlock_node, if_neg (by omega)]
  unfold upd mapBlock Grid.node
  simp only
  by_cases e : i = n + g.sn ∧ j = m + g.sm
  · obtain ⟨rfl, rfl⟩ := e
    rw [if_pos ⟨rfl, rfl⟩, if_pos (by omega)]
    simp
  · rw [if_neg e]
    by_cases c : (a + g.sn ≤ i ∧ i < n + g.sn) ∧ m + g.sm ≤ j ∧ j < m + 1 + g.sm
    · rw [if_pos c, if_pos (by omega)]
    · rw [if_neg c, if_neg (by omega)]

theorem mapBlock_cols_step (g : Grid P) (a b c m : Nat) (φ : Nat → Nat → P → P) (h : c ≤ m) :
    mapBlock (mapBlock g a b c m φ) a b m (m + 1) φ = mapBlock g a b c (m + 1) φ := by
  refine Grid.ext' ⟨rfl, rfl, rfl, rfl, rfl, rfl⟩ fun i j => ?_
  unfold mapBlock
  simp only
  by_cases e : (a + g.sn ≤ i ∧ i < b + g.sn) ∧ m + g.sm ≤ j ∧ j < m + 1 + g.sm
  · rw [if_pos e, if_neg (by omega), if_pos (by omega)]
  · rw [if_neg e]
    by_cases c1 : (a + g.sn ≤ i ∧ i < b + g.sn) ∧ c + g.sm ≤ j ∧ j < m + g.sm
    · rw [if_pos c1, if_pos (by omega)]
    · rw [if_neg c1, if_neg (by omega)]

/-- A double loop over columns that changes every node of a block once and keeps the node `v`. -/
theorem forCols (g : Grid P) (v : Nat × Nat) (q : P) (a b c d : Nat) (φ : Nat → Nat → P → P)
    (body : Nat → Nat → Grid P → Res (Grid P)) (hv : g.node v.1 v.2 = q) (hq : φ v.1 v.2 q = q)
    (hb : ∀ n m h, a ≤ n → n < b → c ≤ m → m < d → SameShape g h → h.node v.1 v.2 = q →
      body m n h = .ok { h with cell := upd h.cell (n + h.sn) (m + h.sm) (φ n m (h.node n m)) }) :
    forRange c d (fun m => forRange a b (body m)) g = .ok (mapBlock g a b c d φ) := by
  have keep : ∀ (h : Grid P) a b c d, h.node v.1 v.2 = q → (mapBlock h a b c d φ).node v.1 v.2 = q := by
    intro h a b c d hh
    rw [mapBlock_node, hh, hq]
    split <;> rfl
  by_cases hcd : c ≤ d
  · by_cases hab : a ≤ b
    · have h := forRange_eq (f := fun m => forRange a b (body m)) (fun m => mapBlock g a b c m φ) hcd (by
        intro m h1 h2
        show forRange a b (body m) _ = _
        have h3 := forRange_eq (f := body m) (fun n => mapBlock (mapBlock g a b c m φ) a n m (m + 1) φ) hab (by
          intro n h3 h4
          rw [hb n m (mapBlock (mapBlock g a b c m φ) a n m (m + 1) φ) h3 h4 h1 h2 ⟨rfl, rfl, rfl, rfl, rfl, rfl⟩
            (keep _ _ _ _ _ (keep _ _ _ _ _ hv)), mapBlock_col_step _ _ _ _ _ h3])
        rw [mapBlock_empty _ a a m (m + 1) φ (Or.inl (Nat.le_refl _))] at h3
        rw [h3, mapBlock_cols_step _ _ _ _ _ _ h1])
      rwa [mapBlock_empty g a b c c φ (Or.inr (Nat.le_refl _))] at h
    · have h := forRange_eq (f := fun m => forRange a b (body m)) (fun _ => g) hcd (by
        intro m _ _
        show forRange a b (body m) _ = _
        rw [forRange_empty (by omega)])
      rw [h, mapBlock_empty _ _ _ _ _ _ (by omega)]
  · rw [forRange_empty (by omega), mapBlock_empty _ _ _ _ _ _ (by omega)]

end

variable {K : Type} [Field K] [LinearOrder K]

/-! ## One node of the line -/

theorem place_ok (f : K) (p delta : Pt K) {n m : Nat} {h : Grid (Pt K)} (hn : n < h.numN) (hm : m < h.numM) :
    place f p delta n m h = .ok { h with cell := upd h.cell (n + h.sn) (m + h.sm) (if f > 0 then add p (scale delta f) else h.node n m) } := by
  unfold place
  by_cases c : f > 0
  · rw [if_pos c, if_pos c, setNode_ok _ hn hm]
  · rw [if_neg c, if_neg c, upd_same]

theorem carryNode_ok (o : Means K) (orig : Grid (Pt K)) (z : Zone) (v : Nat × Nat) (delta : Pt K) {n m : Nat} {h : Grid (Pt K)} (f : K)
    (hn : n < h.numN) (hm : m < h.numM) (hn' : n < orig.numN) (hm' : m < orig.numM) (hf : factorOf o orig h z v (n, m) = .ok f) :
    carryNode o orig z v delta m n h = .ok { h with cell := upd h.cell (n + h.sn) (m + h.sm) (if valid (orig.node n m) = true ∧ f > 0 then add (orig.node n m) (scale delta f) else h.node n m) } := by
  unfold carryNode
  rw [getNode_ok hn' hm', Res.ok_bind, hf, Res.ok_bind, place_ok f _ _ hn hm]
  by_cases c : valid (orig.node n m) = true
  · rw [if_pos c]
    simp only [c, true_and]
  · rw [if_neg c, if_neg (fun d => c d.1), upd_same]

omit [Field K] [LinearOrder K] in
theorem bounds_in {g : Grid (Pt K)} {z : Zone} {v : Nat × Nat} (hv : In g v) (hz : z.user = true → In g z.up) :
    (bounds g z v).2.1 < g.numN ∧ (bounds g z v).2.2 < g.numM := by
  unfold bounds
  unfold In at hv hz
  by_cases c : z.user = true
  · have := hz c
    rw [if_pos c]
    unfold userUp
    simp only
    omega
  · rw [if_neg c]
    unfold presetUp
    simp only
    omega

omit [Field K] [LinearOrder K] in
/-- Only the shape is used of the grid that is being changed. -/
theorem bounds_congr {g h : Grid (Pt K)} (hs : SameShape g h) (z : Zone) (v : Nat × Nat) : bounds h z v = bounds g z v := by
  unfold bounds
  rw [hs.numN, hs.numM]

/-- The factor while the node of the line is at `q`. -/
def shareOf (o : Means K) (orig : Grid (Pt K)) (z : Zone) (v : Nat × Nat) (q : Pt K) (w : Nat × Nat) : K :=
  if z.user then userFactor o z v w else presetShare o (orig.node v.1 v.2) q (orig.node w.1 w.2)

theorem factorOf_ok (o : Means K) {orig h : Grid (Pt K)} (z : Zone) {v w : Nat × Nat} {q : Pt K} (h1 : In h v) (h2 : In orig v)
    (h3 : In orig w) (hq : h.node v.1 v.2 = q) : factorOf o orig h z v w = .ok (shareOf o orig z v q w) := by
  unfold factorOf shareOf
  by_cases c : z.user = true
  · rw [if_pos c, if_pos c]
  · rw [if_neg c, if_neg c]
    unfold presetFactor
    rw [getNode_ok h1.1 h1.2, Res.ok_bind, getNode_ok h2.1 h2.2, Res.ok_bind, getNode_ok h3.1 h3.2, Res.ok_bind, hq]
    rfl

omit [LinearOrder K] in
theorem add_sub_one (p q : Pt K) : add p (scale (sub q p) 1) = q := by
  simp [add, scale, sub]

/-- What `carryAll` makes of a node. -/
def carried (o : Means K) (orig : Grid (Pt K)) (z : Zone) (v : Nat × Nat) (q : Pt K) (n m : Nat) (old : Pt K) : Pt K :=
  if valid (orig.node n m) = true ∧ shareOf o orig z v q (n, m) > 0 then
    add (orig.node n m) (scale (sub q (orig.node v.1 v.2)) (shareOf o orig z v q (n, m))) else old

theorem carryAll_ok (o : Means K) {orig h : Grid (Pt K)} (z : Zone) {v : Nat × Nat} {q : Pt K} (h1 : In h v)
    (hz : z.user = true → In h z.up) (hN : h.numN ≤ orig.numN) (hM : h.numM ≤ orig.numM) (hq : h.node v.1 v.2 = q)
    (hself : shareOf o orig z v q v = 1 ∨ shareOf o orig z v q v ≤ 0) :
    carryAll o orig z v h = .ok (mapBlock h (bounds h z v).1.1 ((bounds h z v).2.1 + 1) (bounds h z v).1.2 ((bounds h z v).2.2 + 1)
      (carried o orig z v q)) := by
  have h2 : In orig v := ⟨by have := h1.1; omega, by have := h1.2; omega⟩
  have hb := bounds_in h1 hz
  unfold carryAll
  simp only
  rw [getNode_ok h1.1 h1.2, Res.ok_bind, getNode_ok h2.1 h2.2, Res.ok_bind, hq]
  refine forCols h v q _ _ _ _ (carried o orig z v q) (carryNode o orig z v (sub q (orig.node v.1 v.2))) hq ?_ ?_
  · unfold carried
    rcases hself with e | e
    · rw [e, add_sub_one]
      split <;> rfl
    · rw [if_neg (fun c => absurd c.2 (not_lt.2 e))]
  · intro n m k hn1 hn2 hm1 hm2 hs hk
    have hkv : In k v := ⟨by rw [hs.numN]; exact h1.1, by rw [hs.numM]; exact h1.2⟩
    have hn : n < h.numN := by omega
    have hm : m < h.numM := by omega
    exact carryNode_ok o orig z v _ (shareOf o orig z v q (n, m)) (by rw [hs.numN]; exact hn) (by rw [hs.numM]; exact hm) (by omega) (by omega)
      (factorOf_ok o z hkv h2 ⟨by show n < _; omega, by show m < _; omega⟩ hk)

/-! ## Factors at the line itself -/

variable [IsStrictOrderedRing K]

theorem dist_self {geo : Geo K} (hgeo : geo.Good) (p : Pt K) : geo.dist p p = 0 := by
  have := hgeo.dist_sq p p
  simpa using this

omit [IsStrictOrderedRing K] in
theorem factor_self {geo : Geo K} (hgeo : geo.Good) (x lo up : Nat) : factor geo x x lo up = 1 := by
  unfold factor
  simp [hgeo.bell_line]

theorem shareOf_self {o : Means K} (ho : o.Good) (orig : Grid (Pt K)) (z : Zone) (v : Nat × Nat) (q : Pt K) :
    shareOf o orig z v q v = 1 ∨ shareOf o orig z v q v ≤ 0 := by
  unfold shareOf
  split
  · unfold userFactor
    simp only
    rw [factor_self ho.geo, factor_self ho.geo, mul_one, ho.root_one]
    split
    · exact Or.inl rfl
    · split
      · exact Or.inl rfl
      · split
        · exact Or.inl rfl
        · exact Or.inr le_rfl
  · unfold presetShare
    rw [dist_self ho.geo]
    split
    · rename_i h
      exact Or.inl (ho.hump_zero _ h)
    · exact Or.inr le_rfl

omit [IsStrictOrderedRing K] in
theorem closeNumbers_iff (a b : K) : closeNumbers a b = true ↔ (a = b ∨ |a - b| < 1 / 100000 * min |a| |b|) := by
  unfold closeNumbers
  simp

omit [IsStrictOrderedRing K] in
theorem closePoints_iff (p q : Pt K) : closePoints p q = true ↔ Near p q := by
  unfold closePoints Near
  rw [Bool.and_eq_true, closeNumbers_iff, closeNumbers_iff]

open Classical in
/-- What the round for node `v` of the line makes of a node. -/
noncomputable def snapped (o : Means K) (orig g : Grid (Pt K)) (z : Zone) (v w : Nat × Nat) (old : Pt K) : Pt K :=
  let p := orig.node v.1 v.2
  let q := o.nearest p
  let b := bounds g z v
  if valid p = true then
    if w = v then q
    else if ((b.1.1 ≤ w.1 ∧ w.1 ≤ b.2.1) ∧ b.1.2 ≤ w.2 ∧ w.2 ≤ b.2.2) ∧ ¬ Near p q then carried o orig z v q w.1 w.2 old
    else old
  else old

/-- The round for one node of the line. -/
theorem snapNode_ok {o : Means K} (ho : o.Good) {orig g h : Grid (Pt K)} (z : Zone) {v : Nat × Nat} (hs : SameShape g h)
    (h1 : In g v) (hz : z.user = true → In g z.up) (hN : g.numN ≤ orig.numN) (hM : g.numM ≤ orig.numM) :
    ∃ h', snapNode o orig z v.2 v.1 h = .ok h' ∧ Edited h h' (fun n m => snapped o orig g z v (n, m) (h.node n m)) := by
  classical
  have h1' : In h v := ⟨by rw [hs.numN]; exact h1.1, by rw [hs.numM]; exact h1.2⟩
  have hz' : z.user = true → In h z.up := fun c => ⟨by rw [hs.numN]; exact (hz c).1, by rw [hs.numM]; exact (hz c).2⟩
  have h2 : In orig v := ⟨by have := h1.1; omega, by have := h1.2; omega⟩
  have hN' : h.numN ≤ orig.numN := by rw [hs.numN]; exact hN
  have hM' : h.numM ≤ orig.numM := by rw [hs.numM]; exact hM
  unfold snapNode
  rw [getNode_ok h2.1 h2.2, Res.ok_bind]
  by_cases hp : valid (orig.node v.1 v.2) = true
  · rw [if_pos hp, setNode_ok _ h1'.1 h1'.2, Res.ok_bind]
    generalize hk : ({ h with cell := upd h.cell (v.1 + h.sn) (v.2 + h.sm) (o.nearest (orig.node v.1 v.2)) } : Grid (Pt K)) = k
    have hks : SameShape h k := by rw [← hk]; exact ⟨rfl, rfl, rfl, rfl, rfl, rfl⟩
    have hkn : ∀ n m, k.node n m = if (n, m) = v then o.nearest (orig.node v.1 v.2) else h.node n m := by
      intro n m
      rw [← hk]
      show upd _ _ _ _ (n + h.sn) (m + h.sm) = _
      unfold upd
      by_cases e : (n, m) = v
      · rw [if_pos e, if_pos ⟨by rw [← e], by rw [← e]⟩]
      · rw [if_neg e, if_neg (fun c => e (Prod.ext (by simp only; omega) (by simp only; omega)))]
        rfl
    have hkh : ∀ i j, ¬ (h.sn ≤ i ∧ i < h.sn + h.numN ∧ h.sm ≤ j ∧ j < h.sm + h.numM) → k.cell i j = h.cell i j := by
      intro i j c
      rw [← hk]
      show upd _ _ _ _ i j = _
      unfold upd
      rw [if_neg]
      rintro ⟨rfl, rfl⟩
      have := h1'.1
      have := h1'.2
      omega
    have hkv : k.node v.1 v.2 = o.nearest (orig.node v.1 v.2) := by rw [hkn, if_pos rfl]
    have hkI : In k v := ⟨by rw [hks.numN]; exact h1'.1, by rw [hks.numM]; exact h1'.2⟩
    rw [getNode_ok hkI.1 hkI.2, Res.ok_bind, hkv]
    by_cases hc : closePoints (orig.node v.1 v.2) (o.nearest (orig.node v.1 v.2)) = true
    · rw [if_pos hc]
      refine ⟨k, rfl, hks, fun n m hn hm => ?_, hkh⟩
      unfold snapped
      simp only
      rw [hkn, if_pos hp]
      by_cases e : (n, m) = v
      · rw [if_pos e, if_pos e]
      · rw [if_neg e, if_neg e, if_neg (fun c => c.2 ((closePoints_iff _ _).1 hc))]
    · rw [if_neg hc, carryAll_ok o z hkI (fun c => ⟨by rw [hks.numN]; exact (hz' c).1, by rw [hks.numM]; exact (hz' c).2⟩)
        (by rw [hks.numN]; exact hN') (by rw [hks.numM]; exact hM') hkv (shareOf_self ho orig z v _)]
      have hbk : bounds k z v = bounds g z v := bounds_congr (hs.trans hks) z v
      have hbi := bounds_in h1 hz
      rw [hbk]
      refine ⟨_, rfl, hks.trans (mapBlock_shape ..), fun n m hn hm => ?_, fun i j c => ?_⟩
      · rw [mapBlock_node, hkn]
        unfold snapped
        simp only
        rw [if_pos hp]
        by_cases e : (n, m) = v
        · rw [if_pos e, if_pos e]
          subst e
          simp only
          unfold carried
          rcases shareOf_self ho orig z (n, m) (o.nearest (orig.node n m)) with e | e
          · rw [e]
            simp only
            rw [add_sub_one]
            split
            · split <;> rfl
            · rfl
          · rw [ite_cond_eq_false (h := eq_false (fun c : _ ∧ _ => absurd c.2 (not_lt.2 e)))]
            split <;> rfl
        · rw [if_neg e, if_neg e]
          by_cases c : ((bounds g z v).1.1 ≤ n ∧ n ≤ (bounds g z v).2.1) ∧ (bounds g z v).1.2 ≤ m ∧ m ≤ (bounds g z v).2.2
          · rw [if_pos (by omega), if_pos ⟨c, fun d => hc ((closePoints_iff _ _).2 d)⟩]
          · rw [if_neg (by omega), if_neg (fun d => c d.1)]
      · rw [mapBlock_hidden' h k hks _ _ _ _ _ (by rw [hs.numN]; omega) (by rw [hs.numM]; omega) i j c, hkh i j c]
  · rw [if_neg hp]
    refine ⟨h, rfl, SameShape.refl h, fun n m _ _ => ?_, fun _ _ _ => rfl⟩
    unfold snapped
    simp only
    rw [if_neg hp]

end Verif.Snap
