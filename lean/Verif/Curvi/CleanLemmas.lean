import Verif.Curvi.CleanModel
import Verif.Curvi.IndexLemmas
/-!
# Lemmas about the removal of loose nodes
-/
namespace Verif.Curvi
variable {P : Type}

/-- Same dimensions and offsets. -/
structure SameShape (g h : Grid P) : Prop where
  rows : h.rows = g.rows
  cols : h.cols = g.cols
  sn : h.sn = g.sn
  sm : h.sm = g.sm
  en : h.en = g.en
  em : h.em = g.em

theorem SameShape.numN {g h : Grid P} (s : SameShape g h) : h.numN = g.numN := by
  unfold Grid.numN; rw [s.rows, s.sn, s.en]
theorem SameShape.numM {g h : Grid P} (s : SameShape g h) : h.numM = g.numM := by
  unfold Grid.numM; rw [s.cols, s.sm, s.em]
theorem SameShape.wf {g h : Grid P} (s : SameShape g h) (w : WF g) : WF h :=
  ⟨by rw [s.rows, s.sn, s.en]; exact w.n, by rw [s.cols, s.sm, s.em]; exact w.m⟩
theorem SameShape.refl (g : Grid P) : SameShape g g := ⟨rfl, rfl, rfl, rfl, rfl, rfl⟩
theorem SameShape.trans {g h k : Grid P} (a : SameShape g h) (b : SameShape h k) : SameShape g k :=
  ⟨b.rows.trans a.rows, b.cols.trans a.cols, b.sn.trans a.sn, b.sm.trans a.sm, b.en.trans a.en, b.em.trans a.em⟩

@[simp] theorem upd_shift (g : Grid P) (n m a b : Nat) (p : P) :
    upd g.cell (n + g.sn) (m + g.sm) p (a + g.sn) (b + g.sm) = if a = n ∧ b = m then p else g.cell (a + g.sn) (b + g.sm) := by
  unfold upd
  by_cases h : a = n ∧ b = m
  · rw [if_pos (by omega), if_pos h]
  · rw [if_neg (by omega), if_neg h]

/-- Change the visible nodes of a block. -/
def mapBlock (g : Grid P) (a b c d : Nat) (φ : Nat → Nat → P → P) : Grid P :=
  { g with cell := fun i j =>
      if (a + g.sn ≤ i ∧ i < b + g.sn) ∧ (c + g.sm ≤ j ∧ j < d + g.sm) then φ (i - g.sn) (j - g.sm) (g.cell i j)
      else g.cell i j }

theorem mapBlock_shape (g : Grid P) (a b c d : Nat) (φ : Nat → Nat → P → P) : SameShape g (mapBlock g a b c d φ) :=
  ⟨rfl, rfl, rfl, rfl, rfl, rfl⟩

theorem mapBlock_node (g : Grid P) (a b c d : Nat) (φ : Nat → Nat → P → P) (n m : Nat) :
    (mapBlock g a b c d φ).node n m =
      if (a ≤ n ∧ n < b) ∧ (c ≤ m ∧ m < d) then φ n m (g.node n m) else g.node n m := by
  show (if (a + g.sn ≤ n + g.sn ∧ n + g.sn < b + g.sn) ∧ (c + g.sm ≤ m + g.sm ∧ m + g.sm < d + g.sm) then
    φ (n + g.sn - g.sn) (m + g.sm - g.sm) (g.cell (n + g.sn) (m + g.sm)) else g.cell (n + g.sn) (m + g.sm)) = _
  by_cases h : (a ≤ n ∧ n < b) ∧ (c ≤ m ∧ m < d)
  · rw [if_pos (by omega), if_pos h, Nat.add_sub_cancel, Nat.add_sub_cancel]; rfl
  · rw [if_neg (by omega), if_neg h]; rfl

theorem Grid.ext' {g h : Grid P} (s : SameShape g h) (e : ∀ i j, h.cell i j = g.cell i j) : h = g := by
  obtain ⟨h1, h2, h3, h4, h5, h6⟩ := s
  have e' := funext fun i => funext fun j => e i j
  cases g
  cases h
  dsimp only at h1 h2 h3 h4 h5 h6 e'
  subst h1 h2 h3 h4 h5 h6 e'
  rfl

theorem mapBlock_empty (g : Grid P) (a b c d : Nat) (φ : Nat → Nat → P → P) (h : b ≤ a ∨ d ≤ c) :
    mapBlock g a b c d φ = g := by
  refine Grid.ext' ⟨rfl, rfl, rfl, rfl, rfl, rfl⟩ fun i j => ?_
  show (if _ then _ else _) = _
  rw [if_neg (by omega)]

/-- Extending a one-row block by one node. -/
theorem mapBlock_row_step (g : Grid P) (n c m : Nat) (φ : Nat → Nat → P → P) (h : c ≤ m) :
    { mapBlock g n (n + 1) c m φ with
      cell := upd (mapBlock g n (n + 1) c m φ).cell (n + (mapBlock g n (n + 1) c m φ).sn)
        (m + (mapBlock g n (n + 1) c m φ).sm) (φ n m ((mapBlock g n (n + 1) c m φ).node n m)) } =
      mapBlock g n (n + 1) c (m + 1) φ := by
  refine Grid.ext' ⟨rfl, rfl, rfl, rfl, rfl, rfl⟩ fun i j => ?_
  show upd (mapBlock g n (n + 1) c m φ).cell (n + g.sn) (m + g.sm) (φ n m ((mapBlock g n (n + 1) c m φ).node n m)) i j = _
  rw [mapBlock_node, if_neg (by omega)]
  unfold upd mapBlock Grid.node
  simp only
  by_cases e : i = n + g.sn ∧ j = m + g.sm
  · obtain ⟨rfl, rfl⟩ := e
    rw [if_pos ⟨rfl, rfl⟩, if_pos (by omega)]
    simp
  · rw [if_neg e]
    by_cases c1 : (n + g.sn ≤ i ∧ i < n + 1 + g.sn) ∧ c + g.sm ≤ j ∧ j < m + g.sm
    · rw [if_pos c1, if_pos (by omega)]
    · rw [if_neg c1, if_neg (by omega)]

/-- Extending a block by one row. -/
theorem mapBlock_step (g : Grid P) (a n c d : Nat) (φ : Nat → Nat → P → P) (h : a ≤ n) :
    mapBlock (mapBlock g a n c d φ) n (n + 1) c d φ = mapBlock g a (n + 1) c d φ := by
  refine Grid.ext' ⟨rfl, rfl, rfl, rfl, rfl, rfl⟩ fun i j => ?_
  unfold mapBlock
  simp only
  by_cases e : (n + g.sn ≤ i ∧ i < n + 1 + g.sn) ∧ c + g.sm ≤ j ∧ j < d + g.sm
  · rw [if_pos e, if_neg (by omega), if_pos (by omega)]
  · rw [if_neg e]
    by_cases c1 : (a + g.sn ≤ i ∧ i < n + g.sn) ∧ c + g.sm ≤ j ∧ j < d + g.sm
    · rw [if_pos c1, if_pos (by omega)]
    · rw [if_neg c1, if_neg (by omega)]

/-- One row of a cell-wise loop. -/
theorem forRow (g : Grid P) (n c d : Nat) (φ : Nat → Nat → P → P)
    (body : Nat → Grid P → Res (Grid P))
    (hb : ∀ m h, c ≤ m → m < d → SameShape g h →
      body m h = .ok { h with cell := upd h.cell (n + h.sn) (m + h.sm) (φ n m (h.node n m)) }) :
    forRange c d body g = .ok (mapBlock g n (n + 1) c d φ) := by
  by_cases hcd : c ≤ d
  · have h := forRange_eq (f := body) (fun m => mapBlock g n (n + 1) c m φ) hcd (by
      intro m h1 h2
      rw [hb m _ h1 h2 (mapBlock_shape ..), mapBlock_row_step _ _ _ _ _ h1])
    rwa [mapBlock_empty g n (n + 1) c c φ (Or.inr (Nat.le_refl _))] at h
  · rw [forRange_empty (by omega), mapBlock_empty _ _ _ _ _ _ (by omega)]

/-- A double loop that changes every node of a block once. -/
theorem forBlock (g : Grid P) (a b c d : Nat) (φ : Nat → Nat → P → P)
    (body : Nat → Nat → Grid P → Res (Grid P))
    (hb : ∀ n m h, a ≤ n → n < b → c ≤ m → m < d → SameShape g h →
      body n m h = .ok { h with cell := upd h.cell (n + h.sn) (m + h.sm) (φ n m (h.node n m)) }) :
    forRange a b (fun n => forRange c d (body n)) g = .ok (mapBlock g a b c d φ) := by
  by_cases hab : a ≤ b
  · have h := forRange_eq (f := fun n => forRange c d (body n)) (fun n => mapBlock g a n c d φ) hab (by
      intro n h1 h2
      show forRange c d (body n) _ = _
      rw [forRow (mapBlock g a n c d φ) n c d φ (body n) (fun m h h3 h4 hs =>
        hb n m h h1 h2 h3 h4 ((mapBlock_shape ..).trans hs)), mapBlock_step _ _ _ _ _ _ h1])
    rwa [mapBlock_empty g a a c d φ (Or.inl (Nat.le_refl _))] at h
  · rw [forRange_empty (by omega), mapBlock_empty _ _ _ _ _ _ (by omega)]

theorem upd_same (h : Grid P) (n m : Nat) : { h with cell := upd h.cell (n + h.sn) (m + h.sm) (h.node n m) } = h := by
  refine Grid.ext' ⟨rfl, rfl, rfl, rfl, rfl, rfl⟩ fun i j => ?_
  show upd _ _ _ _ i j = _
  unfold upd Grid.node
  split
  · rename_i e; rw [e.1, e.2]
  · rfl

variable [PointLike P]

/-- All four nodes of face `(n, m)` are valid. -/
def faceValid (g : Grid P) (n m : Nat) : Bool :=
  valid (g.node n m) && valid (g.node n (m + 1)) && valid (g.node (n + 1) m) && valid (g.node (n + 1) (m + 1))

theorem areFaceNodesValid_ok (g : Grid P) (n m : Nat) (hn : n + 1 < g.numN) (hm : m + 1 < g.numM) :
    areFaceNodesValid g n m = .ok (faceValid g n m) := by
  unfold areFaceNodesValid faceValid
  rw [getNode_ok (by omega) (by omega), getNode_ok (by omega) hm, getNode_ok hn (by omega), getNode_ok hn hm]
  simp only [Res.ok_bind]
  by_cases h1 : valid (g.node n m)
  · by_cases h2 : valid (g.node n (m + 1))
    · by_cases h3 : valid (g.node (n + 1) m)
      · simp [h1, h2, h3]
      · simp [h1, h2, h3]
    · simp [h1, h2]
  · simp [h1]

theorem computeGridFacesMask_ok (g : Grid P) (hg : WF g) :
    ∃ mask, computeGridFacesMask g = .ok mask ∧ mask.numN = g.numN - 1 ∧ mask.numM = g.numM - 1 ∧
      ∀ n m, n + 1 < g.numN → m + 1 < g.numM → mask.node n m = faceValid g n m := by
  have hwn := hg.n
  have hwm := hg.m
  let g0 : Grid Bool := ⟨g.rows - 1, g.cols - 1, fun _ _ => false, g.sn, g.sm, g.en, g.em⟩
  have hN0 : g0.numN = g.numN - 1 := by simp only [g0, Grid.numN]; omega
  have hM0 : g0.numM = g.numM - 1 := by simp only [g0, Grid.numM]; omega
  have h := forBlock g0 0 (g.numN - 1) 0 (g.numM - 1) (fun n m b => faceValid g n m || b) (markFace g) (by
    intro n m h _ h1 _ h2 hs
    unfold markFace
    rw [areFaceNodesValid_ok g n m (by omega) (by omega), Res.ok_bind]
    cases hv : faceValid g n m with
    | true =>
      simp only [Bool.not_true, Bool.false_eq_true, if_false, Bool.true_or]
      exact setNode_ok _ (by rw [hs.numN, hN0]; omega) (by rw [hs.numM, hM0]; omega)
    | false =>
      simp only [Bool.not_false, if_true, Bool.false_or]
      congr 1
      refine Grid.ext' ⟨rfl, rfl, rfl, rfl, rfl, rfl⟩ fun i j => ?_
      show h.cell i j = upd _ _ _ _ i j
      unfold upd Grid.node
      split
      · rename_i e; rw [e.1, e.2]
      · rfl)
  refine ⟨_, h, by rw [(mapBlock_shape ..).numN, hN0], by rw [(mapBlock_shape ..).numM, hM0], ?_⟩
  intro n m hn hm
  rw [mapBlock_node, if_pos (by omega)]
  simp [g0, Grid.node]

/-- Node `(n, m)` is a corner of face `(i, j)`. -/
def Corner (n m i j : Nat) : Prop := (n = i ∨ n = i + 1) ∧ (m = j ∨ m = j + 1)

/-- Node `(n, m)` is a corner of a face with four valid nodes. -/
def InFace (g : Grid P) (n m : Nat) : Prop :=
  ∃ i j, i + 1 < g.numN ∧ j + 1 < g.numM ∧ faceValid g i j = true ∧ Corner n m i j

omit [PointLike P] in
theorem markNodes_ok (g : Grid P) (mask : Grid Bool) (h1 : mask.numN = g.numN - 1) (h2 : mask.numM = g.numM - 1)
    (n m : Nat) (hn : n + 1 < g.numN) (hm : m + 1 < g.numM) (v : Nat → Nat → Bool) :
    ∃ v', markNodes g.numN g.numM mask n m v = .ok v' ∧
      ∀ a b, v' a b = true ↔ v a b = true ∨ (mask.node n m = true ∧ Corner a b n m) := by
  unfold markNodes
  rw [getNode_ok (by omega) (by omega), Res.ok_bind]
  cases hf : mask.node n m with
  | false => exact ⟨v, by simp, by simp⟩
  | true =>
    refine ⟨upd (upd (upd (upd v n m true) n (m + 1) true) (n + 1) m true) (n + 1) (m + 1) true, ?_, ?_⟩
    · simp only [if_true]
      unfold mark
      rw [if_pos (by omega), Res.ok_bind, if_pos (by omega), Res.ok_bind, if_pos (by omega), Res.ok_bind, if_pos (by omega)]
    · intro a b
      unfold upd Corner
      simp only [true_and]
      split
      · rename_i e; simp [e]
      · split
        · rename_i e; simp [e]
        · split
          · rename_i e; simp [e]
          · split
            · rename_i e; simp [e]
            · rename_i e1 e2 e3 e4
              constructor
              · exact Or.inl
              · rintro (h | h)
                · exact h
                · exfalso; omega

theorem validNodeMask_ok (g : Grid P) (hg : WF g) (mask : Grid Bool) (h1 : mask.numN = g.numN - 1) (h2 : mask.numM = g.numM - 1)
    (h3 : ∀ n m, n + 1 < g.numN → m + 1 < g.numM → mask.node n m = faceValid g n m) :
    ∃ v, forRange 0 (g.numN - 1) (fun n => forRange 0 (g.numM - 1) (markNodes g.numN g.numM mask n)) (fun _ _ => false) = .ok v ∧
      ∀ a b, v a b = true ↔ InFace g a b := by
  have hn2 := hg.two_le_numN
  have hm2 := hg.two_le_numM
  obtain ⟨v, h4, h5⟩ := forRange_inv (f := fun n => forRange 0 (g.numM - 1) (markNodes g.numN g.numM mask n))
    (fun n v => ∀ a b, v a b = true ↔ ∃ i j, i < n ∧ j + 1 < g.numM ∧ faceValid g i j = true ∧ Corner a b i j)
    (Nat.zero_le (g.numN - 1)) (s := fun _ _ => false) (by simp) (by
      intro n v _ hn hv
      obtain ⟨w, h6, h7⟩ := forRange_inv (f := markNodes g.numN g.numM mask n)
        (fun m w => ∀ a b, w a b = true ↔ (∃ i j, i < n ∧ j + 1 < g.numM ∧ faceValid g i j = true ∧ Corner a b i j) ∨
          ∃ j, j < m ∧ faceValid g n j = true ∧ Corner a b n j)
        (Nat.zero_le (g.numM - 1)) (s := v) (by simpa using hv) (by
          intro m w _ hm hw
          obtain ⟨w', h8, h9⟩ := markNodes_ok g mask h1 h2 n m (by omega) (by omega) w
          refine ⟨w', h8, fun a b => ?_⟩
          rw [h9, hw, h3 n m (by omega) (by omega)]
          constructor
          · rintro ((h | ⟨j, hj, h⟩) | h)
            · exact Or.inl h
            · exact Or.inr ⟨j, by omega, h⟩
            · exact Or.inr ⟨m, by omega, h⟩
          · rintro (h | ⟨j, hj, h⟩)
            · exact Or.inl (Or.inl h)
            · by_cases e : j = m
              · subst e; exact Or.inr h
              · exact Or.inl (Or.inr ⟨j, by omega, h⟩))
      refine ⟨w, h6, fun a b => ?_⟩
      rw [h7]
      constructor
      · rintro (⟨i, j, hi, h⟩ | ⟨j, hj, h⟩)
        · exact ⟨i, j, by omega, h⟩
        · exact ⟨n, j, by omega, by omega, h⟩
      · rintro ⟨i, j, hi, hj, h⟩
        by_cases e : i = n
        · subst e; exact Or.inr ⟨j, by omega, h⟩
        · exact Or.inl ⟨i, j, by omega, hj, h⟩)
  refine ⟨v, h4, fun a b => ?_⟩
  rw [h5]
  unfold InFace
  constructor
  · rintro ⟨i, j, hi, h⟩; exact ⟨i, j, by omega, h⟩
  · rintro ⟨i, j, hi, h⟩; exact ⟨i, j, by omega, h⟩

/-- The node after one round. -/
def roundNode (v : Nat → Nat → Bool) (n m : Nat) (p : P) : P := if v n m then p else if valid p then inv else p

theorem invalidate_ok (v : Nat → Nat → Bool) (n m : Nat) (h : Grid P) (f : Bool) (hn : n < h.numN) (hm : m < h.numM) :
    invalidate v n m (h, f) =
      .ok ({ h with cell := upd h.cell (n + h.sn) (m + h.sm) (roundNode v n m (h.node n m)) },
        f || (!v n m && valid (h.node n m))) := by
  unfold invalidate roundNode
  cases hv : v n m with
  | true => simp [upd_same]
  | false =>
    simp only [Bool.false_eq_true, if_false, getNode_ok hn hm, Res.ok_bind]
    by_cases hp : valid (h.node n m)
    · simp only [hp, if_true]
      rw [setNode_ok _ hn hm, Res.ok_bind]
      simp
    · simp [hp, upd_same]

/-- The grid after one round. -/
def roundGrid (v : Nat → Nat → Bool) (g : Grid P) : Grid P := mapBlock g 0 g.numN 0 g.numM (roundNode v)

theorem invalidateLoop_ok (v : Nat → Nat → Bool) (g : Grid P) :
    ∃ f, forRange 0 g.numN (fun n => forRange 0 g.numM (invalidate v n)) (g, false) = .ok (roundGrid v g, f) ∧
      (f = true ↔ ∃ n m, n < g.numN ∧ m < g.numM ∧ v n m = false ∧ valid (g.node n m) = true) := by
  obtain ⟨⟨h, f⟩, h1, h2, h3⟩ := forRange_inv (f := fun n => forRange 0 g.numM (invalidate v n))
    (fun n s => s.1 = mapBlock g 0 n 0 g.numM (roundNode v) ∧
      (s.2 = true ↔ ∃ a b, a < n ∧ b < g.numM ∧ v a b = false ∧ valid (g.node a b) = true))
    (Nat.zero_le g.numN) (s := (g, false)) ⟨(mapBlock_empty _ _ _ _ _ _ (Or.inl (Nat.le_refl _))).symm, by simp⟩ (by
      rintro n ⟨h, f⟩ _ hn ⟨hh, hf⟩
      simp only at hh hf
      subst hh
      obtain ⟨⟨h', f'⟩, h4, h5, h6⟩ := forRange_inv (f := invalidate v n)
        (fun m s => s.1 = mapBlock (mapBlock g 0 n 0 g.numM (roundNode v)) n (n + 1) 0 m (roundNode v) ∧
          (s.2 = true ↔ (∃ a b, a < n ∧ b < g.numM ∧ v a b = false ∧ valid (g.node a b) = true) ∨
            ∃ b, b < m ∧ v n b = false ∧ valid (g.node n b) = true))
        (Nat.zero_le g.numM) (s := (mapBlock g 0 n 0 g.numM (roundNode v), f))
        ⟨(mapBlock_empty _ _ _ _ _ _ (Or.inr (Nat.le_refl _))).symm, by simpa using hf⟩ (by
          rintro m ⟨k, f2⟩ _ hm ⟨hk, hf2⟩
          simp only at hk hf2
          subst hk
          refine ⟨_, invalidate_ok v n m _ f2 hn hm, mapBlock_row_step _ _ _ _ _ (Nat.zero_le _), ?_⟩
          simp only
          rw [mapBlock_node, if_neg (by omega), mapBlock_node, if_neg (by omega), Bool.or_eq_true, hf2]
          simp only [Bool.and_eq_true, Bool.not_eq_true']
          constructor
          · rintro ((h | ⟨b, hb, h⟩) | h)
            · exact Or.inl h
            · exact Or.inr ⟨b, by omega, h⟩
            · exact Or.inr ⟨m, by omega, h⟩
          · rintro (h | ⟨b, hb, h⟩)
            · exact Or.inl (Or.inl h)
            · by_cases e : b = m
              · subst e; exact Or.inr h
              · exact Or.inl (Or.inr ⟨b, by omega, h⟩))
      refine ⟨_, h4, ?_, ?_⟩
      · rw [h5]; exact mapBlock_step _ _ _ _ _ _ (Nat.zero_le _)
      · rw [h6]
        constructor
        · rintro (⟨a, b, ha, h⟩ | ⟨b, hb, h⟩)
          · exact ⟨a, b, by omega, h⟩
          · exact ⟨n, b, by omega, hb, h⟩
        · rintro ⟨a, b, ha, hb, h⟩
          by_cases e : a = n
          · subst e; exact Or.inr ⟨b, hb, h⟩
          · exact Or.inl ⟨a, b, by omega, hb, h⟩)
  simp only at h2 h3
  subst h2
  exact ⟨f, h1, h3⟩

/-- One round: nodes outside every valid face become invalid. -/
theorem cleanRound_ok (g : Grid P) (hg : WF g) :
    ∃ v f, cleanRound g = .ok (roundGrid v g, f) ∧ (∀ a b, v a b = true ↔ InFace g a b) ∧
      (f = true ↔ ∃ n m, n < g.numN ∧ m < g.numM ∧ ¬ InFace g n m ∧ valid (g.node n m) = true) := by
  obtain ⟨mask, h1, h2, h3, h4⟩ := computeGridFacesMask_ok g hg
  obtain ⟨v, h5, h6⟩ := validNodeMask_ok g hg mask h2 h3 h4
  obtain ⟨f, h7, h8⟩ := invalidateLoop_ok v g
  refine ⟨v, f, ?_, h6, ?_⟩
  · unfold cleanRound
    rw [h1, Res.ok_bind, h5, Res.ok_bind, h7]
  · rw [h8]
    simp only [← h6, Bool.not_eq_true]

/-- The number of visible valid nodes. -/
def countValid (g : Grid P) : Nat :=
  ((List.range (g.numN * g.numM)).filter fun k => valid (g.node (k / g.numM) (k % g.numM))).length

theorem filter_length_lt {α : Type} {p q : α → Bool} {l : List α} (h : ∀ x ∈ l, q x = true → p x = true)
    {x : α} (hx : x ∈ l) (hp : p x = true) (hq : q x = false) : (l.filter q).length < (l.filter p).length := by
  induction l with
  | nil => cases hx
  | cons a l ih =>
    have hle : (l.filter q).length ≤ (l.filter p).length := by
      rw [← List.countP_eq_length_filter, ← List.countP_eq_length_filter]
      exact List.countP_mono_left fun x hx => h x (List.mem_cons_of_mem _ hx)
    rcases List.mem_cons.1 hx with rfl | hx'
    · rw [List.filter_cons_of_pos hp, List.filter_cons_of_neg (by simp [hq])]
      simp; omega
    · have := ih (fun y hy => h y (List.mem_cons_of_mem _ hy)) hx'
      by_cases hqa : q a = true
      · rw [List.filter_cons_of_pos hqa, List.filter_cons_of_pos (h a (List.mem_cons_self ..) hqa)]
        simp; omega
      · rw [List.filter_cons_of_neg hqa]
        by_cases hpa : p a = true
        · rw [List.filter_cons_of_pos hpa]; simp; omega
        · rw [List.filter_cons_of_neg hpa]; exact this

theorem roundNode_valid (v : Nat → Nat → Bool) (n m : Nat) (p : P) :
    valid (roundNode v n m p) = (v n m && valid p) := by
  unfold roundNode
  cases v n m with
  | true => simp
  | false =>
    by_cases h : valid p
    · simp [h, PointLike.valid_inv]
    · simp [h]

theorem roundGrid_node (v : Nat → Nat → Bool) (g : Grid P) (n m : Nat) (hn : n < g.numN) (hm : m < g.numM) :
    (roundGrid v g).node n m = roundNode v n m (g.node n m) := by
  unfold roundGrid
  rw [mapBlock_node, if_pos (by omega)]

theorem countValid_lt (v : Nat → Nat → Bool) (g : Grid P) (n m : Nat) (hn : n < g.numN) (hm : m < g.numM)
    (h1 : v n m = false) (h2 : valid (g.node n m) = true) : countValid (roundGrid v g) < countValid g := by
  have hN : (roundGrid v g).numN = g.numN := rfl
  have hM : (roundGrid v g).numM = g.numM := rfl
  have hlt : n * g.numM + m < g.numN * g.numM := by
    have : (n + 1) * g.numM ≤ g.numN * g.numM := Nat.mul_le_mul_right _ hn
    rw [Nat.add_mul] at this; omega
  have hd : (n * g.numM + m) / g.numM = n := by
    rw [Nat.mul_comm, Nat.mul_add_div (by omega), Nat.div_eq_of_lt hm]; omega
  have hmod : (n * g.numM + m) % g.numM = m := by
    rw [Nat.mul_comm, Nat.mul_add_mod, Nat.mod_eq_of_lt hm]
  have key : ∀ k, k ∈ List.range (g.numN * g.numM) → (roundGrid v g).node (k / g.numM) (k % g.numM) =
      roundNode v (k / g.numM) (k % g.numM) (g.node (k / g.numM) (k % g.numM)) := by
    intro k hk
    rw [List.mem_range] at hk
    exact roundGrid_node v g _ _ (Nat.div_lt_of_lt_mul (by rwa [Nat.mul_comm])) (Nat.mod_lt _ (by omega))
  unfold countValid
  rw [hN, hM]
  refine filter_length_lt (x := n * g.numM + m) ?_ (List.mem_range.2 hlt) ?_ ?_
  · intro k hk h
    rw [key k hk, roundNode_valid, Bool.and_eq_true] at h
    exact h.2
  · rw [hd, hmod]; exact h2
  · rw [key _ (List.mem_range.2 hlt), hd, hmod, roundNode_valid, h1, Bool.false_and]

theorem countValid_le (g : Grid P) : countValid g ≤ g.numN * g.numM := by
  unfold countValid
  exact (List.length_filter_le _ _).trans (by simp)

end Verif.Curvi
