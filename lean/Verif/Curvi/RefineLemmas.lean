import Verif.Curvi.RefineModel
import Verif.Curvi.EditProps
/-!
# Lemmas about refinement
-/
namespace Verif.Curvi
variable {P : Type}

theorem mapRes_ok {α β : Type} {f : α → Res β} {l : List α} (h : α → β) (hf : ∀ x ∈ l, f x = .ok (h x)) :
    mapRes f l = .ok (l.map h) := by
  induction l with
  | nil => rfl
  | cons a l ih =>
    unfold mapRes
    rw [hf a (List.mem_cons_self ..), Res.ok_bind, ih (fun x hx => hf x (List.mem_cons_of_mem _ hx)), Res.ok_bind]
    rfl

theorem vget_map_range {α : Type} (f : Nat → α) (k i : Nat) (h : i < k) : vget ((List.range k).map f) i = .ok (f i) := by
  rw [vget_ok (by simpa using h)]
  simp

/-- The matrix with a block filled. -/
def filled (R : Grid P) (rn rm A B : Nat) (F : Nat → Nat → P) : Grid P :=
  { R with cell := fun i j => if (rn ≤ i ∧ i < rn + A) ∧ (rm ≤ j ∧ j < rm + B) then F (i - rn) (j - rm) else R.cell i j }

theorem fill_ok (point : Nat → Nat → Res P) (F : Nat → Nat → P) (rn rm A B : Nat) (R : Grid P)
    (hF : ∀ a b, a < A → b < B → point a b = .ok (F a b)) (h1 : rn + A ≤ R.rows) (h2 : rm + B ≤ R.cols) :
    forRange 0 A (fun a => forRange 0 B (fun b R => do
      let p ← point a b
      put R (rn + a) (rm + b) p)) R = .ok (filled R rn rm A B F) := by
  let G : Nat → Nat → Grid P := fun a b => { R with cell := fun i j =>
    if ((rn ≤ i ∧ i < rn + a) ∧ (rm ≤ j ∧ j < rm + B)) ∨ (i = rn + a ∧ (rm ≤ j ∧ j < rm + b)) then F (i - rn) (j - rm) else R.cell i j }
  have h := forRange_eq (f := fun a => forRange 0 B (fun b R => do
      let p ← point a b
      put R (rn + a) (rm + b) p)) (fun a => filled R rn rm a B F) (Nat.zero_le A) (by
    intro a _ ha
    have inner := forRange_eq (f := fun b R => (do
      let p ← point a b
      put R (rn + a) (rm + b) p : Res (Grid P))) (G a) (Nat.zero_le B) (by
      intro b _ hb
      show (do
        let p ← point a b
        put (G a b) (rn + a) (rm + b) p : Res (Grid P)) = _
      rw [hF a b ha hb, Res.ok_bind]
      unfold put
      rw [if_pos (by show rn + a < R.rows ∧ rm + b < R.cols; omega)]
      congr 1
      refine Grid.ext' ⟨rfl, rfl, rfl, rfl, rfl, rfl⟩ fun i j => ?_
      show upd _ _ _ _ i j = _
      unfold upd
      by_cases e : i = rn + a ∧ j = rm + b
      · rw [if_pos e, e.1, e.2]
        show F a b = if _ then _ else _
        rw [if_pos (by omega), Nat.add_sub_cancel_left, Nat.add_sub_cancel_left]
      · rw [if_neg e]
        simp only [G]
        by_cases c : ((rn ≤ i ∧ i < rn + a) ∧ (rm ≤ j ∧ j < rm + B)) ∨ (i = rn + a ∧ (rm ≤ j ∧ j < rm + b))
        · rw [if_pos c, if_pos (by omega)]
        · rw [if_neg c, if_neg (by omega)])
    have e0 : G a 0 = filled R rn rm a B F := by
      refine Grid.ext' ⟨rfl, rfl, rfl, rfl, rfl, rfl⟩ fun i j => ?_
      simp only [G, filled]
      by_cases c : (rn ≤ i ∧ i < rn + a) ∧ (rm ≤ j ∧ j < rm + B)
      · rw [if_pos (Or.inl c), if_pos c]
      · rw [if_neg (by omega), if_neg c]
    have e1 : G a B = filled R rn rm (a + 1) B F := by
      refine Grid.ext' ⟨rfl, rfl, rfl, rfl, rfl, rfl⟩ fun i j => ?_
      simp only [G, filled]
      by_cases c : (rn ≤ i ∧ i < rn + (a + 1)) ∧ (rm ≤ j ∧ j < rm + B)
      · rw [if_pos (by omega), if_pos c]
      · rw [if_neg (by omega), if_neg c]
    show forRange 0 B _ (filled R rn rm a B F) = _
    rw [← e0, ← e1]
    exact inner)
  have e : filled R rn rm 0 B F = R := by
    refine Grid.ext' ⟨rfl, rfl, rfl, rfl, rfl, rfl⟩ fun i j => ?_
    simp only [filled]
    rw [if_neg (by omega)]
  rw [e] at h
  exact h

/-- Nothing is hidden. -/
structure Plain (g : Grid P) : Prop where
  sn : g.sn = 0
  sm : g.sm = 0
  en : g.en = 0
  em : g.em = 0

theorem Plain.numN {g : Grid P} (h : Plain g) : g.numN = g.rows := by unfold Grid.numN; rw [h.sn, h.en]; omega
theorem Plain.numM {g : Grid P} (h : Plain g) : g.numM = g.cols := by unfold Grid.numM; rw [h.sm, h.em]; omega
theorem Plain.node {g : Grid P} (h : Plain g) (n m : Nat) : g.node n m = g.cell n m := by
  unfold Grid.node; rw [h.sn, h.sm]; rfl

/-- The splines of a grid without hidden nodes. -/
def plainSplines (g : Grid P) : List (List P) :=
  (List.range g.cols).map (fun c => (List.range g.rows).map fun r => g.cell r c) ++
    (List.range g.rows).map (fun r => (List.range g.cols).map fun c => g.cell r c)

theorem splineNodes_ok (g : Grid P) (h : Plain g) : splineNodes g = .ok (plainSplines g) := by
  unfold splineNodes
  rw [h.numN, h.numM]
  rw [mapRes_ok (fun c => (List.range g.rows).map fun r => g.cell r c) (by
    intro x hx
    rw [List.mem_range] at hx
    unfold nodeVectorAtN
    rw [h.sn, if_neg (by omega)]; rfl), Res.ok_bind,
    mapRes_ok (fun r => (List.range g.cols).map fun c => g.cell r c) (by
    intro x hx
    rw [List.mem_range] at hx
    unfold nodeVectorAtM
    rw [h.sm, if_neg (by omega)]; rfl), Res.ok_bind]
  rfl

theorem vget_column (g : Grid P) (c : Nat) (hc : c < g.cols) :
    vget (plainSplines g) c = .ok ((List.range g.rows).map fun r => g.cell r c) := by
  unfold plainSplines
  rw [vget_ok (by simp; omega), List.getElem_append_left (by simpa using hc)]
  simp

theorem vget_row (g : Grid P) (r : Nat) (hr : r < g.rows) :
    vget (plainSplines g) (g.cols + r) = .ok ((List.range g.cols).map fun c => g.cell r c) := by
  unfold plainSplines
  rw [vget_ok (by simp; omega), List.getElem_append_right (by simp)]
  simp

/-- The points along a grid line between nodes `cur` and `cur + 1`. -/
def along (I : Interp P) (line : Nat → P) (s cur ref i : Nat) : P :=
  if i = 0 then line cur else if i = ref then line (cur + 1) else I.side s cur i ref

theorem sidePoints_ok (I : Interp P) (S : List (List P)) (s cur ref k : Nat) (line : Nat → P)
    (hS : vget S s = .ok ((List.range k).map line)) (hk : cur + 1 < k) (hr : 0 < ref) :
    sidePoints I S s cur ref = .ok ((List.range (ref + 1)).map (along I line s cur ref)) := by
  unfold sidePoints
  refine mapRes_ok _ fun i _ => ?_
  unfold pointOnSpline along
  rw [hS, Res.ok_bind, if_neg (by omega)]
  split
  · exact vget_map_range _ _ _ (by omega)
  · split
    · exact vget_map_range _ _ _ hk
    · rfl

/-- The points of a cell. -/
def cellPoint (I : Interp P) (g : Grid P) (ln lm cn cm a b : Nat) : P :=
  if a = ln then along I (fun c => g.cell (cn + 1) c) (g.cols + cn + 1) cm lm b
  else if a = 0 then along I (fun c => g.cell cn c) (g.cols + cn) cm lm b
  else if b = lm then along I (fun r => g.cell r (cm + 1)) (cm + 1) cn ln a
  else if b = 0 then along I (fun r => g.cell r cm) cm cn ln a
  else I.inner cn cm a b

variable [PointLike P]

theorem refineCell_ok (I : Interp P) (g : Grid P) (h : Plain g) (ln lm rn rm cn cm : Nat) (R : Grid P)
    (hln : 0 < ln) (hlm : 0 < lm) (hcn : cn + 1 < g.rows) (hcm : cm + 1 < g.cols)
    (h1 : rn + ln < R.rows) (h2 : rm + lm < R.cols) :
    refineCell I g (plainSplines g) ln lm rn rm cn cm R =
      .ok (if faceValid g cn cm then filled R rn rm (ln + 1) (lm + 1) (cellPoint I g ln lm cn cm) else R) := by
  unfold refineCell
  rw [areFaceNodesValid_ok g cn cm (by rw [h.numN]; exact hcn) (by rw [h.numM]; exact hcm), Res.ok_bind]
  cases hv : faceValid g cn cm with
  | false => simp
  | true =>
    simp only [Bool.not_true, Bool.false_eq_true, if_false, if_true]
    rw [h.numM, sidePoints_ok I _ cm cn ln g.rows _ (vget_column g cm (by omega)) hcn hln, Res.ok_bind,
      sidePoints_ok I _ (cm + 1) cn ln g.rows _ (vget_column g (cm + 1) hcm) hcn hln, Res.ok_bind,
      sidePoints_ok I _ (g.cols + cn) cm lm g.cols _ (vget_row g cn (by omega)) hcm hlm, Res.ok_bind,
      sidePoints_ok I _ (g.cols + cn + 1) cm lm g.cols _ (vget_row g (cn + 1) hcn) hcm hlm, Res.ok_bind]
    unfold copyLocal
    refine fill_ok _ _ _ _ _ _ _ (fun a b ha hb => ?_) (by omega) (by omega)
    unfold localPoint cellPoint
    split
    · exact vget_map_range _ _ _ hb
    · split
      · exact vget_map_range _ _ _ hb
      · split
        · exact vget_map_range _ _ _ ha
        · split
          · exact vget_map_range _ _ _ ha
          · rfl

/-! ## Where the grid lines go -/

/-- Sum of the numbers of parts of the first `n` cells. -/
def place (loc : Nat → Nat) : Nat → Nat
  | 0 => 0
  | n + 1 => place loc n + loc n

theorem place_lt (loc : Nat → Nat) (hl : ∀ c, 0 < loc c) {n m : Nat} (h : n < m) : place loc n < place loc m := by
  induction m with
  | zero => omega
  | succ m ih =>
    have := hl m
    rw [place]
    by_cases e : n = m
    · subst e; omega
    · have := ih (by omega); omega

theorem place_mono (loc : Nat → Nat) {n m : Nat} (h : n ≤ m) : place loc n ≤ place loc m := by
  induction m with
  | zero => rw [show n = 0 by omega]
  | succ m ih =>
    rw [place]
    by_cases e : n = m + 1
    · subst e; rfl
    · have := ih (by omega); omega

/-- A line of a cell lands on an original line only at its two ends. -/
theorem place_hit (loc : Nat → Nat) (hl : ∀ c, 0 < loc c) {c a n : Nat} (ha : a ≤ loc c) (h : place loc n = place loc c + a) :
    (a = 0 ∧ n = c) ∨ (a = loc c ∧ n = c + 1) := by
  rcases Nat.lt_trichotomy n c with h1 | h1 | h1
  · have := place_lt loc hl h1; omega
  · subst h1; left; omega
  · by_cases e : n = c + 1
    · subst e
      rw [place] at h
      right; omega
    · have := place_lt loc hl (show c + 1 < n by omega)
      rw [place] at this
      have := place_mono loc (Nat.le_refl c)
      omega

omit [PointLike P] in
/-- The node at the place of an original node after filling a cell. -/
theorem filled_place (I : Interp P) (g : Grid P) (locN locM : Nat → Nat) (hN : ∀ c, 0 < locN c) (hM : ∀ c, 0 < locM c)
    (R : Grid P) (cn cm n m : Nat) :
    (filled R (place locN cn) (place locM cm) (locN cn + 1) (locM cm + 1) (cellPoint I g (locN cn) (locM cm) cn cm)).cell
      (place locN n) (place locM m) =
    if (n = cn ∨ n = cn + 1) ∧ (m = cm ∨ m = cm + 1) then g.cell n m else R.cell (place locN n) (place locM m) := by
  have hn0 := hN cn
  have hm0 := hM cm
  have key : ∀ k c (loc : Nat → Nat), (∀ c, 0 < loc c) → (place loc c ≤ place loc k ∧ place loc k < place loc c + (loc c + 1)) →
      (place loc k - place loc c = 0 ∧ k = c) ∨ (place loc k - place loc c = loc c ∧ k = c + 1) := by
    intro k c loc hl hk
    have := place_hit loc hl (c := c) (a := place loc k - place loc c) (n := k) (by omega) (by omega)
    exact this
  simp only [filled]
  by_cases c : (place locN cn ≤ place locN n ∧ place locN n < place locN cn + (locN cn + 1)) ∧
      (place locM cm ≤ place locM m ∧ place locM m < place locM cm + (locM cm + 1))
  · rw [if_pos c]
    rcases key n cn locN hN c.1 with ⟨e1, f1⟩ | ⟨e1, f1⟩ <;> rcases key m cm locM hM c.2 with ⟨e2, f2⟩ | ⟨e2, f2⟩ <;>
      rw [e1, e2, if_pos (by omega)] <;> subst f1 f2 <;> unfold cellPoint along
    · rw [if_neg (by omega), if_pos rfl, if_pos rfl]
    · rw [if_neg (by omega), if_pos rfl, if_neg (by omega), if_pos rfl]
    · rw [if_pos rfl, if_pos rfl]
    · rw [if_pos rfl, if_neg (by omega), if_pos rfl]
  · rw [if_neg c, if_neg]
    rintro ⟨h1, h2⟩
    apply c
    constructor
    · rcases h1 with rfl | rfl
      · omega
      · rw [place]; omega
    · rcases h2 with rfl | rfl
      · omega
      · rw [place]; omega

omit [PointLike P] in
/-- The refinements of two cells agree on the points they share. -/
theorem cellPoint_agree (I : Interp P) (g : Grid P) (locN locM : Nat → Nat) (hN : ∀ c, 0 < locN c) (hM : ∀ c, 0 < locM c)
    {cn cm a b n m c d : Nat} (ha : a ≤ locN cn) (hb : b ≤ locM cm) (hc : c ≤ locN n) (hd : d ≤ locM m)
    (e1 : place locN cn + a = place locN n + c) (e2 : place locM cm + b = place locM m + d) :
    cellPoint I g (locN cn) (locM cm) cn cm a b = cellPoint I g (locN n) (locM m) n m c d := by
  have key : ∀ (loc : Nat → Nat), (∀ c, 0 < loc c) → ∀ {p q x y : Nat}, x ≤ loc p → y ≤ loc q → place loc p + x = place loc q + y →
      (p = q ∧ x = y) ∨ (q = p + 1 ∧ x = loc p ∧ y = 0) ∨ (p = q + 1 ∧ y = loc q ∧ x = 0) := by
    intro loc hl p q x y hx hy e
    rcases Nat.lt_trichotomy p q with h | h | h
    · right; left
      have h1 := place_mono loc (show p + 1 ≤ q by omega)
      rw [place] at h1
      refine ⟨?_, by omega, by omega⟩
      by_contra hne
      have := place_lt loc hl (show p + 1 < q by omega)
      rw [place] at this
      omega
    · subst h; left; exact ⟨rfl, by omega⟩
    · right; right
      have h1 := place_mono loc (show q + 1 ≤ p by omega)
      rw [place] at h1
      refine ⟨?_, by omega, by omega⟩
      by_contra hne
      have := place_lt loc hl (show q + 1 < p by omega)
      rw [place] at this
      omega
  have rows : ∀ n m b, cellPoint I g (locN n) (locM m) n m (locN n) b = cellPoint I g (locN (n + 1)) (locM m) (n + 1) m 0 b := by
    intro n m b
    have := hN (n + 1)
    unfold cellPoint
    rw [if_pos rfl, if_neg (by omega), if_pos rfl]
    rfl
  have cols : ∀ n m a, cellPoint I g (locN n) (locM m) n m a (locM m) = cellPoint I g (locN n) (locM (m + 1)) n (m + 1) a 0 := by
    intro n m a
    have h0 := hM m
    have h1 := hM (m + 1)
    unfold cellPoint
    by_cases c1 : a = locN n
    · rw [if_pos c1, if_pos c1]
      unfold along
      rw [if_neg (by omega), if_pos rfl, if_pos rfl]
    · rw [if_neg c1, if_neg c1]
      by_cases c2 : a = 0
      · rw [if_pos c2, if_pos c2]
        unfold along
        rw [if_neg (by omega), if_pos rfl, if_pos rfl]
      · rw [if_neg c2, if_neg c2, if_pos rfl, if_neg (by omega), if_pos rfl]
  rcases key locN hN ha hc e1 with ⟨rfl, rfl⟩ | ⟨rfl, rfl, rfl⟩ | ⟨rfl, rfl, rfl⟩ <;>
    rcases key locM hM hb hd e2 with ⟨rfl, rfl⟩ | ⟨rfl, rfl, rfl⟩ | ⟨rfl, rfl, rfl⟩
  · rfl
  · exact cols _ _ _
  · exact (cols _ _ _).symm
  · exact rows _ _ _
  · rw [rows, cols]
  · rw [rows, cols]
  · exact (rows _ _ _).symm
  · rw [rows, cols]
  · rw [rows, cols]

/-- The interpolation gives valid points. -/
structure Interp.Good (I : Interp P) : Prop where
  side : ∀ s c i r, valid (I.side s c i r) = true
  inner : ∀ n m a b, valid (I.inner n m a b) = true

theorem along_valid (I : Interp P) (hI : I.Good) (line : Nat → P) (s cur ref i : Nat) (h0 : valid (line cur) = true)
    (h1 : valid (line (cur + 1)) = true) : valid (along I line s cur ref i) = true := by
  unfold along
  split
  · exact h0
  · split
    · exact h1
    · exact hI.side ..

theorem faceValid_iff (g : Grid P) (n m : Nat) : faceValid g n m = true ↔
    valid (g.node n m) = true ∧ valid (g.node n (m + 1)) = true ∧ valid (g.node (n + 1) m) = true ∧
      valid (g.node (n + 1) (m + 1)) = true := by
  unfold faceValid
  simp only [Bool.and_eq_true, and_assoc]

theorem cellPoint_valid (I : Interp P) (hI : I.Good) (g : Grid P) (hp : Plain g) (ln lm cn cm a b : Nat)
    (h : faceValid g cn cm = true) : valid (cellPoint I g ln lm cn cm a b) = true := by
  rw [faceValid_iff, hp.node, hp.node, hp.node, hp.node] at h
  obtain ⟨h1, h2, h3, h4⟩ := h
  unfold cellPoint
  split
  · exact along_valid I hI _ _ _ _ _ h3 h4
  · split
    · exact along_valid I hI _ _ _ _ _ h1 h2
    · split
      · exact along_valid I hI _ _ _ _ _ h2 h4
      · split
        · exact along_valid I hI _ _ _ _ _ h1 h3
        · exact hI.inner ..

/-- The point `(x, y)` of the refined grid belongs to the refinement of cell `(i, j)`. -/
def Covers (locN locM : Nat → Nat) (x y i j : Nat) : Prop :=
  (place locN i ≤ x ∧ x ≤ place locN (i + 1)) ∧ (place locM j ≤ y ∧ y ≤ place locM (j + 1))

/-- After the loops over the cells: the corners of valid cells are at their places, the others are invalid there;
the refinements of the valid cells are in place; the valid points are those of refined valid cells. -/
theorem refineCells_ok (I : Interp P) (g : Grid P) (hp : Plain g) (locN locM : Nat → Nat) (hN : ∀ c, 0 < locN c)
    (hM : ∀ c, 0 < locM c) :
    ∃ R, refineCells I g (plainSplines g) locN locM (place locN (g.rows - 1) + 1) (place locM (g.cols - 1) + 1) = .ok R ∧
      R.rows = place locN (g.rows - 1) + 1 ∧ R.cols = place locM (g.cols - 1) + 1 ∧
      (∀ n m, InFace g n m → R.cell (place locN n) (place locM m) = g.cell n m) ∧
      (∀ n m, ¬ InFace g n m → R.cell (place locN n) (place locM m) = inv) ∧
      (∀ n m a b, n + 1 < g.rows → m + 1 < g.cols → faceValid g n m = true → a ≤ locN n → b ≤ locM m →
        R.cell (place locN n + a) (place locM m + b) = cellPoint I g (locN n) (locM m) n m a b) ∧
      (I.Good → ∀ x y, valid (R.cell x y) = true ↔
        ∃ i j, i + 1 < g.rows ∧ j + 1 < g.cols ∧ faceValid g i j = true ∧ Covers locN locM x y i j) := by
  let Done : Nat → Nat → Nat → Nat → Prop := fun cn cm n m =>
    ∃ i j, (i < cn ∨ (i = cn ∧ j < cm)) ∧ i + 1 < g.rows ∧ j + 1 < g.cols ∧ faceValid g i j = true ∧ Corner n m i j
  let Cov : Nat → Nat → Nat → Nat → Prop := fun cn cm x y =>
    ∃ i j, (i < cn ∨ (i = cn ∧ j < cm)) ∧ i + 1 < g.rows ∧ j + 1 < g.cols ∧ faceValid g i j = true ∧ Covers locN locM x y i j
  let Inv : Nat → Nat → Grid P → Prop := fun cn cm R =>
    R.rows = place locN (g.rows - 1) + 1 ∧ R.cols = place locM (g.cols - 1) + 1 ∧
      (∀ n m, Done cn cm n m → R.cell (place locN n) (place locM m) = g.cell n m) ∧
      (∀ n m, ¬ Done cn cm n m → R.cell (place locN n) (place locM m) = inv) ∧
      (∀ n m a b, (n < cn ∨ (n = cn ∧ m < cm)) → m + 1 < g.cols → faceValid g n m = true → a ≤ locN n → b ≤ locM m →
        R.cell (place locN n + a) (place locM m + b) = cellPoint I g (locN n) (locM m) n m a b) ∧
      (I.Good → ∀ x y, valid (R.cell x y) = true ↔ Cov cn cm x y)
  obtain ⟨⟨R, k⟩, h1, h2, -⟩ := forRange_inv (f := fun cn (s : Grid P × Nat) => (do
      let t ← forRange 0 (g.cols - 1) (fun cm (t : Grid P × Nat) => do
        let R ← refineCell I g (plainSplines g) (locN cn) (locM cm) s.2 t.2 cn cm t.1
        .ok (R, t.2 + locM cm)) (s.1, 0)
      .ok (t.1, s.2 + locN cn) : Res (Grid P × Nat)))
    (fun cn s => Inv cn 0 s.1 ∧ s.2 = place locN cn) (Nat.zero_le (g.rows - 1))
    (s := ((⟨place locN (g.rows - 1) + 1, place locM (g.cols - 1) + 1, fun _ _ => inv, 0, 0, 0, 0⟩ : Grid P), 0))
    ⟨⟨rfl, rfl, fun n m ⟨i, j, hij, _⟩ => absurd hij (by omega), fun n m _ => rfl, fun n m a b hij => absurd hij (by omega), fun _ x y =>
      ⟨fun h => absurd h (by show ¬ valid (inv : P) = true; rw [PointLike.valid_inv]; exact Bool.false_ne_true),
        fun ⟨i, j, hij, _⟩ => absurd hij (by omega)⟩⟩, rfl⟩ (by
    rintro cn ⟨R, k⟩ _ hcn ⟨hI, hk⟩
    simp only at hI hk
    subst hk
    obtain ⟨⟨T, l⟩, h3, h4, -⟩ := forRange_inv (f := fun cm (t : Grid P × Nat) => (do
        let R ← refineCell I g (plainSplines g) (locN cn) (locM cm) (place locN cn) t.2 cn cm t.1
        .ok (R, t.2 + locM cm) : Res (Grid P × Nat)))
      (fun cm t => Inv cn cm t.1 ∧ t.2 = place locM cm) (Nat.zero_le (g.cols - 1)) (s := (R, 0)) ⟨hI, rfl⟩ (by
      rintro cm ⟨T, l⟩ _ hcm ⟨⟨hr, hc, hd, hnd, hcp, hv⟩, hl⟩
      simp only at hr hc hd hnd hcp hv hl
      subst hl
      have b1 : place locN cn + locN cn ≤ place locN (g.rows - 1) := place_mono locN (n := cn + 1) (by omega)
      have b2 : place locM cm + locM cm ≤ place locM (g.cols - 1) := place_mono locM (n := cm + 1) (by omega)
      refine ⟨_, by
        rw [refineCell_ok I g hp _ _ _ _ cn cm T (hN cn) (hM cm) (by omega) (by omega) (by omega) (by omega), Res.ok_bind],
        ⟨?_, ?_, ?_, ?_, ?_, ?_⟩, rfl⟩
      · show (if _ then _ else _ : Grid P).rows = _
        split
        · exact hr
        · exact hr
      · show (if _ then _ else _ : Grid P).cols = _
        split
        · exact hc
        · exact hc
      · rintro n m ⟨i, j, hij, hi, hj, hf, hcor⟩
        show (if _ then _ else _ : Grid P).cell _ _ = _
        split
        · rw [filled_place I g locN locM hN hM]
          split
          · rfl
          · rename_i hv hno
            refine hd n m ⟨i, j, ?_, hi, hj, hf, hcor⟩
            rcases hij with hij | ⟨rfl, hij⟩
            · exact Or.inl hij
            · by_cases e : j = cm
              · subst e; exact absurd hcor hno
              · exact Or.inr ⟨rfl, by omega⟩
        · rename_i hv
          refine hd n m ⟨i, j, ?_, hi, hj, hf, hcor⟩
          rcases hij with hij | ⟨rfl, hij⟩
          · exact Or.inl hij
          · by_cases e : j = cm
            · subst e; exact absurd hf hv
            · exact Or.inr ⟨rfl, by omega⟩
      · intro n m hno
        have hold : ¬ Done cn cm n m := by
          rintro ⟨i, j, hij, hrest⟩
          exact hno ⟨i, j, by omega, hrest⟩
        show (if _ then _ else _ : Grid P).cell _ _ = _
        split
        · rename_i hv
          rw [filled_place I g locN locM hN hM, if_neg]
          · exact hnd n m hold
          · intro hcor
            exact hno ⟨cn, cm, Or.inr ⟨rfl, by omega⟩, by omega, by omega, hv, hcor⟩
        · exact hnd n m hold
      · intro n m a b hij hm hf ha hb
        show (if _ then _ else _ : Grid P).cell _ _ = _
        split
        · rename_i hv
          simp only [filled]
          split
          · rename_i hin
            exact cellPoint_agree I g locN locM hN hM (by omega) (by omega) ha hb (by omega) (by omega)
          · rename_i hout
            refine hcp n m a b ?_ hm hf ha hb
            rcases hij with hij | ⟨rfl, hij⟩
            · exact Or.inl hij
            · by_cases e : m = cm
              · subst e; omega
              · exact Or.inr ⟨rfl, by omega⟩
        · rename_i hv
          refine hcp n m a b ?_ hm hf ha hb
          rcases hij with hij | ⟨rfl, hij⟩
          · exact Or.inl hij
          · by_cases e : m = cm
            · subst e; exact absurd hf hv
            · exact Or.inr ⟨rfl, by omega⟩
      · intro hI x y
        have hold : Cov cn cm x y → Cov cn (cm + 1) x y := by
          rintro ⟨i, j, hij, hrest⟩
          exact ⟨i, j, by omega, hrest⟩
        show valid ((if _ then _ else _ : Grid P).cell x y) = true ↔ _
        split
        · rename_i hf
          simp only [filled]
          by_cases c : (place locN cn ≤ x ∧ x < place locN cn + (locN cn + 1)) ∧
              (place locM cm ≤ y ∧ y < place locM cm + (locM cm + 1))
          · rw [if_pos c]
            refine ⟨fun _ => ⟨cn, cm, Or.inr ⟨rfl, by omega⟩, by omega, by omega, hf, ?_⟩,
              fun _ => cellPoint_valid I hI g hp _ _ _ _ _ _ hf⟩
            unfold Covers
            rw [place, place]; omega
          · rw [if_neg c, hv hI x y]
            refine ⟨hold, ?_⟩
            rintro ⟨i, j, hij, hi, hj, hfv, hcv⟩
            refine ⟨i, j, ?_, hi, hj, hfv, hcv⟩
            rcases hij with hij | ⟨rfl, hij⟩
            · exact Or.inl hij
            · by_cases e : j = cm
              · subst e
                unfold Covers at hcv
                rw [place, place] at hcv
                exact absurd (show _ ∧ _ by omega) c
              · exact Or.inr ⟨rfl, by omega⟩
        · rename_i hf
          rw [hv hI x y]
          refine ⟨hold, ?_⟩
          rintro ⟨i, j, hij, hi, hj, hfv, hcv⟩
          refine ⟨i, j, ?_, hi, hj, hfv, hcv⟩
          rcases hij with hij | ⟨rfl, hij⟩
          · exact Or.inl hij
          · by_cases e : j = cm
            · subst e; exact absurd hfv hf
            · exact Or.inr ⟨rfl, by omega⟩)
    refine ⟨_, by rw [h3, Res.ok_bind], ?_, rfl⟩
    obtain ⟨hr, hc, hd, hnd, hcp, hv⟩ := h4
    simp only at hr hc hd hnd hcp hv
    refine ⟨hr, hc, ?_, ?_, ?_, ?_⟩
    · rintro n m ⟨i, j, hij, hi, hj, hrest⟩
      exact hd n m ⟨i, j, by omega, hi, hj, hrest⟩
    · intro n m hno
      refine hnd n m ?_
      rintro ⟨i, j, hij, hrest⟩
      exact hno ⟨i, j, by omega, hrest⟩
    · intro n m a b hij hm
      exact hcp n m a b (by omega) hm
    · intro hI x y
      rw [hv hI x y]
      constructor
      · rintro ⟨i, j, hij, hrest⟩
        exact ⟨i, j, by omega, hrest⟩
      · rintro ⟨i, j, hij, hi, hj, hrest⟩
        exact ⟨i, j, by omega, hi, hj, hrest⟩)
  obtain ⟨hr, hc, hd, hnd, hcp, hv⟩ := h2
  simp only at hr hc hd hnd hcp hv
  refine ⟨R, ?_, hr, hc, ?_, ?_, ?_, ?_⟩
  · unfold refineCells
    rw [hp.numN, hp.numM, h1, Res.ok_bind]
  · rintro n m ⟨i, j, hi, hj, hrest⟩
    rw [hp.numN] at hi; rw [hp.numM] at hj
    exact hd n m ⟨i, j, by omega, hi, hj, hrest⟩
  · intro n m hno
    refine hnd n m ?_
    rintro ⟨i, j, hij, hi, hj, hrest⟩
    exact hno ⟨i, j, by rw [hp.numN]; exact hi, by rw [hp.numM]; exact hj, hrest⟩
  · intro n m a b hn hm
    exact hcp n m a b (by omega) hm
  · intro hI x y
    rw [hv hI x y]
    constructor
    · rintro ⟨i, j, hij, hrest⟩
      exact ⟨i, j, hrest⟩
    · rintro ⟨i, j, hi, hj, hrest⟩
      exact ⟨i, j, by omega, hi, hj, hrest⟩

/-- A point between two lines of the refined grid belongs to a cell, unless it lies on an original line. -/
theorem place_between (loc : Nat → Nat) {c x i : Nat} (h : place loc c < x ∧ x < place loc (c + 1))
    (hi : place loc i ≤ x ∧ x ≤ place loc (i + 1)) : i = c := by
  rcases Nat.lt_trichotomy i c with h1 | h1 | h1
  · have := place_mono loc (show i + 1 ≤ c by omega); omega
  · exact h1
  · have := place_mono loc (show c + 1 ≤ i by omega); omega

theorem place_from (loc : Nat → Nat) (hl : ∀ c, 0 < loc c) {c x i : Nat} (h : place loc c ≤ x ∧ x < place loc (c + 1))
    (hi : place loc i ≤ x ∧ x ≤ place loc (i + 1)) : i = c ∨ i + 1 = c := by
  rcases Nat.lt_trichotomy i c with h1 | h1 | h1
  · by_cases e : i + 1 = c
    · exact Or.inr e
    · have := place_lt loc hl (show i + 1 < c by omega); omega
  · exact Or.inl h1
  · have := place_mono loc (show c + 1 ≤ i by omega); omega

theorem place_upto (loc : Nat → Nat) (hl : ∀ c, 0 < loc c) {c x i : Nat} (h : place loc c < x ∧ x ≤ place loc (c + 1))
    (hi : place loc i ≤ x ∧ x ≤ place loc (i + 1)) : i = c ∨ i = c + 1 := by
  rcases Nat.lt_trichotomy i c with h1 | h1 | h1
  · have := place_mono loc (show i + 1 ≤ c by omega); omega
  · exact Or.inl h1
  · by_cases e : i = c + 1
    · exact Or.inr e
    · have := place_lt loc hl (show c + 1 < i by omega); omega

/-- If the four corners of a part of cell `(cn, cm)` belong to refined valid cells, the cell is valid. -/
theorem covered_cell (g : Grid P) (locN locM : Nat → Nat) (hN : ∀ c, 0 < locN c) (hM : ∀ c, 0 < locM c)
    (V : Nat → Nat → Prop)
    (hV : ∀ x y, V x y → ∃ i j, i + 1 < g.rows ∧ j + 1 < g.cols ∧ faceValid g i j = true ∧ Covers locN locM x y i j)
    {cn cm x y : Nat} (hx : place locN cn ≤ x ∧ x < place locN (cn + 1)) (hy : place locM cm ≤ y ∧ y < place locM (cm + 1))
    (h1 : V x y) (h2 : V x (y + 1)) (h3 : V (x + 1) y) (h4 : V (x + 1) (y + 1)) : faceValid g cn cm = true := by
  by_cases a : locN cn = 1
  · by_cases b : locM cm = 1
    · rw [place] at hx hy
      have corner : ∀ k l, V (place locN k) (place locM l) → valid (g.node k l) = true := by
        intro k l hv
        obtain ⟨i, j, _, _, hf, ⟨c1, c2⟩, c3, c4⟩ := hV _ _ hv
        rw [faceValid_iff] at hf
        have kk : k = i ∨ k = i + 1 := by
          have := place_hit locN hN (c := i) (a := place locN k - place locN i) (n := k) (by rw [place] at c2; omega) (by omega)
          omega
        have ll : l = j ∨ l = j + 1 := by
          have := place_hit locM hM (c := j) (a := place locM l - place locM j) (n := l) (by rw [place] at c4; omega) (by omega)
          omega
        rcases kk with rfl | rfl <;> rcases ll with rfl | rfl
        · exact hf.1
        · exact hf.2.1
        · exact hf.2.2.1
        · exact hf.2.2.2
      have ex : x = place locN cn := by omega
      have ey : y = place locM cm := by omega
      have ex' : x + 1 = place locN (cn + 1) := by rw [place]; omega
      have ey' : y + 1 = place locM (cm + 1) := by rw [place]; omega
      rw [faceValid_iff]
      refine ⟨corner _ _ (ex ▸ ey ▸ h1), corner _ _ ?_, corner _ _ ?_, corner _ _ ?_⟩
      · rw [← ey', ← ex]; exact h2
      · rw [← ex', ← ey]; exact h3
      · rw [← ex', ← ey']; exact h4
    · -- a line strictly inside the column of cells
      have hloc := hM cm
      have hy' := hy
      rw [place] at hy'
      obtain ⟨y', hy1, hy2, hv1, hv2⟩ : ∃ y', place locM cm < y' ∧ y' < place locM (cm + 1) ∧ V x y' ∧ V (x + 1) y' := by
        by_cases e : place locM cm < y
        · exact ⟨y, e, hy.2, h1, h3⟩
        · exact ⟨y + 1, by omega, by rw [place]; omega, h2, h4⟩
      obtain ⟨i, j, hi, hj, hf, c1, c2⟩ := hV _ _ hv1
      obtain ⟨i', j', hi', hj', hf', c1', c2'⟩ := hV _ _ hv2
      have ej := place_between locM ⟨hy1, hy2⟩ c2
      have ej' := place_between locM ⟨hy1, hy2⟩ c2'
      subst ej ej'
      rcases place_from locN hN hx c1 with rfl | e
      · exact hf
      · rcases place_upto locN hN (c := cn) (x := x + 1) (by omega) c1' with rfl | e'
        · exact hf'
        · subst e
          subst e'
          rw [faceValid_iff] at hf hf' ⊢
          exact ⟨hf.2.2.1, hf.2.2.2, hf'.1, hf'.2.1⟩
  · have hloc := hN cn
    have hx' := hx
    rw [place] at hx'
    obtain ⟨x', hx1, hx2, hv1, hv2⟩ : ∃ x', place locN cn < x' ∧ x' < place locN (cn + 1) ∧ V x' y ∧ V x' (y + 1) := by
      by_cases e : place locN cn < x
      · exact ⟨x, e, hx.2, h1, h2⟩
      · exact ⟨x + 1, by omega, by rw [place]; omega, h3, h4⟩
    obtain ⟨i, j, hi, hj, hf, c1, c2⟩ := hV _ _ hv1
    obtain ⟨i', j', hi', hj', hf', c1', c2'⟩ := hV _ _ hv2
    have ei := place_between locN ⟨hx1, hx2⟩ c1
    have ei' := place_between locN ⟨hx1, hx2⟩ c1'
    subst ei ei'
    rcases place_from locM hM hy c2 with rfl | e
    · exact hf
    · rcases place_upto locM hM (c := cm) (x := y + 1) (by omega) c2' with rfl | e'
      · exact hf'
      · subst e
        subst e'
        rw [faceValid_iff] at hf hf' ⊢
        exact ⟨hf.2.1, hf'.1, hf.2.2.2, hf'.2.2.1⟩

/-! ## The lines kept by de-refinement -/

/-- The lines not strictly inside the range. -/
def kept (num lo up : Nat) : List Nat := (List.range num).filter fun i => !(decide (lo < i) && decide (i < up))

theorem filter_skip (lo up num : Nat) (k : Nat) : ∀ i, lo < i → i + k = up →
    (List.range' i (num - i)).filter (fun i => !(decide (lo < i) && decide (i < up))) =
    (List.range' up (num - up)).filter (fun i => !(decide (lo < i) && decide (i < up))) := by
  induction k with
  | zero => intro i _ h; rw [show i = up by omega]
  | succ k ih =>
    intro i hi h
    by_cases e : i < num
    · rw [show num - i = num - (i + 1) + 1 by omega, List.range'_succ, List.filter_cons_of_neg (by simp; omega),
        ih (i + 1) (by omega) (by omega)]
    · rw [show num - i = 0 by omega, show num - up = 0 by omega]; rfl

theorem linesKept_from (num lo up : Nat) (fuel : Nat) : ∀ i, (i ≤ lo ∨ up ≤ i) → num - i ≤ fuel →
    linesKept num lo up (if up > lo then up - lo else 1) fuel i =
      some ((List.range' i (num - i)).filter fun i => !(decide (lo < i) && decide (i < up))) := by
  induction fuel with
  | zero =>
    intro i _ hf
    unfold linesKept
    rw [if_neg (by omega), show num - i = 0 by omega]; rfl
  | succ fuel ih =>
    intro i hi hf
    unfold linesKept
    by_cases e : i < num
    · rw [if_pos e, show num - i = num - (i + 1) + 1 by omega, List.range'_succ, List.filter_cons_of_pos (by simp; omega)]
      by_cases c : i ≥ lo ∧ i < up
      · have hil : i = lo := by omega
        subst hil
        rw [if_pos c, if_pos (show up > i by omega), show i + (up - i) = up by omega]
        have := ih up (Or.inr (Nat.le_refl _)) (by omega)
        rw [if_pos (show up > i by omega)] at this
        rw [this, filter_skip i up num (up - (i + 1)) (i + 1) (by omega) (by omega)]
        rfl
      · rw [if_neg c, ih (i + 1) (by omega) (by omega)]
        rfl
    · rw [if_neg e, show num - i = 0 by omega]; rfl

theorem linesKept_eq (num lo up fuel : Nat) (h : num ≤ fuel) :
    linesKept num lo up (if up > lo then up - lo else 1) fuel 0 = some (kept num lo up) := by
  rw [linesKept_from num lo up fuel 0 (Or.inl (Nat.zero_le _)) (by omega)]
  unfold kept
  rw [List.range_eq_range']
  rfl

/-- De-refining walks over the original lines. -/
theorem linesKept_place (loc : Nat → Nat) (N lo up step : Nat) (hl : ∀ c, 0 < loc c)
    (hs : ∀ n, (if place loc n ≥ lo ∧ place loc n < up then step else 1) = loc n) (fuel : Nat) :
    ∀ n, n ≤ N → N - n ≤ fuel →
      linesKept (place loc (N - 1) + 1) lo up step fuel (place loc n) = some ((List.range' n (N - n)).map (place loc)) ∨ N = 0 := by
  induction fuel with
  | zero =>
    intro n hn hf
    by_cases e : N = 0
    · exact Or.inr e
    left
    unfold linesKept
    have := place_lt loc hl (show N - 1 < n by omega)
    rw [if_neg (by omega), show N - n = 0 by omega]; rfl
  | succ fuel ih =>
    intro n hn hf
    by_cases e : N = 0
    · exact Or.inr e
    left
    unfold linesKept
    by_cases c : n < N
    · have := place_mono loc (show n ≤ N - 1 by omega)
      rw [if_pos (by omega), hs n]
      have := (ih (n + 1) (by omega) (by omega)).resolve_right e
      rw [place] at this
      rw [this, show N - n = N - (n + 1) + 1 by omega, List.range'_succ]
      rfl
    · have := place_lt loc hl (show N - 1 < n by omega)
      rw [if_neg (by omega), show N - n = 0 by omega]; rfl

end Verif.Curvi
