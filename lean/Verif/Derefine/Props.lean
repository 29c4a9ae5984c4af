import Verif.Derefine.Model
import Mathlib.Data.List.Basic
import Mathlib.Tactic.SplitIfs

/-!
# What is proved of the elements that Casulli derefinement deletes (C95)
-/
namespace Verif.Derefine

variable {c : Cells}

/-- `e` can be reached from `a` in at most `k` steps over sides and corners. -/
inductive Within (c : Cells) (a : Nat) : Nat → Nat → Prop
  | start (k : Nat) : Within c a k a
  | step {k e j : Nat} : Within c a k e → j ∈ c.direct e ∨ j ∈ c.indirect e → Within c a (k + 1) j

theorem Within.mono {a k k' e : Nat} (h : Within c a k e) (hk : k ≤ k') : Within c a k' e := by
  induction h generalizing k' with
  | start k => exact .start k'
  | step _ hj ih =>
    obtain ⟨k'', rfl⟩ : ∃ x, k' = x + 1 := ⟨k' - 1, by omega⟩
    exact .step (ih (by omega)) hj

/-- No element is a neighbour of itself. -/
def Irreflexive (c : Cells) : Prop := ∀ e, e ∉ c.direct e ∧ e ∉ c.indirect e

/-- Marks an element with these never becomes a node element again. -/
def Done (m : Mark) : Prop := m = .cell ∨ m = .edgeFirst ∨ m = .edgeAfter

theorem spread_mask {front : List Nat} {can : Mark → Bool} {new : Mark} (hc : can new = false) :
    ∀ {l : List Nat} {s : State} (j : Nat), (spread c front can new l s).1 j =
      if j ∈ l ∧ c.quad j = true ∧ can (s.1 j) = true then new else s.1 j
  | [], s, j => by simp [spread]
  | i :: l, s, j => by
    unfold spread
    by_cases h : (c.quad i && can (s.1 i)) = true
    · rw [if_pos h, spread_mask hc j]
      simp only [Bool.and_eq_true] at h
      by_cases hj : j = i
      · subst hj
        simp [put, hc, h]
      · simp [put, hj]
    · rw [if_neg h, spread_mask hc j]
      by_cases hj : j = i
      · subst hj
        have h' : ¬ (c.quad j = true ∧ can (s.1 j) = true) := by simpa using h
        rw [if_neg (fun x => h' x.2), if_neg (fun x => h' x.2)]
      · simp [hj]

theorem spread_next {front : List Nat} {can : Mark → Bool} {new : Mark} :
    ∀ {l : List Nat} {s : State} {x : Nat}, x ∈ (spread c front can new l s).2 → x ∈ s.2 ∨ x ∈ l
  | [], s, x, h => Or.inl h
  | i :: l, s, x, h => by
    unfold spread at h
    by_cases hc : (c.quad i && can (s.1 i)) = true
    · rw [if_pos hc] at h
      rcases spread_next h with h | h
      · simp only at h
        split_ifs at h
        · exact Or.inl h
        · rcases List.mem_append.1 h with h | h
          · exact Or.inl h
          · exact Or.inr (List.mem_cons.2 (Or.inl (List.mem_singleton.1 h)))
      · exact Or.inr (List.mem_cons_of_mem _ h)
    · rw [if_neg hc] at h
      rcases spread_next h with h | h
      · exact Or.inl h
      · exact Or.inr (List.mem_cons_of_mem _ h)

theorem cover_mask : ∀ {l : List Nat} {f : Nat → Mark} (j : Nat),
    cover c l f j = if j ∈ l ∧ c.quad j = true then .cell else f j
  | [], f, j => by simp [cover]
  | i :: l, f, j => by
    unfold cover
    rw [cover_mask j]
    by_cases hj : j = i
    · subst hj
      by_cases hq : c.quad j = true
      · simp [hq, put]
      · simp [hq]
    · by_cases hq : c.quad i = true
      · simp [hq, put, hj]
      · simp [hq, hj]

/-- What a visit does to a mark. -/
theorem visit_cases {front : List Nat} {s : State} {e : Nat} (hi : Irreflexive c) (j : Nat) :
    (visit c front s e).1 j = s.1 j ∨
    (j = e ∧ s.1 e = .nodeFirst ∧ (visit c front s e).1 j = .nodeAfter ∧
      ∀ i ∈ c.indirect e, c.quad i = true → (visit c front s e).1 i = .cell) ∨
    ((j = e ∨ j ∈ c.direct e ∨ j ∈ c.indirect e) ∧ (j ≠ e → c.quad j = true) ∧
      Done ((visit c front s e).1 j)) ∨
    (j ∈ c.direct e ∧ c.quad j = true ∧ s.1 j = .unassigned ∧ (visit c front s e).1 j = .nodeFirst) := by
  cases hm : s.1 e with
  | nodeFirst =>
    have hv : ∀ i, (visit c front s e).1 i = put (cover c (c.indirect e)
        (spread c front (fun m => m == .cell || m == .unassigned) .edgeFirst (c.direct e) s).1) e
          .nodeAfter i := by intro i; simp [visit, hm]
    simp only [hv, put]
    by_cases hj : j = e
    · right; left
      refine ⟨hj, trivial, by rw [if_pos hj], ?_⟩
      intro i hii hq
      have : i ≠ e := by rintro rfl; exact (hi i).2 hii
      rw [if_neg this, cover_mask, if_pos ⟨hii, hq⟩]
    · rw [if_neg hj, cover_mask]
      by_cases h1 : j ∈ c.indirect e ∧ c.quad j = true
      · rw [if_pos h1]
        right; right; left
        exact ⟨Or.inr (Or.inr h1.1), fun _ => h1.2, Or.inl rfl⟩
      · rw [if_neg h1, spread_mask (by decide)]
        by_cases h2 : j ∈ c.direct e ∧ c.quad j = true ∧
            (s.1 j == Mark.cell || s.1 j == Mark.unassigned) = true
        · rw [if_pos h2]
          right; right; left
          exact ⟨Or.inr (Or.inl h2.1), fun _ => h2.2.1, Or.inr (Or.inl rfl)⟩
        · rw [if_neg h2]
          exact Or.inl rfl
  | edgeFirst =>
    have hv : ∀ i, (visit c front s e).1 i = put (spread c front (fun m => m == .unassigned) .edgeFirst
        (c.indirect e) (spread c front (fun m => m == .unassigned) .nodeFirst (c.direct e) s)).1 e
          .edgeAfter i := by intro i; simp [visit, hm]
    simp only [hv, put]
    by_cases hj : j = e
    · right; right; left
      refine ⟨Or.inl hj, fun h => absurd hj h, ?_⟩
      rw [if_pos hj]
      exact Or.inr (Or.inr rfl)
    · rw [if_neg hj, spread_mask (by decide), spread_mask (by decide)]
      by_cases h2 : j ∈ c.direct e ∧ c.quad j = true ∧ (s.1 j == Mark.unassigned) = true
      · rw [if_pos h2, if_neg (by simp)]
        right; right; right
        exact ⟨h2.1, h2.2.1, by simpa using h2.2.2, rfl⟩
      · rw [if_neg h2]
        by_cases h1 : j ∈ c.indirect e ∧ c.quad j = true ∧ (s.1 j == Mark.unassigned) = true
        · rw [if_pos h1]
          right; right; left
          exact ⟨Or.inr (Or.inr h1.1), fun _ => h1.2.1, Or.inr (Or.inl rfl)⟩
        · rw [if_neg h1]
          exact Or.inl rfl
  | cell => left; simp [visit, hm]
  | nodeAfter => left; simp [visit, hm]
  | edgeAfter => left; simp [visit, hm]
  | unassigned => left; simp [visit, hm]

theorem visit_next {front : List Nat} {s : State} {e x : Nat} (h : x ∈ (visit c front s e).2) :
    x ∈ s.2 ∨ x ∈ c.direct e ∨ x ∈ c.indirect e := by
  cases hm : s.1 e with
  | nodeFirst =>
    simp only [visit, hm] at h
    rcases spread_next h with h | h
    · exact Or.inl h
    · exact Or.inr (Or.inl h)
  | edgeFirst =>
    simp only [visit, hm] at h
    rcases spread_next h with h | h
    · rcases spread_next h with h | h
      · exact Or.inl h
      · exact Or.inr (Or.inl h)
    · exact Or.inr (Or.inr h)
  | cell => simp only [visit, hm] at h; exact Or.inl h
  | nodeAfter => simp only [visit, hm] at h; exact Or.inl h
  | edgeAfter => simp only [visit, hm] at h; exact Or.inl h
  | unassigned => simp only [visit, hm] at h; exact Or.inl h

/-- What holds of the marks at any time: marked elements are near enough, they are quadrilaterals or the
first one, and the elements at the corners of a node element that is finished are no node elements. -/
structure Inv (c : Cells) (a k : Nat) (f : Nat → Mark) : Prop where
  near : ∀ j, f j ≠ .unassigned → Within c a k j
  quads : ∀ j, f j ≠ .unassigned → j = a ∨ c.quad j = true
  apart : ∀ e, f e = .nodeAfter → ∀ j ∈ c.indirect e, c.quad j = true → Done (f j)

theorem inv_visit {a k : Nat} {front : List Nat} {s : State} {e : Nat} (hi : Irreflexive c)
    (h : Inv c a (k + 1) s.1) (he : Within c a k e) : Inv c a (k + 1) (visit c front s e).1 := by
  have hd : ∀ j, Done (s.1 j) → Done ((visit c front s e).1 j) := by
    intro j hj
    rcases visit_cases (front := front) (s := s) (e := e) hi j with h1 | ⟨rfl, h1, -⟩ | ⟨-, -, h1⟩ |
      ⟨-, -, h1, -⟩
    · rw [h1]; exact hj
    · rw [h1] at hj; rcases hj with hj | hj | hj <;> cases hj
    · exact h1
    · rw [h1] at hj; rcases hj with hj | hj | hj <;> cases hj
  constructor
  · intro j hj
    rcases visit_cases (front := front) (s := s) (e := e) hi j with h1 | ⟨rfl, -⟩ | ⟨h1, -⟩ | ⟨h1, -⟩
    · rw [h1] at hj; exact h.near j hj
    · exact he.mono (by omega)
    · rcases h1 with rfl | h1
      · exact he.mono (by omega)
      · exact .step he h1
    · exact .step he (Or.inl h1)
  · intro j hj
    rcases visit_cases (front := front) (s := s) (e := e) hi j with h1 | ⟨rfl, h1, -⟩ | ⟨h1, h2, -⟩ |
      ⟨-, h1, -⟩
    · rw [h1] at hj; exact h.quads j hj
    · exact h.quads j (by rw [h1]; decide)
    · by_cases hje : j = e
      · by_cases hu : s.1 j = .unassigned
        · exfalso
          subst hje
          apply hj
          simp [visit, hu]
        · exact h.quads j hu
      · exact Or.inr (h2 hje)
    · exact Or.inr h1
  · intro x hx j hj hq
    rcases visit_cases (front := front) (s := s) (e := e) hi x with h1 | ⟨rfl, -, -, h1⟩ |
      ⟨-, -, h1⟩ | ⟨-, -, -, h1⟩
    · rw [h1] at hx; exact hd j (h.apart x hx j hj hq)
    · exact Or.inl (h1 j hj hq)
    · rw [hx] at h1; rcases h1 with h1 | h1 | h1 <;> cases h1
    · rw [hx] at h1; cases h1

theorem inv_foldl {a k : Nat} {front : List Nat} (hi : Irreflexive c) : ∀ {l : List Nat} {s : State},
    Inv c a (k + 1) s.1 → (∀ x ∈ s.2, Within c a (k + 1) x) → (∀ e ∈ l, Within c a k e) →
    Inv c a (k + 1) (l.foldl (visit c front) s).1 ∧
      ∀ x ∈ (l.foldl (visit c front) s).2, Within c a (k + 1) x
  | [], s, h1, h2, _ => ⟨h1, h2⟩
  | e :: l, s, h1, h2, h3 => by
    have he := h3 e List.mem_cons_self
    apply inv_foldl hi (inv_visit hi h1 he)
    · intro x hx
      rcases visit_next hx with hx | hx
      · exact h2 x hx
      · exact .step he hx
    · intro x hx; exact h3 x (List.mem_cons_of_mem _ hx)

theorem inv_rounds {a : Nat} (hi : Irreflexive c) : ∀ {n k : Nat} {f : Nat → Mark} {front : List Nat},
    Inv c a k f → (∀ x ∈ front, Within c a k x) → Inv c a (k + n) (rounds c n f front)
  | 0, k, f, front, h, _ => h
  | n + 1, k, f, front, h, hf => by
    unfold rounds
    by_cases h0 : front = []
    · rw [if_pos h0]
      exact ⟨fun j hj => (h.near j hj).mono (by omega), h.quads, h.apart⟩
    · rw [if_neg h0]
      obtain ⟨g1, g2⟩ := inv_foldl (front := front) hi (l := front) (s := (f, []))
        ⟨fun j hj => (h.near j hj).mono (Nat.le_succ k), h.quads, h.apart⟩ (by simp) hf
      have := inv_rounds hi (n := n) g1 g2
      rwa [Nat.add_right_comm, Nat.add_assoc] at this

theorem inv_marks {f : Nat → Mark} (hi : Irreflexive c) (h : marks c = .ok f) :
    Inv c (seed c) 1000 f := by
  unfold marks at h
  by_cases h0 : c.num = 0
  · rw [if_pos h0] at h; cases h
  · rw [if_neg h0, Res.ok.injEq] at h
    subst h
    have := inv_rounds (a := seed c) hi (n := 1000) (k := 0)
      (f := put (fun _ => .unassigned) (seed c) .nodeFirst) (front := [seed c])
      ⟨by
        intro j hj
        by_cases hs : j = seed c
        · rw [hs]; exact .start 0
        · simp [put, hs] at hj, by
        intro j hj
        by_cases hs : j = seed c
        · exact Or.inl hs
        · simp [put, hs] at hj, by
        intro e he
        by_cases hs : e = seed c <;> simp [put, hs] at he⟩
      (by intro x hx; rw [List.mem_singleton.1 hx]; exact .start 0)
    rwa [Nat.zero_add] at this

theorem mem_elements {l : List Nat} (h : elements c = .ok l) :
    ∃ f, marks c = .ok f ∧ ∀ e, e ∈ l ↔ e < c.num ∧ f e = .nodeAfter ∧ ∃ t ∈ c.types e, 0 < t := by
  unfold elements at h
  cases hm : marks c with
  | throw => rw [hm] at h; cases h
  | ub => rw [hm] at h; cases h
  | ok f =>
    rw [hm] at h
    simp only [Res.bind, Res.ok.injEq] at h
    subst h
    refine ⟨f, rfl, fun e => ?_⟩
    simp [List.mem_filter]

/-- The elements announced are different elements of the mesh, each with a node in the polygon, and
quadrilaterals, except perhaps the one it all begins with. -/
theorem announced (hi : Irreflexive c) {l : List Nat} (h : elements c = .ok l) :
    l.Nodup ∧ ∀ e ∈ l, e < c.num ∧ (∃ t ∈ c.types e, t ≠ 0) ∧ (e = seed c ∨ c.quad e = true) := by
  obtain ⟨f, hf, hl⟩ := mem_elements h
  constructor
  · unfold elements at h
    rw [hf] at h
    simp only [Res.bind, Res.ok.injEq] at h
    rw [← h]
    exact List.nodup_range.filter _
  · intro e he
    obtain ⟨h1, h2, t, ht, hpos⟩ := (hl e).1 he
    exact ⟨h1, ⟨t, ht, by omega⟩, (inv_marks hi hf).quads e (by rw [h2]; decide)⟩

/-- No two of the quadrilaterals announced touch at a corner only. -/
theorem corners_apart (hi : Irreflexive c) {l : List Nat} (h : elements c = .ok l) {e j : Nat}
    (he : e ∈ l) (hj : j ∈ l) (hq : c.quad j = true) : j ∉ c.indirect e := by
  obtain ⟨f, hf, hl⟩ := mem_elements h
  intro hmem
  have h1 := ((hl e).1 he).2.1
  have h2 := ((hl j).1 hj).2.1
  rcases (inv_marks hi hf).apart e h1 j hmem hq with h3 | h3 | h3 <;> rw [h2] at h3 <;> cases h3

/-- With at least one element the call succeeds. -/
theorem succeeds (h : c.num ≠ 0) : ∃ l, elements c = .ok l := by
  unfold elements marks
  rw [if_neg h]
  exact ⟨_, rfl⟩

/-- It begins with a quadrilateral in the polygon if there is one. -/
theorem seed_inside (h : ∃ e < c.num, c.quad e = true ∧ ∀ t ∈ c.types e, t ≠ 0) :
    c.quad (seed c) = true ∧ ∀ t ∈ c.types (seed c), t ≠ 0 := by
  unfold seed
  cases hb : c.border.find? fun e => c.quad e && isSeed c e with
  | some e =>
    have := List.find?_some hb
    simpa [isSeed] using this
  | none =>
    simp only
    cases hr : (List.range c.num).find? fun e => c.quad e && isSeed c e with
    | some e =>
      have := List.find?_some hr
      simpa [isSeed] using this
    | none =>
      obtain ⟨e, he, hq, ht⟩ := h
      have := List.find?_eq_none.1 hr e (List.mem_range.2 he)
      simp only [hq, Bool.true_and, isSeed, List.all_eq_true, bne_iff_ne, ne_eq] at this
      exact absurd ht this

/-! ## A strip -/

/-- A strip of quadrilaterals in a row, from 0 to `n - 1`. -/
def strip (n : Nat) : Cells where
  num := n
  quad _ := true
  direct e := (List.range n).filter fun j => j + 1 == e || j == e + 1
  indirect _ := []
  types _ := [2, 2, 2, 2]
  border := List.range n

/-- A square of three by three. -/
def square : Cells where
  num := 9
  quad _ := true
  direct e := (List.range 9).filter fun j =>
    (j / 3 == e / 3 && (j % 3 + 1 == e % 3 || j % 3 == e % 3 + 1)) ||
    (j % 3 == e % 3 && (j / 3 + 1 == e / 3 || j / 3 == e / 3 + 1))
  indirect e := (List.range 9).filter fun j =>
    (j % 3 + 1 == e % 3 || j % 3 == e % 3 + 1) && (j / 3 + 1 == e / 3 || j / 3 == e / 3 + 1)
  types _ := [2, 2, 2, 2]
  border := [0]

example : Irreflexive square := by
  intro e
  simp [square]

example : elements square = .ok [0, 2, 6, 8] := by rfl

/-! ## Where it fails -/

/-- A mesh without elements is not refused: a mark is written out of bounds. -/
theorem empty_undefined (h : c.num = 0) : elements c = .ub := by
  unfold elements marks
  rw [if_pos h]
  rfl

/-- Elements more than a thousand steps from the first one stay, and so do all parts of the mesh that
do not hang together with it, in every mesh. -/
theorem far_kept (hi : Irreflexive c) {l : List Nat} (h : elements c = .ok l) {e : Nat}
    (he : ¬ Within c (seed c) 1000 e) : e ∉ l := by
  obtain ⟨f, hf, hl⟩ := mem_elements h
  intro hmem
  exact he ((inv_marks hi hf).near e (by rw [((hl e).1 hmem).2.1]; decide))

/-- Two strips of three that do not touch. -/
def twoStrips : Cells where
  num := 6
  quad _ := true
  direct e := (List.range 6).filter fun j => j / 3 == e / 3 && (j + 1 == e || j == e + 1)
  indirect _ := []
  types _ := [2, 2, 2, 2]
  border := List.range 6

/-- One of two equal parts is made coarser and the other not. -/
theorem other_part_kept : elements (strip 3) = .ok [0, 2] ∧ elements twoStrips = .ok [0, 2] := by
  exact ⟨rfl, rfl⟩

end Verif.Derefine
