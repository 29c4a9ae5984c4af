import Verif.Contacts.Projection
import Mathlib.Tactic.Linarith
import Mathlib.Tactic.Ring
import Mathlib.Tactic.FieldSimp
import Mathlib.Tactic.NormNum

/-!
# Single contacts are sought sideways (C92)
-/
namespace Verif.Contacts.Side
open Classical

/-- Every number of an edge and of a node is one of the mesh, and the edges at each node are listed:
what the administration makes. -/
structure Administrated (m : Line) : Prop where
  rows : m.at_.length = m.pos.length
  ends : ∀ e ∈ m.edges, e.1 < m.pos.length ∧ e.2 < m.pos.length
  listed : ∀ (n : Nat) (es : List Nat), m.at_[n]? = some es →
    ∀ i ∈ es, ∃ e, m.edges[i]? = some e ∧ (e.1 = n ∨ e.2 = n)

/-- `q` is the neighbour of `n` along the edge with number `i`. -/
def Neighbour (m : Line) (n i : Nat) (q : Pt) : Prop :=
  ∃ e : Nat × Nat, m.edges[i]? = some e ∧
    ((e.1 = n ∧ m.pos[e.2]? = some q) ∨ (e.2 = n ∧ m.pos[e.1]? = some q))

/-- The direction of the mesh at a node: along its only edge, or from one neighbour to the next. -/
inductive Along (m : Line) (n : Nat) (a b : Pt) : Prop where
  | tip (i : Nat) (he : m.at_[n]? = some [i]) (ha : m.pos[n]? = some a) (hb : Neighbour m n i b)
  | inner (i j : Nat) (l : List Nat) (he : m.at_[n]? = some (i :: j :: l)) (ha : Neighbour m n i a)
      (hb : Neighbour m n j b)

theorem other_eq {m : Line} {n i : Nat} {e : Nat × Nat} (he : m.edges[i]? = some e)
    (hn : e.1 = n ∨ e.2 = n) {q : Pt} (hq : m.pos[other e n]? = some q) : Neighbour m n i q := by
  unfold other at hq
  by_cases h : e.1 = n
  · rw [if_pos h] at hq; exact ⟨e, he, Or.inl ⟨h, hq⟩⟩
  · rw [if_neg h] at hq; exact ⟨e, he, Or.inr ⟨hn.resolve_left h, hq⟩⟩

theorem other_lt {m : Line} (hm : Administrated m) {i n : Nat} {e : Nat × Nat}
    (he : m.edges[i]? = some e) : other e n < m.pos.length := by
  have := hm.ends e (List.mem_of_getElem? he)
  unfold other
  split_ifs
  · exact this.2
  · exact this.1

theorem vget_lt {α : Type} {l : List α} {i : Nat} (h : i < l.length) : vget l i = .ok l[i] :=
  vget_eq_ok.2 (List.getElem?_eq_getElem h)

/-- Every node with an edge has a direction. -/
theorem direction_along {m : Line} (hm : Administrated m) {n : Nat} {es : List Nat}
    (he : m.at_[n]? = some es) (h0 : es ≠ []) :
    ∃ a b, direction m n = .ok (a, b) ∧ Along m n a b := by
  have hn : n < m.pos.length := by
    rw [← hm.rows]
    by_contra hc
    rw [List.getElem?_eq_none (Nat.le_of_not_lt hc)] at he
    cases he
  unfold direction
  rw [vget_eq_ok.2 he]
  simp only [Res.bind]
  match es, he, h0 with
  | [i], he, _ =>
    obtain ⟨e, hi, hin⟩ := hm.listed n _ he i (by simp)
    have hl := other_lt hm hi (n := n)
    refine ⟨m.pos[n], m.pos[other e n], ?_, ?_⟩
    · have v0 : vget [i] 0 = .ok i := vget_eq_ok.2 rfl
      simp only [List.length_singleton, one_ne_zero, if_false, if_true, v0, vget_eq_ok.2 hi,
        vget_lt hn, vget_lt hl]
    · exact .tip i he (List.getElem?_eq_getElem hn)
        (other_eq hi hin (List.getElem?_eq_getElem hl))
  | i :: j :: l, he, _ =>
    obtain ⟨e, hi, hin⟩ := hm.listed n _ he i (by simp)
    obtain ⟨e', hj, hjn⟩ := hm.listed n _ he j (by simp)
    have hl := other_lt hm hi (n := n)
    have hl' := other_lt hm hj (n := n)
    refine ⟨m.pos[other e n], m.pos[other e' n], ?_, ?_⟩
    · have v0 : vget (i :: j :: l) 0 = .ok i := vget_eq_ok.2 rfl
      have v1 : vget (i :: j :: l) 1 = .ok j := vget_eq_ok.2 rfl
      have c0 : ¬ (i :: j :: l).length = 0 := by simp
      have c1 : ¬ (i :: j :: l).length = 1 := by simp
      simp only [c0, c1, if_false, v0, v1, vget_eq_ok.2 hi, vget_eq_ok.2 hj,
        vget_lt hl, vget_lt hl']
    · exact .inner i j l he (other_eq hi hin (List.getElem?_eq_getElem hl))
        (other_eq hj hjn (List.getElem?_eq_getElem hl'))

theorem len_pos {a b : Pt} (h : a ≠ b) :
    0 < (b.x - a.x) ^ 2 + (b.y - a.y) ^ 2 ∧ len a b ≠ 0 := by
  have h1 : 0 < (b.x - a.x) ^ 2 + (b.y - a.y) ^ 2 := by
    rcases lt_or_eq_of_le (add_nonneg (sq_nonneg (b.x - a.x)) (sq_nonneg (b.y - a.y))) with h1 | h1
    · exact h1
    · exfalso
      apply h
      have hx : b.x - a.x = 0 := by nlinarith [sq_nonneg (b.x - a.x), sq_nonneg (b.y - a.y)]
      have hy : b.y - a.y = 0 := by nlinarith [sq_nonneg (b.x - a.x), sq_nonneg (b.y - a.y)]
      cases a; cases b
      simp only [Pt.mk.injEq] at *
      constructor <;> linarith
  exact ⟨h1, (Real.sqrt_pos.2 h1).ne'⟩

/-- Moving along the normal is moving by the direction turned to the right. -/
theorem moved_eq (n a b : Pt) (f : ℝ) :
    moved n a b f = ⟨n.x + f * (b.y - a.y), n.y - f * (b.x - a.x)⟩ := by
  unfold moved normal
  by_cases h : a = b
  · subst h
    have hl : len a a = 0 := by unfold len; simp
    rw [hl]; simp
  · obtain ⟨h1, h2⟩ := len_pos h
    rw [if_pos h1, Pt.mk.injEq]
    constructor
    · simp only; field_simp
    · simp only; field_simp; ring

/-- For every node with an edge the two segments end at the node moved by the direction of the mesh,
turned to the right and to the left and multiplied by the factor.  So they are perpendicular to the
mesh, equally long and on both sides. -/
theorem sides_eq {m : Line} (hm : Administrated m) {n : Nat} {es : List Nat}
    (he : m.at_[n]? = some es) (h0 : es ≠ []) (f : ℝ) :
    ∃ o a b p q, m.pos[n]? = some o ∧ Along m n a b ∧ sides m n f = .ok (p, q) ∧
      (p.x - o.x) * (b.x - a.x) + (p.y - o.y) * (b.y - a.y) = 0 ∧
      len o p = |f| * len a b ∧ len o q = |f| * len a b ∧
      p.x + q.x = 2 * o.x ∧ p.y + q.y = 2 * o.y ∧
      (0 < f → a ≠ b → (b.x - a.x) * (p.y - o.y) - (b.y - a.y) * (p.x - o.x) < 0) := by
  obtain ⟨a, b, hd, ha⟩ := direction_along hm he h0
  have hn : n < m.pos.length := by
    rw [← hm.rows]
    by_contra hc
    rw [List.getElem?_eq_none (Nat.le_of_not_lt hc)] at he
    cases he
  have length : ∀ g : ℝ, len m.pos[n] (moved m.pos[n] a b g) = |g| * len a b := by
    intro g
    rw [moved_eq]
    unfold len
    rw [← Real.sqrt_sq_eq_abs, ← Real.sqrt_mul (sq_nonneg g)]
    congr 1
    simp only
    ring
  refine ⟨m.pos[n], a, b, moved m.pos[n] a b f, moved m.pos[n] a b (-f),
    List.getElem?_eq_getElem hn, ha, ?_, ?_, length f, ?_, ?_, ?_, ?_⟩
  · simp only [sides, projected, hd, vget_lt hn, Res.bind]
  · rw [moved_eq]; simp only; ring
  · rw [length, abs_neg]
  · rw [moved_eq, moved_eq]; simp only; ring
  · rw [moved_eq, moved_eq]; simp only; ring
  · intro hf hab
    obtain ⟨h1, -⟩ := len_pos hab
    rw [moved_eq]
    simp only
    nlinarith [mul_pos hf h1]

/-- Exchanging the two neighbours exchanges the two segments: which edge comes first does not
matter. -/
theorem order_exchanged (n a b : Pt) (f : ℝ) : moved n b a f = moved n a b (-f) := by
  rw [moved_eq, moved_eq, Pt.mk.injEq]
  constructor <;> ring

/-- A node without edges is refused. -/
theorem without_edges {m : Line} {n : Nat} (h : m.at_[n]? = some []) (f : ℝ) :
    sides m n f = .throw := by
  simp [sides, projected, direction, vget_eq_ok.2 h, Res.bind]

/-! ## A bend -/

/-- Three nodes in a right angle. -/
def bend : Line := ⟨[⟨0, 0⟩, ⟨1, 0⟩, ⟨1, 1⟩], [(0, 1), (1, 2)], [[0], [0, 1], [1]]⟩

theorem bend_administrated : Administrated bend where
  rows := rfl
  ends := by decide
  listed := by
    intro n es h i hi
    rcases n with _ | _ | _ | n
    · cases h; simp at hi; subst hi; exact ⟨_, rfl, Or.inl rfl⟩
    · cases h
      simp at hi
      rcases hi with rfl | rfl
      · exact ⟨_, rfl, Or.inr rfl⟩
      · exact ⟨_, rfl, Or.inl rfl⟩
    · cases h; simp at hi; subst hi; exact ⟨_, rfl, Or.inr rfl⟩
    · cases h

example : ∃ o a b p q, bend.pos[1]? = some o ∧ Along bend 1 a b ∧ sides bend 1 2 = .ok (p, q) := by
  obtain ⟨o, a, b, p, q, h1, h2, h3, -⟩ := sides_eq bend_administrated (n := 1) rfl (by simp) 2
  exact ⟨o, a, b, p, q, h1, h2, h3⟩

example : sides bend 1 2 = .ok (⟨3, -2⟩, ⟨-1, 2⟩) := by
  simp only [sides, projected, direction, bend, vget, Res.bind, other, moved_eq]
  norm_num [Res.bind]

/-! ## Where it fails -/

/-- A node with two edges in a line and a third one that leaves at a right angle. -/
def branch : Line :=
  ⟨[⟨0, 0⟩, ⟨-1, 0⟩, ⟨1, 0⟩, ⟨0, -1⟩], [(0, 1), (0, 2), (0, 3)], [[0, 1, 2], [0], [1], [2]]⟩

/-- At a node with three edges only the first two count: the segment can run along the third edge. -/
theorem branch_ignored : Administrated branch ∧ branch.edges[2]? = some (0, 3) ∧
    branch.pos[0]? = some ⟨0, 0⟩ ∧ branch.pos[3]? = some ⟨0, -1⟩ ∧
    ∀ f, sides branch 0 f = .ok (⟨0, -2 * f⟩, ⟨0, 2 * f⟩) := by
  refine ⟨⟨rfl, by decide, ?_⟩, rfl, rfl, rfl, ?_⟩
  · intro n es h i hi
    rcases n with _ | _ | _ | _ | n
    · cases h
      simp at hi
      rcases hi with rfl | rfl | rfl <;> exact ⟨_, rfl, Or.inl rfl⟩
    · cases h; simp at hi; subst hi; exact ⟨_, rfl, Or.inr rfl⟩
    · cases h; simp at hi; subst hi; exact ⟨_, rfl, Or.inr rfl⟩
    · cases h; simp at hi; subst hi; exact ⟨_, rfl, Or.inr rfl⟩
    · cases h
  · intro f
    simp only [sides, projected, direction, branch, vget, Res.bind, other, moved_eq]
    norm_num [Res.bind]
    ring

/-- Where the mesh turns back to the place it came from, nothing is sought: both segments are
points. -/
theorem turned_back {m : Line} {n : Nat} {a : Pt} (h : direction m n = .ok (a, a)) {o : Pt}
    (ho : m.pos[n]? = some o) (f : ℝ) : sides m n f = .ok (o, o) := by
  simp [sides, projected, h, vget_eq_ok.2 ho, Res.bind, moved_eq]

example : ∃ m : Line, m.pos[1]? = some ⟨1, 0⟩ ∧ direction m 1 = .ok (⟨0, 0⟩, ⟨0, 0⟩) :=
  ⟨⟨[⟨0, 0⟩, ⟨1, 0⟩, ⟨0, 0⟩], [(0, 1), (1, 2)], [[0], [0, 1], [1]]⟩, rfl, by
    simp [direction, vget, Res.bind, other]⟩

end Verif.Contacts.Side
