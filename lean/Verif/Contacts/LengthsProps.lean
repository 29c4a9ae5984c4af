import Verif.Contacts.Lengths
import Mathlib.Order.MinMax
import Mathlib.Data.List.Basic
import Mathlib.Tactic.SplitIfs

/-!
# What is proved of the search radius of 1D nodes (C94)
-/
namespace Verif.Contacts.Lengths

variable {P R : Type} [LinearOrder R] {d : P → P → R}

/-- The length of edge `e` of the mesh. -/
def IsLength (d : P → P → R) (m : Line P R) (e : Nat) (l : R) : Prop :=
  ∃ a b p q, m.edges[e]? = some (a, b) ∧ m.pos[a]? = some p ∧ m.pos[b]? = some q ∧ l = d p q

/-- `r` is the length of the longest edge at node `n`. -/
def IsLongest (d : P → P → R) (m : Line P R) (n : Nat) (r : R) : Prop :=
  (∃ (e a b : Nat), m.edges[e]? = some (a, b) ∧ (a = n ∨ b = n) ∧ IsLength d m e r) ∧
    ∀ (e a b : Nat) l, m.edges[e]? = some (a, b) → (a = n ∨ b = n) → IsLength d m e l → l ≤ r

/-- All edges join nodes of the mesh. -/
def Sound (pos : List P) (edges : List (Nat × Nat)) : Prop :=
  ∀ e ∈ edges, e.1 < pos.length ∧ e.2 < pos.length

/-- The kept lengths are those of the first edges. -/
def Current (d : P → P → R) (m : Line P R) : Prop :=
  ∀ (e : Nat) l, m.lengths[e]? = some l → IsLength d m e l

/-- All lengths are kept. -/
def Full (m : Line P R) : Prop := m.lengths.length = m.edges.length

/-- The node is an end of an edge. -/
def HasEdge (m : Line P R) (n : Nat) : Prop := ∃ e ∈ m.edges, e.1 = n ∨ e.2 = n

theorem mem_edgesAt {edges : List (Nat × Nat)} {n e : Nat} :
    e ∈ edgesAt edges n ↔ ∃ a b, edges[e]? = some (a, b) ∧ (a = n ∨ b = n) := by
  unfold edgesAt
  simp only [List.mem_filter, List.mem_range]
  constructor
  · rintro ⟨-, h⟩
    cases he : edges[e]? with
    | none => rw [he] at h; simp at h
    | some ab =>
      obtain ⟨a, b⟩ := ab
      rw [he] at h
      exact ⟨a, b, rfl, by simpa using h⟩
  · rintro ⟨a, b, he, h⟩
    refine ⟨(List.getElem?_eq_some_iff.1 he).1, ?_⟩
    rw [he]
    simpa using h

omit [LinearOrder R] in
theorem measure_ok {pos : List P} : ∀ {edges : List (Nat × Nat)}, Sound pos edges →
    ∃ ls, measure d pos edges = .ok ls ∧ ls.length = edges.length ∧
      ∀ (e : Nat) l, ls[e]? = some l → IsLength d ⟨pos, edges, ls⟩ e l
  | [], _ => ⟨[], rfl, rfl, by intro e l h; simp at h⟩
  | e :: es, h => by
    obtain ⟨ls, h1, h2, h3⟩ := measure_ok (pos := pos) (edges := es)
      fun x hx => h x (List.mem_cons_of_mem _ hx)
    obtain ⟨ha, hb⟩ := h e List.mem_cons_self
    refine ⟨d pos[e.1] pos[e.2] :: ls, ?_, by simp [h2], ?_⟩
    · simp [measure, vget, List.getElem?_eq_getElem ha, List.getElem?_eq_getElem hb, h1, Res.bind]
    · intro i l hi
      cases i with
      | zero =>
        refine ⟨e.1, e.2, pos[e.1], pos[e.2], rfl, List.getElem?_eq_getElem ha,
          List.getElem?_eq_getElem hb, ?_⟩
        simpa using hi.symm
      | succ i =>
        obtain ⟨a, b, p, q, g1, g2, g3, g4⟩ := h3 i l (by simpa using hi)
        exact ⟨a, b, p, q, by simpa using g1, g2, g3, g4⟩

theorem longest_ok {ls : List R} : ∀ {es : List Nat} {b : Option R},
    (∀ e ∈ es, e < ls.length) →
    ∃ r, longest ls es b = .ok r ∧
      (∀ x, b = some x → ∃ y, r = some y ∧ x ≤ y) ∧
      (∀ e ∈ es, ∀ l, ls[e]? = some l → ∃ y, r = some y ∧ l ≤ y) ∧
      (r = b ∨ ∃ e ∈ es, ∃ l, ls[e]? = some l ∧ r = some l)
  | [], b, _ => ⟨b, rfl, fun x hx => ⟨x, hx, le_refl x⟩, by simp, Or.inl rfl⟩
  | e :: es, b, h => by
    have he := h e List.mem_cons_self
    obtain ⟨r, h1, h2, h3, h4⟩ := longest_ok (ls := ls) (es := es)
      (b := some (match b with | none => ls[e] | some x => max x ls[e]))
      fun x hx => h x (List.mem_cons_of_mem _ hx)
    obtain ⟨y, hy, hy'⟩ := h2 _ rfl
    refine ⟨r, ?_, ?_, ?_, ?_⟩
    · simp only [longest, vget, List.getElem?_eq_getElem he, Res.bind]
      exact h1
    · rintro x rfl
      exact ⟨y, hy, le_trans (le_max_left _ _) hy'⟩
    · intro x hx l hl
      rcases List.mem_cons.1 hx with rfl | hx
      · rw [List.getElem?_eq_getElem he, Option.some.injEq] at hl
        subst hl
        refine ⟨y, hy, ?_⟩
        cases b with
        | none => exact hy'
        | some x => exact le_trans (le_max_right _ _) hy'
      · exact h3 x hx l hl
    · rcases h4 with h4 | ⟨x, hx, l, hl, hr⟩
      · cases b with
        | none => exact Or.inr ⟨e, List.mem_cons_self, _, List.getElem?_eq_getElem he, h4⟩
        | some x =>
          simp only at h4
          rcases max_choice x ls[e] with hm | hm
          · left; rw [h4, hm]
          · right; exact ⟨e, List.mem_cons_self, _, List.getElem?_eq_getElem he, by rw [h4, hm]⟩
      · exact Or.inr ⟨x, List.mem_cons_of_mem _ hx, l, hl, hr⟩

omit [LinearOrder R] in
theorem length_unique {m : Line P R} {e : Nat} {l l' : R} (h : IsLength d m e l)
    (h' : IsLength d m e l') : l = l' := by
  obtain ⟨a, b, p, q, h1, h2, h3, rfl⟩ := h
  obtain ⟨a', b', p', q', g1, g2, g3, rfl⟩ := h'
  rw [h1] at g1
  simp only [Option.some.injEq, Prod.mk.injEq] at g1
  obtain ⟨rfl, rfl⟩ := g1
  rw [h2] at g2
  rw [h3] at g3
  simp only [Option.some.injEq] at g2 g3
  rw [g2, g3]

/-- If every edge of the node has a kept length that is right, the answer is right. -/
theorem radius_of_kept {m : Line P R} {n : Nat} (hc : Current d m) (hne : m.lengths ≠ [])
    (hk : ∀ (e a b : Nat), m.edges[e]? = some (a, b) → (a = n ∨ b = n) → e < m.lengths.length)
    (hn : HasEdge m n) : ∃ r, radius d m n = .ok (m, some r) ∧ IsLongest d m n r := by
  obtain ⟨r, h1, -, h3, h4⟩ := longest_ok (ls := m.lengths) (es := edgesAt m.edges n) (b := none)
    (by intro e he; obtain ⟨a, b, hab, hor⟩ := mem_edgesAt.1 he; exact hk e a b hab hor)
  obtain ⟨⟨a, b⟩, hmem, hor⟩ := hn
  obtain ⟨e, he⟩ := List.mem_iff_getElem?.1 hmem
  have hlt := hk e a b he hor
  obtain ⟨y, rfl, -⟩ := h3 e (mem_edgesAt.2 ⟨a, b, he, hor⟩) _ (List.getElem?_eq_getElem hlt)
  refine ⟨y, ?_, ?_, ?_⟩
  · unfold radius
    rw [if_neg (by simpa using hne)]
    simp only [Res.bind, h1]
  · rcases h4 with h4 | ⟨x, hx, l, hl, hr⟩
    · cases h4
    · obtain ⟨a', b', hab, hor'⟩ := mem_edgesAt.1 hx
      rw [Option.some.injEq] at hr
      subst hr
      exact ⟨x, a', b', hab, hor', hc x _ hl⟩
  · intro e' a' b' l hab hor' hl
    have hlt' := hk e' a' b' hab hor'
    obtain ⟨z, hz, hle⟩ := h3 e' (mem_edgesAt.2 ⟨a', b', hab, hor'⟩) _ (List.getElem?_eq_getElem hlt')
    rw [Option.some.injEq] at hz
    subst hz
    have := hc e' _ (List.getElem?_eq_getElem hlt')
    rw [length_unique hl this]
    exact hle

/-- In a mesh whose lengths have not been asked for, or have been asked for and are those of its edges,
faces are sought as far as the longest edge of the node; nodes and edges stay, and the lengths are those
of the edges afterwards. -/
theorem radius_longest {m : Line P R} {n : Nat} (hs : Sound m.pos m.edges)
    (hf : m.lengths = [] ∨ Full m ∧ Current d m) (hn : HasEdge m n) :
    ∃ m' r, radius d m n = .ok (m', some r) ∧ IsLongest d m n r ∧ m'.pos = m.pos ∧
      m'.edges = m.edges ∧ Full m' ∧ Current d m' := by
  have hpos : m.edges ≠ [] := by
    obtain ⟨e, he, -⟩ := hn
    exact List.ne_nil_of_mem he
  have key : ∀ m' : Line P R, m'.pos = m.pos → m'.edges = m.edges → Full m' → Current d m' →
      ∃ r, radius d m' n = .ok (m', some r) ∧ IsLongest d m n r := by
    intro m' h1 h2 h3 h4
    obtain ⟨r, hr, hl⟩ := radius_of_kept (n := n) h4
      (by
        intro h0
        have h5 : m'.lengths.length = m'.edges.length := h3
        rw [h0, h2] at h5
        exact hpos (List.eq_nil_of_length_eq_zero h5.symm))
      (by
        intro e a b he _
        have h5 : m'.lengths.length = m'.edges.length := h3
        rw [h5]
        exact (List.getElem?_eq_some_iff.1 he).1)
      (by unfold HasEdge; rw [h2]; exact hn)
    refine ⟨r, hr, ?_⟩
    unfold IsLongest IsLength at hl ⊢
    rw [h1, h2] at hl
    exact hl
  rcases hf with h0 | ⟨h1, h2⟩
  · obtain ⟨ls, e1, e2, e3⟩ := measure_ok (d := d) hs
    obtain ⟨r, hr, hl⟩ := key ⟨m.pos, m.edges, ls⟩ rfl rfl e2 e3
    refine ⟨⟨m.pos, m.edges, ls⟩, r, ?_, hl, rfl, rfl, e2, e3⟩
    have hne : ls ≠ [] := by
      intro h; rw [h] at e2; exact hpos (List.eq_nil_of_length_eq_zero e2.symm)
    rw [← hr]
    unfold radius
    rw [if_pos (by simp [h0]), if_neg (by simpa using hne), e1]
  · obtain ⟨r, hr, hl⟩ := key m rfl rfl h1 h2
    exact ⟨m, r, hr, hl, rfl, rfl, h1, h2⟩

/-- For any nodes, asked for in any order and as often as wanted, the answers are the longest edges, as
long as the mesh stays as it was made. -/
theorem radii_longest {m : Line P R} (hs : Sound m.pos m.edges)
    (hf : m.lengths = [] ∨ Full m ∧ Current d m) : ∀ {ns : List Nat}, (∀ n ∈ ns, HasEdge m n) →
    ∃ m' rs, radii d ns m = .ok (m', rs) ∧ rs.length = ns.length ∧
      ∀ (i n : Nat), ns[i]? = some n → ∃ r, rs[i]? = some (some r) ∧ IsLongest d m n r := by
  intro ns
  induction ns generalizing m with
  | nil => intro _; exact ⟨m, [], rfl, rfl, by intro i n h; simp at h⟩
  | cons n ns ih =>
    intro hn
    obtain ⟨m1, r, h1, h2, h3, h4, h5, h6⟩ := radius_longest hs hf (hn n List.mem_cons_self)
    obtain ⟨m2, rs, g1, g2, g3⟩ := ih (m := m1) (by rw [h3, h4]; exact hs) (Or.inr ⟨h5, h6⟩)
      (by intro x hx; unfold HasEdge; rw [h4]; exact hn x (List.mem_cons_of_mem _ hx))
    refine ⟨m2, some r :: rs, ?_, by simp [g2], ?_⟩
    · simp [radii, h1, g1, Res.bind]
    · intro i x hi
      cases i with
      | zero =>
        simp only [List.getElem?_cons_zero, Option.some.injEq] at hi
        subst hi
        exact ⟨r, rfl, h2⟩
      | succ i =>
        obtain ⟨y, hy, hl⟩ := g3 i x (by simpa using hi)
        refine ⟨y, by simpa using hy, ?_⟩
        unfold IsLongest IsLength at hl ⊢
        rw [h3, h4] at hl
        exact hl

omit [LinearOrder R] in
theorem add_eq {m : Line P R} {pos : List P} {edges : List (Nat × Nat)} (h1 : pos ≠ [])
    (h2 : edges ≠ []) : add m pos edges = ⟨m.pos ++ pos,
      m.edges ++ edges.map fun e => (e.1 + m.pos.length, e.2 + m.pos.length), m.lengths⟩ := by
  unfold add
  rw [if_neg (by simp [h1, h2])]

omit [LinearOrder R] in
theorem sound_add {m : Line P R} {pos : List P} {edges : List (Nat × Nat)} (hm : Sound m.pos m.edges)
    (hs : Sound pos edges) : Sound (add m pos edges).pos (add m pos edges).edges := by
  unfold add
  split_ifs with h
  · exact hm
  · intro e he
    simp only [List.mem_append, List.mem_map] at he
    simp only [List.length_append]
    rcases he with he | ⟨e', he', rfl⟩
    · have := hm e he; omega
    · have := hs e' he'; simp only; omega

/-- Meshes that are added before contacts are sought for the first time are treated like all others. -/
theorem added_before {m : Line P R} {pos : List P} {edges : List (Nat × Nat)}
    (hm : Sound m.pos m.edges) (hs : Sound pos edges) (h0 : m.lengths = []) {n : Nat}
    (hn : HasEdge (add m pos edges) n) :
    ∃ m' r, radius d (add m pos edges) n = .ok (m', some r) ∧
      IsLongest d (add m pos edges) n r := by
  obtain ⟨m', r, h1, h2, -⟩ := radius_longest (d := d) (sound_add hm hs)
    (Or.inl (by unfold add; split_ifs <;> exact h0)) hn
  exact ⟨m', r, h1, h2⟩

/-! ## Examples -/

/-- A 1D mesh of three nodes on a line. -/
def demo : Line Nat Nat := make [0, 3, 5] [(0, 1), (1, 2)]

/-- Distance on the line. -/
def gap (x y : Nat) : Nat := max x y - min x y

example : Sound demo.pos demo.edges ∧ demo.lengths = [] ∧ ∀ n ∈ [0, 1, 2], HasEdge demo n := by
  unfold Sound HasEdge demo make
  refine ⟨by decide, rfl, by decide⟩

example : radii gap [0, 1, 2] demo = .ok (⟨[0, 3, 5], [(0, 1), (1, 2)], [3, 2]⟩,
    [some 3, some 3, some 2]) := rfl

/-! ## Where it fails -/

/-- After contacts have been sought, adding to the 1D mesh and seeking contacts again reads beyond the
kept lengths, for every mesh and every added mesh, at every added node with an edge. -/
theorem added_after_undefined {m : Line P R} {pos : List P} {edges : List (Nat × Nat)}
    (hs : Sound m.pos m.edges) (hf : Full m) (hne : m.edges ≠ []) {n : Nat}
    (hn : ∃ e ∈ edges, e.1 = n ∨ e.2 = n) (hp : pos ≠ []) :
    radius d (add m pos edges) (n + m.pos.length) = .ub := by
  have hl : m.lengths.length = m.edges.length := hf
  have h2 : edges ≠ [] := by obtain ⟨e, he, -⟩ := hn; exact List.ne_nil_of_mem he
  rw [add_eq hp h2]
  have hle : m.lengths ≠ [] := by
    intro h; rw [h] at hl; exact hne (List.eq_nil_of_length_eq_zero hl.symm)
  unfold radius
  rw [if_neg (by simpa using hle)]
  have key : ∀ (es : List Nat) (b : Option R), es ≠ [] → (∀ e ∈ es, m.lengths.length ≤ e) →
      longest m.lengths es b = .ub := by
    intro es b h0 h
    cases es with
    | nil => exact absurd rfl h0
    | cons e es =>
      have := h e List.mem_cons_self
      simp [longest, vget, List.getElem?_eq_none this, Res.bind]
  simp only [Res.bind]
  rw [key]
  · obtain ⟨⟨a, b⟩, he, hor⟩ := hn
    obtain ⟨i, hi⟩ := List.mem_iff_getElem?.1 he
    refine List.ne_nil_of_mem (a := m.edges.length + i)
      (mem_edgesAt.2 ⟨a + m.pos.length, b + m.pos.length, ?_, ?_⟩)
    · rw [List.getElem?_append_right (by omega)]
      simp [hi]
    · simp only at hor
      omega
  · intro e he
    obtain ⟨a, b, hab, hor⟩ := mem_edgesAt.1 he
    by_contra hlt
    rw [List.getElem?_append_left (by omega)] at hab
    have := hs _ (List.mem_of_getElem? hab)
    simp only at this
    omega

example : radius gap (add ⟨[0, 3], [(0, 1)], [3]⟩ [7, 9] [(0, 1)]) 2 = .ub := rfl

theorem longest_no_throw {ls : List R} : ∀ {es : List Nat} {b : Option R},
    longest ls es b ≠ .throw
  | [], b => by simp [longest]
  | e :: es, b => by
    cases he : ls[e]? with
    | none => simp [longest, vget, he, Res.bind]
    | some l => simpa [longest, vget, he, Res.bind] using longest_no_throw

theorem radius_kept {m : Line P R} (hne : m.lengths ≠ []) (n : Nat) :
    radius d m n = .ub ∨ ∃ r, radius d m n = .ok (m, r) := by
  unfold radius
  rw [if_neg (by simpa using hne)]
  cases h : longest m.lengths (edgesAt m.edges n) none with
  | ok r => exact Or.inr ⟨r, by simp [Res.bind, h]⟩
  | throw => exact absurd h longest_no_throw
  | ub => left; simp [Res.bind, h]

/-- So every later call that comes to an added node is undefined, whatever nodes it looks at before. -/
theorem call_undefined {m : Line P R} {pos : List P} {edges : List (Nat × Nat)}
    (hs : Sound m.pos m.edges) (hf : Full m) (hne : m.edges ≠ []) {n : Nat}
    (hn : ∃ e ∈ edges, e.1 = n ∨ e.2 = n) (hp : pos ≠ []) {ns : List Nat}
    (hmem : n + m.pos.length ∈ ns) : radii d ns (add m pos edges) = .ub := by
  have hu := added_after_undefined (d := d) hs hf hne hn hp
  have hl : (add m pos edges).lengths ≠ [] := by
    have hl : m.lengths.length = m.edges.length := hf
    have h2 : edges ≠ [] := by obtain ⟨e, he, -⟩ := hn; exact List.ne_nil_of_mem he
    rw [add_eq hp h2]
    intro h
    simp only at h
    rw [h] at hl
    exact hne (List.eq_nil_of_length_eq_zero hl.symm)
  induction ns with
  | nil => simp at hmem
  | cons x ns ih =>
    rcases radius_kept (d := d) hl x with h | ⟨r, h⟩
    · simp [radii, h, Res.bind]
    · rcases List.mem_cons.1 hmem with rfl | hmem
      · rw [hu] at h; cases h
      · simp [radii, h, Res.bind, ih hmem]

example : ∃ m, radii gap [0, 1] (make [0, 3] [(0, 1)]) = .ok (m, [some 3, some 3]) ∧ Full m ∧
    radii gap [0, 1, 2, 3] (add m [7, 9] [(0, 1)]) = .ub := ⟨⟨[0, 3], [(0, 1)], [3]⟩, rfl, rfl, rfl⟩

/-- The nodes there were before are not affected. -/
theorem added_after_old {m : Line P R} {pos : List P} {edges : List (Nat × Nat)}
    (hf : Full m) (hc : Current d m) {n : Nat} (hn : HasEdge m n)
    (hlt : n < m.pos.length) :
    ∃ r, radius d (add m pos edges) n = .ok (add m pos edges, some r) ∧
      IsLongest d (add m pos edges) n r := by
  have hl : m.lengths.length = m.edges.length := hf
  by_cases h0 : pos.length = 0 ∨ edges.length = 0
  · have ha : add m pos edges = m := by unfold add; rw [if_pos h0]
    rw [ha]
    apply radius_of_kept hc _ _ hn
    · intro h; rw [h] at hl
      obtain ⟨e, he, -⟩ := hn
      exact List.ne_nil_of_mem he (List.eq_nil_of_length_eq_zero hl.symm)
    · intro e a b he _; rw [hl]; exact (List.getElem?_eq_some_iff.1 he).1
  · have h1 : pos ≠ [] := by rintro rfl; simp at h0
    have h2 : edges ≠ [] := by rintro rfl; simp at h0
    rw [add_eq h1 h2]
    apply radius_of_kept
    · intro e l he
      obtain ⟨a, b, p, q, g1, g2, g3, g4⟩ := hc e l he
      refine ⟨a, b, p, q, ?_, ?_, ?_, g4⟩
      · rw [List.getElem?_append_left (List.getElem?_eq_some_iff.1 g1).1]; exact g1
      · rw [List.getElem?_append_left (List.getElem?_eq_some_iff.1 g2).1]; exact g2
      · rw [List.getElem?_append_left (List.getElem?_eq_some_iff.1 g3).1]; exact g3
    · intro h
      simp only at h
      rw [h] at hl
      obtain ⟨e, he, -⟩ := hn
      exact List.ne_nil_of_mem he (List.eq_nil_of_length_eq_zero hl.symm)
    · intro e a b he hor
      simp only
      rw [hl]
      by_contra hge
      rw [List.getElem?_append_right (by omega), List.getElem?_map] at he
      obtain ⟨x, -, hx⟩ := Option.map_eq_some_iff.1 he
      simp only [Prod.mk.injEq] at hx
      omega
    · obtain ⟨e, he, h⟩ := hn
      exact ⟨e, List.mem_append_left _ he, h⟩

/-- Adding a mesh, seeking contacts, undo, and adding another mesh: faces near the nodes of the second
mesh are sought as far as the edges of the first were long. -/
theorem replaced_wrong : ∃ (m : Line Nat Nat) (m1 : Line Nat Nat) (r1 : Option Nat),
    m = make [0, 3] [(0, 1)] ∧ radius gap (add m [7, 8] [(0, 1)]) 2 = .ok (m1, r1) ∧
      (∃ m2, radius gap (add (undo m1 m) [20, 90] [(0, 1)]) 2 = .ok (m2, some 1)) ∧
      IsLongest gap (add (undo m1 m) [20, 90] [(0, 1)]) 2 70 := by
  refine ⟨_, ⟨[0, 3, 7, 8], [(0, 1), (2, 3)], [3, 1]⟩, some 1, rfl, rfl, ⟨_, rfl⟩, ?_, ?_⟩
  · exact ⟨1, 2, 3, rfl, Or.inl rfl, 2, 3, 20, 90, rfl, rfl, rfl, rfl⟩
  · rintro e a b l he hor ⟨a', b', p, q, h1, h2, h3, rfl⟩
    rw [he] at h1
    simp only [Option.some.injEq, Prod.mk.injEq] at h1
    obtain ⟨rfl, rfl⟩ := h1
    match e, he with
    | 0, he =>
      have he' : some (0, 1) = some (a, b) := he
      simp only [Option.some.injEq, Prod.mk.injEq] at he'
      omega
    | 1, he =>
      have he' : some (2, 3) = some (a, b) := he
      simp only [Option.some.injEq, Prod.mk.injEq] at he'
      obtain ⟨rfl, rfl⟩ := he'
      have h2' : some 20 = some p := h2
      have h3' : some 90 = some q := h3
      simp only [Option.some.injEq] at h2' h3'
      subst h2' h3'
      decide
    | e + 2, he =>
      have he' : (none : Option (Nat × Nat)) = some (a, b) := he
      cases he'

end Verif.Contacts.Lengths
