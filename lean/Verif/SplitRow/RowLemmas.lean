import Verif.SplitRow.ElementLemmas
/-!
# Lemmas: rows can be turned around and joined, and every row ends or closes
-/
namespace Verif.SplitRow
open Verif.Mesh Verif.Faces
open Verif.Polygons (Pt)
open Verif.Flip (Exact Linked)

variable {numEdges : Nat} {edges : List Edge} {s : State}

theorem Across.symm {e f g : Nat} (a : Across s e f g) : Across s e g f := by
  obtain ⟨p, h1, h2⟩ := a
  exact ⟨p, h1, h2.symm⟩

theorem Trail.append {e f e1 f1 e2 f2 : Nat} {es fs es' fs' : List Nat} (h : Trail s e f es fs e1 f1) (h' : Trail s e1 f1 es' fs' e2 f2) :
    Trail s e f (es ++ es') (fs ++ fs') e2 f2 := by
  induction h with
  | nil => exact h'
  | step ho a _ ih => exact .step ho a (ih h')

/-- A trail read backwards. -/
theorem Trail.reverse (t : Tab numEdges edges s) {e f e1 f1 : Nat} {es fs : List Nat} (h : Trail s e f es fs e1 f1) {g : Nat} (a : Across s e f g) :
    ∃ es' k, e1 :: es' = (e :: es).reverse ∧ Trail s e1 k es' fs.reverse e g ∧ Across s e1 k f1 := by
  induction h generalizing g with
  | nil e f => exact ⟨[], g, rfl, .nil _ _, a.symm⟩
  | @step e f e' g' es fs e1 f1 ho a' tr ih =>
    obtain ⟨es', k, h1, h2, h3⟩ := ih a'.symm
    refine ⟨es' ++ [e], k, ?_, ?_, h3⟩
    · rw [List.reverse_cons, ← h1, List.cons_append]
    · rw [List.reverse_cons]
      exact h2.append (.step (ho.symm t) a (.nil _ _))

/-- The two arms of an edge make one row. -/
theorem row_of_arms (t : Tab numEdges edges s) {e p1 p2 : Nat} {es1 fs1 es2 fs2 : List Nat} (a : Across s e p2 p1)
    (h1 : Arm s e p1 es1 fs1) (h2 : Arm s e p2 es2 fs2) :
    ∃ a k rs b q1 q2, es2.reverse ++ e :: es1 = a :: rs ∧ Trail s a k rs (fs2.reverse ++ fs1) b q1 ∧ ¬ Quadrilateral s q1 ∧ Across s a k q2 ∧
      ¬ Quadrilateral s q2 := by
  obtain ⟨b, q1, t1, n1⟩ := h1
  obtain ⟨c, q2, t2, n2⟩ := h2
  obtain ⟨es', k, r1, r2, r3⟩ := t2.reverse t a
  refine ⟨c, k, es' ++ es1, b, q1, q2, ?_, r2.append t1, n1, r3, n2⟩
  rw [List.reverse_cons] at r1
  rw [← List.cons_append, r1]
  simp

theorem Trail.step_at {e f e1 f1 : Nat} {es fs : List Nat} (h : Trail s e f es fs e1 f1) {i : Nat} {p q : Nat × Nat}
    (hp : (fs.zip (e :: es))[i]? = some p) (hq : (fs.zip (e :: es))[i + 1]? = some q) : Opposite s p.1 p.2 q.2 ∧ Across s q.2 p.1 q.1 := by
  induction h generalizing i with
  | nil => simp at hp
  | @step e f e' g es fs e1 f1 ho a tr ih =>
    cases i with
    | zero =>
      cases tr with
      | nil => simp at hq
      | step =>
        simp only [List.zip_cons_cons, List.getElem?_cons_zero, List.getElem?_cons_succ, Option.some.injEq] at hp hq
        subst hp hq
        exact ⟨ho, a⟩
    | succ i =>
      simp only [List.zip_cons_cons, List.getElem?_cons_succ] at hp hq
      exact ih hp hq

theorem Trail.prefix {e f e1 f1 : Nat} {es fs : List Nat} (h : Trail s e f es fs e1 f1) {i : Nat} {p : Nat × Nat}
    (hp : (fs.zip (e :: es))[i]? = some p) : Trail s e f (es.take i) (fs.take i) p.2 p.1 := by
  induction h generalizing i with
  | nil => simp at hp
  | @step e f e' g es fs e1 f1 ho a tr ih =>
    cases i with
    | zero =>
      simp only [List.zip_cons_cons, List.getElem?_cons_zero, Option.some.injEq] at hp
      subst hp
      exact .nil _ _
    | succ i =>
      simp only [List.zip_cons_cons, List.getElem?_cons_succ] at hp
      exact .step ho a (ih hp)

/-- The state before is known. -/
theorem step_back (t : Tab numEdges edges s) {p p' q : Nat × Nat} (hq : Quadrilateral s q.1) (h1 : Opposite s p.1 p.2 q.2) (h2 : Across s q.2 p.1 q.1)
    (h1' : Opposite s p'.1 p'.2 q.2) (h2' : Across s q.2 p'.1 q.1) : p = p' := by
  have hb := (h1.symm t).borders
  have hb' : Borders s q.1 q.2 := ((h2.known t hb).2.1).resolve_left (t.ne_missing hq)
  have he := Across.unique t hb' h2.symm h2'.symm
  rcases p with ⟨p1, p2⟩
  rcases p' with ⟨p1', p2'⟩
  simp only [] at *
  subst he
  rw [Opposite.unique t (h1.symm t) (h1'.symm t)]

/-- A trail that visits the same edge and face twice comes back to its start. -/
theorem ring_of_repeat (t : Tab numEdges edges s) {e f e1 f1 : Nat} {es fs : List Nat} (h : Trail s e f es fs e1 f1) {i j : Nat} {p : Nat × Nat}
    (hij : i < j) (hi : (fs.zip (e :: es))[i]? = some p) (hj : (fs.zip (e :: es))[j]? = some p) : ∃ es' fs', Ring s e f es' fs' ∧ fs'.length ≤ fs.length := by
  induction i generalizing j p with
  | zero =>
    have hne : fs ≠ [] := by rintro rfl; simp at hj
    obtain ⟨fs', rfl⟩ := h.head hne
    simp only [List.zip_cons_cons, List.getElem?_cons_zero, Option.some.injEq] at hi
    subst hi
    refine ⟨_, _, ⟨h.prefix hj, ?_⟩, by rw [List.length_take]; omega⟩
    obtain ⟨j, rfl⟩ : ∃ j', j = j' + 1 := ⟨j - 1, by omega⟩
    simp
  | succ i ih =>
    obtain ⟨j, rfl⟩ : ∃ j', j = j' + 1 := ⟨j - 1, by omega⟩
    have hlj := (List.getElem?_eq_some_iff.1 hj).1
    have hpi := List.getElem?_eq_getElem (l := fs.zip (e :: es)) (i := i) (by omega)
    have hpj := List.getElem?_eq_getElem (l := fs.zip (e :: es)) (i := j) (by omega)
    obtain ⟨a1, a2⟩ := h.step_at hpi hi
    obtain ⟨b1, b2⟩ := h.step_at hpj hj
    have hquad : Quadrilateral s p.1 := h.quads _ (List.of_mem_zip (a := p.1) (b := p.2) (List.mem_of_getElem? hj)).1
    have := step_back t hquad a1 a2 b1 b2
    rw [← this] at hpj
    exact ih (by omega) hpi hpj

/-- All pairs of a face and one of its edges. -/
def sides (s : State) (n : Nat) : List (Nat × Nat) :=
  (List.range n).flatMap fun e => [(((s.edgesFaces[e]?).getD (missing, missing)).1, e), (((s.edgesFaces[e]?).getD (missing, missing)).2, e)]

theorem sides_length (n : Nat) : (sides s n).length = 2 * n := by
  unfold sides
  rw [List.length_flatMap]
  simp [Nat.mul_comm]

theorem mem_sides (t : Tab numEdges edges s) {e f : Nat} (h : Borders s f e) : (f, e) ∈ sides s edges.length := by
  unfold sides
  rw [List.mem_flatMap]
  refine ⟨e, List.mem_range.2 (Borders.lt t h), ?_⟩
  obtain ⟨p, g, h1, _, _, _, _, _, h7, _⟩ := Across.of t h
  rw [h1]
  rcases h7 with rfl | rfl <;> simp

theorem Trail.borders {e f e1 f1 : Nat} {es fs : List Nat} (h : Trail s e f es fs e1 f1) :
    ∀ p ∈ fs.zip (e :: es), Borders s p.1 p.2 := by
  induction h with
  | nil => simp
  | @step e f e' g es fs e1 f1 ho a tr ih =>
    intro p hp
    simp only [List.zip_cons_cons] at hp
    rcases List.mem_cons.1 hp with rfl | hp
    · exact ho.borders
    · exact ih p hp

/-- A trail goes on until it ends, or for as long as one wishes. -/
theorem trail_long (t : Tab numEdges edges s) {e f : Nat} (hb : Quadrilateral s f → Borders s f e) (k : Nat) :
    (∃ es fs, Arm s e f es fs ∧ fs.length < k) ∨ ∃ es fs e1 f1, Trail s e f es fs e1 f1 ∧ fs.length = k ∧ (Quadrilateral s f1 → Borders s f1 e1) := by
  induction k with
  | zero => exact Or.inr ⟨[], [], e, f, .nil _ _, rfl, hb⟩
  | succ k ih =>
    rcases ih with ⟨es, fs, h1, h2⟩ | ⟨es, fs, e1, f1, h1, h2, h3⟩
    · exact Or.inl ⟨es, fs, h1, by omega⟩
    · by_cases hq : Quadrilateral s f1
      · obtain ⟨e', ho⟩ := Opposite.exists t hq (h3 hq)
        obtain ⟨_, g, _, _, a, _, hg, _⟩ := Across.of t (ho.symm t).borders
        refine Or.inr ⟨_, _, e', g, h1.append (.step ho a (.nil _ _)), by simp [h2], fun hgq => hg.resolve_left (t.ne_missing hgq)⟩
      · exact Or.inl ⟨es, fs, ⟨e1, f1, h1, hq⟩, by omega⟩

/-- Every trail ends, or comes back to its start. -/
theorem arm_or_ring (t : Tab numEdges edges s) {e f : Nat} (hb : Quadrilateral s f → Borders s f e) :
    ∃ es fs, (Arm s e f es fs ∨ Ring s e f es fs) ∧ fs.length ≤ 2 * edges.length + 1 := by
  rcases trail_long t hb (2 * edges.length + 1) with ⟨es, fs, h1, h2⟩ | ⟨es, fs, e1, f1, h1, h2, _⟩
  · exact ⟨es, fs, Or.inl h1, by omega⟩
  · have hl := h1.lengths
    have hnd : ¬ (fs.zip (e :: es)).Nodup := by
      intro hnd
      have := (hnd.subperm (l₂ := sides s edges.length) fun p hp => mem_sides t (h1.borders p hp)).length_le
      rw [sides_length] at this
      simp only [List.length_zip, List.length_cons] at this
      omega
    rw [List.nodup_iff_getElem?_ne_getElem?] at hnd
    push Not at hnd
    obtain ⟨i, j, hij, hj, he⟩ := hnd
    have hj' := List.getElem?_eq_getElem hj
    obtain ⟨es', fs', h3, h4⟩ := ring_of_repeat t h1 hij (he.trans hj') hj'
    exact ⟨es', fs', Or.inr h3, by omega⟩

end Verif.SplitRow
