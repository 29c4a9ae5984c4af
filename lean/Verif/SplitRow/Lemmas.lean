import Verif.SplitRow.Spec
import Verif.Flip.StartLemmas
/-!
# Lemmas: walking along a row
-/
namespace Verif.SplitRow
open Verif.Mesh Verif.Faces
open Verif.Polygons (Pt)
open Verif.Flip (Exact Linked)

/-- What the walk needs of the tables. -/
structure Tab (numEdges : Nat) (edges : List Edge) (s : State) : Prop where
  linked : Linked edges s
  facesFit : s.facesNodes.length ≤ missing
  edgesFit : numEdges ≤ missing
  more : edges.length ≤ numEdges

variable {numEdges : Nat} {edges : List Edge} {s : State}

theorem Quadrilateral.lt {f : Nat} (h : Quadrilateral s f) : f < s.facesNodes.length := by
  obtain ⟨_, h, _⟩ := h
  exact (List.getElem?_eq_some_iff.1 h).1

theorem Tab.ne_missing (t : Tab numEdges edges s) {f : Nat} (h : Quadrilateral s f) : f ≠ missing := by
  have := h.lt
  have := t.facesFit
  omega

/-- A face of an edge is in the tables, or missing. -/
def Known (s : State) (f : Nat) : Prop := f = missing ∨ f < s.facesNodes.length

theorem isQuad_of {f : Nat} (t : Tab numEdges edges s) (h : Quadrilateral s f) : isQuad s f = .ok true := by
  unfold isQuad
  rw [if_neg (t.ne_missing h)]
  obtain ⟨ns, h1, h2⟩ := h
  rw [vget_eq_ok.2 h1, Res.ok_bind, decide_eq_true h2]

theorem isQuad_not {f : Nat} (hk : Known s f) (h : ¬ Quadrilateral s f) : isQuad s f = .ok false := by
  unfold isQuad
  rcases hk with rfl | hk
  · rw [if_pos rfl]
  · split
    · rfl
    · rw [vget_eq_ok.2 (List.getElem?_eq_getElem hk), Res.ok_bind, decide_eq_false fun hl => h ⟨_, List.getElem?_eq_getElem hk, hl⟩]

theorem isQuad_ok {f : Nat} (t : Tab numEdges edges s) (hk : Known s f) : isQuad s f = .ok (decide (Quadrilateral s f)) := by
  by_cases h : Quadrilateral s f
  · rw [isQuad_of t h, decide_eq_true h]
  · rw [isQuad_not hk h, decide_eq_false h]

/-- The sides of a quadrilateral. -/
theorem Tab.quad (t : Tab numEdges edges s) {f : Nat} (h : Quadrilateral s f) :
    ∃ ns es, s.facesNodes[f]? = some ns ∧ ns.length = 4 ∧ s.facesEdges[f]? = some es ∧ es.length = 4 ∧ Proper edges ns es := by
  obtain ⟨ns, h1, h2⟩ := h
  have hlt := (List.getElem?_eq_some_iff.1 h1).1
  have := t.linked.lengths
  have h3 : s.facesEdges[f]? = some s.facesEdges[f] := List.getElem?_eq_getElem (by omega)
  have hp := t.linked.proper f ns _ h1 h3
  exact ⟨ns, _, h1, h2, h3, by rw [hp.len, h2], hp⟩

theorem Opposite.symm {f e e' : Nat} (t : Tab numEdges edges s) (h : Opposite s f e e') : Opposite s f e' e := by
  obtain ⟨hq, es, i, h1, h2, h3⟩ := h
  obtain ⟨_, es', _, _, k3, k4, _⟩ := t.quad hq
  rw [h1] at k3
  obtain rfl := Option.some.inj k3
  have hi := (List.getElem?_eq_some_iff.1 h2).1
  refine ⟨hq, es, (i + 2) % 4, h1, h3, ?_⟩
  rw [← h2]
  congr 1
  omega

theorem Opposite.borders {f e e' : Nat} (h : Opposite s f e e') : Borders s f e := by
  obtain ⟨_, es, i, h1, h2, _⟩ := h
  exact ⟨es, h1, List.mem_of_getElem? h2⟩

theorem Opposite.unique {f e a b : Nat} (t : Tab numEdges edges s) (h : Opposite s f e a) (h' : Opposite s f e b) : a = b := by
  obtain ⟨hq, es, i, h1, h2, h3⟩ := h
  obtain ⟨_, es', j, k1, k2, k3⟩ := h'
  rw [h1] at k1
  obtain rfl := Option.some.inj k1
  obtain ⟨_, es', _, _, q3, q4, hp⟩ := t.quad hq
  rw [h1] at q3
  obtain rfl := Option.some.inj q3
  have hi := (List.getElem?_eq_some_iff.1 h2).1
  have : i = j := (List.getElem?_inj hi hp.edgesDistinct).1 (by rw [h2, k2])
  subst this
  rw [h3] at k3
  exact Option.some.inj k3

/-- Each side of a quadrilateral has an opposite one. -/
theorem Opposite.exists {f e : Nat} (t : Tab numEdges edges s) (hq : Quadrilateral s f) (hb : Borders s f e) : ∃ e', Opposite s f e e' := by
  obtain ⟨es, h1, h2⟩ := hb
  obtain ⟨i, hi⟩ := List.mem_iff_getElem?.1 h2
  obtain ⟨_, es', _, _, q3, q4, hp⟩ := t.quad hq
  rw [h1] at q3
  obtain rfl := Option.some.inj q3
  exact ⟨_, hq, es, i, h1, hi, List.getElem?_eq_getElem (by omega)⟩

theorem Borders.lt {f e : Nat} (t : Tab numEdges edges s) (h : Borders s f e) : e < edges.length := by
  obtain ⟨es, h1, h2⟩ := h
  have hlt := (List.getElem?_eq_some_iff.1 h1).1
  have := t.linked.lengths
  have h3 : s.facesNodes[f]? = some s.facesNodes[f] := List.getElem?_eq_getElem (by omega)
  have hp := t.linked.proper f _ es h3 h1
  obtain ⟨i, hi⟩ := List.mem_iff_getElem?.1 h2
  obtain ⟨a, b, e', p, _, _, k3, k4, _⟩ := hp.sides i (by rw [← hp.len]; exact (List.getElem?_eq_some_iff.1 hi).1)
  rw [hi] at k3
  obtain rfl := Option.some.inj k3
  exact (List.getElem?_eq_some_iff.1 k4).1

/-- The two faces of an edge in the tables. -/
theorem Tab.sides (t : Tab numEdges edges s) {e : Nat} (he : e < edges.length) :
    ∃ p, s.edgesFaces[e]? = some p ∧ ((p = (missing, missing) ∧ ∀ f, ¬ Borders s f e) ∨
      (∃ f, p = (f, missing) ∧ ∀ g, Borders s g e ↔ g = f) ∨ (∃ f g, p = (f, g) ∧ f ≠ g ∧ ∀ h, Borders s h e ↔ h = f ∨ h = g)) := by
  obtain ⟨c, p, l, _, h2, h3, h4, h5⟩ := t.linked.faces e he
  refine ⟨p, h2, ?_⟩
  cases h3 with
  | none => exact Or.inl ⟨rfl, fun f hf => absurd ((h5 f).2 hf) (by simp)⟩
  | one f => exact Or.inr (Or.inl ⟨f, rfl, fun g => by rw [← h5]; simp⟩)
  | two f g => exact Or.inr (Or.inr ⟨f, g, rfl, by simpa using h4, fun h => by rw [← h5]; simp⟩)

theorem Borders.known {f e : Nat} (t : Tab numEdges edges s) (h : Borders s f e) : f < s.facesNodes.length := by
  obtain ⟨es, h1, _⟩ := h
  rw [t.linked.lengths]
  exact (List.getElem?_eq_some_iff.1 h1).1

/-- The face on the other side of an edge of a face. -/
theorem Across.of (t : Tab numEdges edges s) {e f : Nat} (h : Borders s f e) :
    ∃ p g, s.edgesFaces[e]? = some p ∧ neighbour p f = g ∧ Across s e f g ∧ Known s g ∧ (g = missing ∨ Borders s g e) ∧ g ≠ f ∧
      (p = (f, g) ∨ p = (g, f)) ∧ ∀ h, Borders s h e → h = f ∨ h = g := by
  obtain ⟨p, h1, h2⟩ := t.sides (Borders.lt t h)
  have hf := Borders.known t h
  have := t.facesFit
  rcases h2 with ⟨_, h2⟩ | ⟨f', rfl, h2⟩ | ⟨f', g', rfl, hne, h2⟩
  · exact absurd h (h2 f)
  · obtain rfl := (h2 f).1 h
    exact ⟨_, missing, h1, by simp [neighbour], ⟨_, h1, Or.inl rfl⟩, Or.inl rfl, Or.inl rfl, by omega, Or.inl rfl, fun x hx => Or.inl ((h2 x).1 hx)⟩
  · rcases (h2 f).1 h with rfl | rfl
    · have hb := (h2 g').2 (Or.inr rfl)
      exact ⟨_, g', h1, by simp [neighbour], ⟨_, h1, Or.inl rfl⟩, Or.inr (Borders.known t hb), Or.inr hb, hne.symm, Or.inl rfl, fun x hx => (h2 x).1 hx⟩
    · have hb := (h2 f').2 (Or.inl rfl)
      exact ⟨_, f', h1, by simp [neighbour, hne], ⟨_, h1, Or.inr rfl⟩, Or.inr (Borders.known t hb), Or.inr hb, hne, Or.inr rfl,
        fun x hx => ((h2 x).1 hx).symm⟩

theorem Across.unique (t : Tab numEdges edges s) {e f g g' : Nat} (hb : Borders s f e) (h : Across s e f g) (h' : Across s e f g') : g = g' := by
  obtain ⟨p, g0, h1, _, _, _, _, hne, h2, _⟩ := Across.of t hb
  have key : ∀ x, Across s e f x → x = g0 := by
    rintro x ⟨q, k1, k2⟩
    rw [h1] at k1
    obtain rfl := Option.some.inj k1
    rcases h2 with h2 | h2 <;> rcases k2 with k2 | k2 <;> rw [h2] at k2 <;> obtain ⟨k3, k4⟩ := Prod.mk.inj k2
    · exact k4.symm
    · exact absurd k4 hne
    · exact absurd k3 hne
    · exact k3.symm
  rw [key g h, key g' h']

theorem opposite_ok (t : Tab numEdges edges s) {f e e' : Nat} (h : Opposite s f e e') : opposite numEdges s f e = .ok e' := by
  have hb := h.borders
  have he := Borders.lt t hb
  have hf := Borders.known t hb
  have := t.facesFit
  have := t.edgesFit
  have := t.more
  obtain ⟨hq, es, i, h1, h2, h3⟩ := h
  obtain ⟨_, es', _, _, q3, q4, hp⟩ := t.quad hq
  rw [h1] at q3
  obtain rfl := Option.some.inj q3
  unfold opposite
  rw [if_neg (by omega), if_neg (by omega), if_neg (by omega), vget_eq_ok.2 h1, Res.ok_bind]
  have hidx : es.idxOf? e = some i := by
    rw [List.idxOf?_eq_some_iff]
    obtain ⟨hi, hget⟩ := List.getElem?_eq_some_iff.1 h2
    refine ⟨hi, by simp [hget], fun j hj => ?_⟩
    simp only [← hget]
    intro hc
    exact absurd ((hp.edgesDistinct.getElem_inj_iff).1 hc) (by omega)
  rw [hidx]
  simp only []
  rw [vget_eq_ok.2 h3]

theorem nextEdge_ok (t : Tab numEdges edges s) {f e e' g : Nat} (h : Opposite s f e e') (a : Across s e' f g) : nextEdge numEdges s f e = .ok (g, e') := by
  have he := Borders.lt t h.borders
  have he' := Borders.lt t (h.symm t).borders
  have := t.edgesFit
  have := t.more
  unfold nextEdge
  rw [if_neg (by omega), isQuad_of t h.1, Res.ok_bind]
  simp only [Bool.not_true]
  rw [if_neg Bool.false_ne_true, opposite_ok t h, Res.ok_bind, if_neg (by omega)]
  obtain ⟨p, g0, h1, h2, h3, _⟩ := Across.of t (h.symm t).borders
  rw [vget_eq_ok.2 h1, Res.ok_bind, h2, Across.unique t (h.symm t).borders a h3]

theorem nextElement_ok (t : Tab numEdges edges s) {f e e' g : Nat} (h : Opposite s f e e') (a : Across s e' f g) : nextElement numEdges s f e = .ok g := by
  have he := Borders.lt t h.borders
  have := t.edgesFit
  have := t.more
  have := t.ne_missing h.1
  unfold nextElement
  rw [if_neg (by omega), isQuad_of t h.1, Res.ok_bind]
  simp only [Bool.not_true]
  rw [if_neg Bool.false_ne_true, opposite_ok t h, Res.ok_bind]
  obtain ⟨p, g0, h1, h2, h3, _⟩ := Across.of t (h.symm t).borders
  rw [vget_eq_ok.2 h1, Res.ok_bind, h2, Across.unique t (h.symm t).borders a h3]

theorem Across.known (t : Tab numEdges edges s) {f e g : Nat} (hb : Borders s f e) (a : Across s e f g) : Known s g ∧ (g = missing ∨ Borders s g e) ∧ g ≠ f := by
  obtain ⟨p, g0, h1, h2, h3, h4, h5, h6, _⟩ := Across.of t hb
  rw [Across.unique t hb a h3]
  exact ⟨h4, h5, h6⟩

/-- The last edge of a trail. -/
theorem Trail.last {e f e1 f1 : Nat} {es fs : List Nat} (h : Trail s e f es fs e1 f1) : (e :: es).getLast (by simp) = e1 := by
  induction h with
  | nil => rfl
  | step _ _ _ ih => rw [List.getLast_cons (by simp)]; exact ih

theorem Trail.lengths {e f e1 f1 : Nat} {es fs : List Nat} (h : Trail s e f es fs e1 f1) : es.length = fs.length := by
  induction h with
  | nil => rfl
  | step _ _ _ ih => simp [ih]

/-- The walk along a trail that ends, if the element looked for is not met before. -/
theorem walk_arm (t : Tab numEdges edges s) {first e f e1 f1 : Nat} {es fs : List Nat} (h : Trail s e f es fs e1 f1) (hq : ¬ Quadrilateral s f1)
    (hk : Known s f) (k : Nat) (hl : fs.length < k) (hf : first ∉ fs.tail) :
    ∃ b, walk numEdges s first k f e = .ok (fs.zip (e :: es), e1, b) ∧ (fs = [] ∨ Quadrilateral s first → b = false) := by
  induction h generalizing k with
  | nil e f =>
    obtain ⟨k, rfl⟩ : ∃ k', k = k' + 1 := ⟨k - 1, by simp at hl; omega⟩
    refine ⟨false, ?_, fun _ => rfl⟩
    rw [walk, isQuad_not hk hq, Res.ok_bind]
    rfl
  | @step e f e' g es fs e1 f1 h a tr ih =>
    obtain ⟨k, rfl⟩ : ∃ k', k = k' + 1 := ⟨k - 1, by simp at hl; omega⟩
    have hg := (a.known t (h.symm t).borders).1
    rw [walk, isQuad_of t h.1, Res.ok_bind]
    simp only [Bool.not_true]
    rw [if_neg Bool.false_ne_true, nextEdge_ok t h a, Res.ok_bind]
    simp only [List.tail_cons] at hf
    have hf' : first ∉ fs.tail := fun hc => hf (List.mem_of_mem_tail hc)
    obtain ⟨b, i1, i2⟩ := ih hq hg k (by simp at hl; omega) hf'
    by_cases hgf : g = first
    · rw [if_pos hgf]
      cases tr with
      | nil => exact ⟨true, rfl, fun hc => absurd (hc.resolve_left (by simp)) (hgf ▸ hq)⟩
      | step => exact absurd (hgf ▸ List.mem_cons_self) hf
    · rw [if_neg hgf, i1, Res.ok_bind]
      exact ⟨b, rfl, fun hc => i2 (Or.inr (hc.resolve_left (by simp)))⟩

/-- The walk along a ring. -/
theorem walk_ring (t : Tab numEdges edges s) {first e f e1 : Nat} {es fs : List Nat} (h : Trail s e f es fs e1 first) (hne : fs ≠ [])
    (k : Nat) (hl : fs.length < k) (hf : first ∉ fs.tail) : walk numEdges s first k f e = .ok (fs.zip (e :: es), e1, true) := by
  induction h generalizing k with
  | nil e f => exact absurd rfl hne
  | @step e f e' g es fs e1 f1 h a tr ih =>
    obtain ⟨k, rfl⟩ : ∃ k', k = k' + 1 := ⟨k - 1, by simp at hl; omega⟩
    rw [walk, isQuad_of t h.1, Res.ok_bind]
    simp only [Bool.not_true]
    rw [if_neg Bool.false_ne_true, nextEdge_ok t h a, Res.ok_bind]
    simp only [List.tail_cons] at hf
    cases tr with
    | nil => rw [if_pos rfl]; rfl
    | @step _ _ e2 g2 es' fs' _ _ h2 a2 tr2 =>
      have hgf : g ≠ f1 := fun hc => hf (hc ▸ List.mem_cons_self)
      rw [if_neg hgf, ih (by simp) k (by simp at hl ⊢; omega) (fun hc => hf (List.mem_of_mem_tail hc)), Res.ok_bind]
      rfl

end Verif.SplitRow
