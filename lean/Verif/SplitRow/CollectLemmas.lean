import Verif.SplitRow.Lemmas
import Verif.Flip.LoopLemmas
/-!
# Lemmas: the collected elements and edges; rows exist
-/
namespace Verif.SplitRow
open Verif.Mesh Verif.Faces
open Verif.Polygons (Pt)
open Verif.Flip (Exact Linked)

variable {numEdges : Nat} {edges : List Edge} {s : State}

theorem Trail.quads {e f e1 f1 : Nat} {es fs : List Nat} (h : Trail s e f es fs e1 f1) : ∀ x ∈ fs, Quadrilateral s x := by
  induction h with
  | nil => simp
  | step h _ _ ih =>
    intro x hx
    rcases List.mem_cons.1 hx with rfl | hx
    · exact h.1
    · exact ih x hx

theorem Trail.head {e f e1 f1 : Nat} {es fs : List Nat} (h : Trail s e f es fs e1 f1) (hne : fs ≠ []) : ∃ fs', fs = f :: fs' := by
  cases h with
  | nil => exact absurd rfl hne
  | step => exact ⟨_, rfl⟩

theorem Tab.short (t : Tab numEdges edges s) {fs : List Nat} (hd : fs.Nodup) (hq : ∀ x ∈ fs, Quadrilateral s x) : fs.length < 2 * numEdges + 2 := by
  have h1 : fs.length ≤ s.facesNodes.length := by
    have := (hd.subperm (l₂ := List.range s.facesNodes.length) (fun x hx => List.mem_range.2 (hq x hx).lt)).length_le
    simpa using this
  have h2 := t.linked.count_faces
  have := t.more
  omega

theorem zip_edges {fs es : List Nat} {e : Nat} (h : es.length = fs.length) :
    (fs.zip (e :: es)).map Prod.snd ++ [(e :: es).getLast (by simp)] = e :: es ∧ (fs.zip (e :: es)).map Prod.fst = fs := by
  constructor
  · have : (fs.zip (e :: es)).map Prod.snd = (e :: es).dropLast := by
      rw [List.dropLast_eq_take]
      apply List.ext_getElem
      · simp [h]
      · intro i h1 h2
        simp
    rw [this, List.dropLast_concat_getLast]
  · exact List.map_fst_zip (by simp; omega)

/-- One arm, from side 0 or side 1. -/
theorem collectSide_arm (t : Tab numEdges edges s) {e p1 p2 : Nat} {es fs : List Nat} (hp : s.edgesFaces[e]? = some (p1, p2)) (h1 : p1 ≠ missing)
    (side : Bool) (hk : Known s (if side then p2 else p1)) (ha : Arm s e (if side then p2 else p1) es fs) (hd : fs.Nodup) (hf : p1 ∉ fs.tail)
    (he : e < edges.length) :
    ∃ b, collectSide numEdges s e side = .ok (fs, (if side = true ∧ fs ≠ [] then es else e :: es), b) ∧ (fs = [] ∨ Quadrilateral s p1 → b = false) := by
  obtain ⟨e1, f1, ht, hq⟩ := ha
  obtain ⟨b, w1, w2⟩ := walk_arm t (first := p1) ht hq hk (2 * numEdges + 2) (t.short hd ht.quads) hf
  refine ⟨b, ?_, w2⟩
  have hz := zip_edges (e := e) ht.lengths
  have hlast := ht.last
  have hmem : e1 ∈ e :: es := by rw [← hlast]; exact List.getLast_mem _
  have hne : e1 ≠ missing := by
    have hb : ∀ x ∈ e :: es, x < edges.length := by
      intro x hx
      rcases List.mem_cons.1 hx with rfl | hx
      · exact he
      · have : ∀ {e f e1 f1 : Nat} {es fs : List Nat}, Trail s e f es fs e1 f1 → ∀ x ∈ es, x < edges.length := by
          intro e f e1 f1 es fs h
          induction h with
          | nil => simp
          | step h _ _ ih =>
            intro x hx
            rcases List.mem_cons.1 hx with rfl | hx
            · exact Borders.lt t (h.symm t).borders
            · exact ih x hx
        exact this ht x hx
    have := hb e1 hmem
    have := t.edgesFit
    have := t.more
    omega
  unfold collectSide
  rw [vget_eq_ok.2 hp, Res.ok_bind]
  simp only [if_pos h1]
  rw [w1, Res.ok_bind]
  simp only [if_pos hne]
  rw [hz.2]
  rw [hlast] at hz
  cases side with
  | false =>
    simp only [Bool.false_eq_true, if_false, false_and]
    rw [hz.1]
  | true =>
    simp only [if_true, true_and]
    cases fs with
    | nil =>
      have : es = [] := List.length_eq_zero_iff.1 ht.lengths
      subst this
      have : e = e1 := by simpa using hlast
      subst this
      simp
    | cons f fs =>
      rw [if_pos (by simp)]
      have h2 := hz.1
      cases es with
      | nil => exact absurd ht.lengths (by simp)
      | cons e' es =>
        simp only [List.zip_cons_cons, List.map_cons, List.cons_append, List.cons.injEq, true_and, List.drop_succ_cons, List.drop_zero] at h2 ⊢
        rw [h2]

theorem collect_arms (t : Tab numEdges edges s) {e p1 p2 : Nat} {es1 fs1 es2 fs2 : List Nat} (hp : s.edgesFaces[e]? = some (p1, p2)) (he : e < edges.length)
    (h1 : Arm s e p1 es1 fs1) (h2 : Arm s e p2 es2 fs2) (hb : Borders s p1 e) (hd : (fs2.reverse ++ fs1).Nodup) (hbug : p2 = missing ∨ fs2 ≠ []) :
    collect numEdges s e = .ok (fs2.reverse ++ fs1, es2.reverse ++ e :: es1) := by
  have hk := Borders.known t hb
  have hm : p1 ≠ missing := by have := t.facesFit; omega
  have hk2 : Known s p2 := by
    obtain ⟨p, g, k1, _, _, k4, _, _, k6, _⟩ := Across.of t hb
    rw [hp] at k1
    obtain rfl := Option.some.inj k1
    rcases k6 with k6 | k6
    · rw [(Prod.mk.inj k6).2]; exact k4
    · rw [(Prod.mk.inj k6).2]; exact Or.inr hk
  have hd1 : fs1.Nodup := (List.nodup_append.1 hd).2.1
  have hd2 : fs2.Nodup := List.nodup_reverse.1 (List.nodup_append.1 hd).1
  have ht1 : p1 ∉ fs1.tail := by
    obtain ⟨e1, f1, ht, _⟩ := h1
    cases ht with
    | nil => simp
    | step => exact (List.nodup_cons.1 hd1).1
  obtain ⟨b, c1, c2⟩ := collectSide_arm t hp hm false (Or.inr hk) h1 hd1 ht1 he
  have hbf : b = false := by
    by_cases hn : fs1 = []
    · exact c2 (Or.inl hn)
    · obtain ⟨e1, f1, ht, _⟩ := h1
      obtain ⟨fs', rfl⟩ := ht.head hn
      exact c2 (Or.inr (ht.quads p1 List.mem_cons_self))
  subst hbf
  unfold collect
  rw [vget_eq_ok.2 hp, Res.ok_bind]
  simp only [if_neg hm]
  rw [c1, Res.ok_bind]
  simp only [Bool.false_eq_true, if_false, false_and]
  by_cases h2m : p2 = missing
  · rw [if_pos h2m]
    have : fs2 = [] ∧ es2 = [] := by
      obtain ⟨e1, f1, ht, _⟩ := h2
      cases ht with
      | nil => exact ⟨rfl, rfl⟩
      | step h => exact absurd h2m (t.ne_missing h.1)
    rw [this.1, this.2]
    rfl
  · rw [if_neg h2m]
    have hne := hbug.resolve_left h2m
    have hf2 : p1 ∉ fs2.tail := by
      intro hc
      have hc' := List.mem_of_mem_tail hc
      by_cases hn : fs1 = []
      · obtain ⟨e1, f1, ht, hq⟩ := h1
        subst hn
        cases ht
        obtain ⟨e2, f2, ht2, _⟩ := h2
        exact hq (ht2.quads p1 hc')
      · obtain ⟨e1, f1, ht, _⟩ := h1
        obtain ⟨fs', rfl⟩ := ht.head hn
        exact (List.nodup_append.1 hd).2.2 p1 (List.mem_reverse.2 hc') p1 List.mem_cons_self rfl
    obtain ⟨b, d1, _⟩ := collectSide_arm t hp hm true hk2 h2 hd2 hf2 he
    rw [d1, Res.ok_bind]
    simp only [hne, ne_eq, not_false_eq_true, and_self, if_true]

theorem collect_ring (t : Tab numEdges edges s) {e p1 p2 : Nat} {es fs : List Nat} (hp : s.edgesFaces[e]? = some (p1, p2)) (he : e < edges.length)
    (h1 : Ring s e p1 es fs) (hd : fs.Nodup) : collect numEdges s e = .ok (fs, e :: es) := by
  obtain ⟨ht, hne⟩ := h1
  obtain ⟨fs', rfl⟩ := ht.head hne
  have hq := ht.quads
  have hm := t.ne_missing (hq p1 List.mem_cons_self)
  have hem : e ≠ missing := by have := t.edgesFit; have := t.more; omega
  have hw := walk_ring t ht hne (2 * numEdges + 2) (t.short hd hq) (List.nodup_cons.1 hd).1
  have hz := zip_edges (e := e) ht.lengths
  rw [ht.last] at hz
  have hc : collectSide numEdges s e false = .ok (p1 :: fs', e :: es, true) := by
    unfold collectSide
    rw [vget_eq_ok.2 hp, Res.ok_bind]
    simp only [if_pos hm, Bool.false_eq_true, if_false]
    rw [hw, Res.ok_bind]
    simp only [if_pos hem]
    rw [hz.1, hz.2]
  unfold collect
  rw [vget_eq_ok.2 hp, Res.ok_bind]
  simp only [if_neg hm]
  rw [hc, Res.ok_bind]
  rfl

end Verif.SplitRow
