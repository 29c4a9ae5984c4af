import Verif.Regions.Spec
/-!
# Lemmas about the flood fill
-/
namespace Verif.Regions
open Verif.Mesh

/-- Label of face `i`. -/
def lab (l : List Nat) (i : Nat) : Nat := l[i]?.getD missing

theorem lab_set {l : List Nat} {i : Nat} (j v : Nat) (h : i < l.length) :
    lab (l.set i v) j = if j = i then v else lab l j := by
  unfold lab
  by_cases hj : j = i
  · subst hj; simp [h]
  · simp [List.getElem?_set_ne (Ne.symm hj), hj]

theorem lab_ge {l : List Nat} {i : Nat} (h : l.length ≤ i) : lab l i = missing := by
  unfold lab; simp [List.getElem?_eq_none h]

theorem lt_of_lab {l : List Nat} {i : Nat} (h : lab l i ≠ missing) : i < l.length := by
  apply Decidable.byContradiction
  intro hc
  exact h (lab_ge (by omega))

theorem lab_lt {l : List Nat} {i : Nat} (h : i < l.length) : lab l i = l[i] := by
  unfold lab; simp [h]

theorem vget_lab {l : List Nat} {i : Nat} (h : i < l.length) : vget l i = .ok (lab l i) := by
  rw [vget_ok h, lab_lt h]

theorem count_set_missing {l : List Nat} {i r : Nat} (h : i < l.length) (hm : lab l i = missing)
    (hr : r ≠ missing) : (l.set i r).count r = l.count r + 1 ∧
      (l.set i r).count missing + 1 = l.count missing := by
  have e : l[i] = missing := by rw [← lab_lt h]; exact hm
  have hmem : missing ∈ l := e ▸ List.getElem_mem h
  have hpos : 0 < l.count missing := List.count_pos_iff.2 hmem
  constructor
  · rw [List.count_set h, e]
    simp [Ne.symm hr]
  · rw [List.count_set h, e]
    simp [hr]
    omega

theorem OnFace.lt {fe : List (List Nat)} {f e : Nat} (h : OnFace fe f e) : f < fe.length := by
  obtain ⟨es, h1, _⟩ := h
  exact (List.getElem?_eq_some_iff.1 h1).1

theorem Adjacent.symm {fe : List (List Nat)} {f g : Nat} (h : Adjacent fe f g) : Adjacent fe g f := by
  obtain ⟨e, h1, h2⟩ := h
  exact ⟨e, h2, h1⟩

theorem Adjacent.lt {fe : List (List Nat)} {f g : Nat} (h : Adjacent fe f g) :
    f < fe.length ∧ g < fe.length := by
  obtain ⟨e, h1, h2⟩ := h
  exact ⟨h1.lt, h2.lt⟩

theorem Joined.symm {fe : List (List Nat)} {f g : Nat} (h : Joined fe f g) : Joined fe g f := by
  induction h with
  | refl => exact .refl
  | tail _ h2 ih => exact .head h2.symm ih

theorem Joined.trans {fe : List (List Nat)} {f g h : Nat} (h1 : Joined fe f g) (h2 : Joined fe g h) :
    Joined fe f h := Relation.ReflTransGen.trans h1 h2

/-- The neighbour across an edge of a face is no face, or an adjacent face; and every other face
with the same edge is that neighbour. -/
theorem getNeighbour_spec {fe : List (List Nat)} {ef : List (Nat × Nat)} (t : Tables fe ef) {f e : Nat}
    {p : Nat × Nat} (hf : OnFace fe f e) (hp : ef[e]? = some p) :
    (getNeighbour p f = missing ∨ (getNeighbour p f < fe.length ∧ Adjacent fe f (getNeighbour p f))) ∧
      ∀ g, OnFace fe g e → g ≠ f → g = getNeighbour p f := by
  have hfl := hf.lt
  have hfit := t.fit
  have hfm : f ≠ missing := by omega
  have hr := t.range e p hp
  have hag := t.agree f e p hfl hp
  have hor := hag.1 hf
  unfold getNeighbour
  rw [if_neg hfm]
  constructor
  · split
    · rename_i h1
      cases hr.2 with
      | inl h => exact Or.inl h
      | inr h =>
        right
        exact ⟨h, e, hf, (t.agree p.2 e p h hp).2 (Or.inr rfl)⟩
    · rename_i h1
      rw [if_pos (hor.resolve_left h1)]
      cases hr.1 with
      | inl h => exact Or.inl h
      | inr h =>
        right
        exact ⟨h, e, hf, (t.agree p.1 e p h hp).2 (Or.inl rfl)⟩
  · intro g hg hgf
    have hg' := (t.agree g e p hg.lt hp).1 hg
    split
    · rename_i h1
      cases hg' with
      | inl h => omega
      | inr h => exact h.symm
    · rename_i h1
      rw [if_pos (hor.resolve_left h1)]
      cases hg' with
      | inl h => exact h.symm
      | inr h => have := hor.resolve_left h1; omega

/-- Invariant of the flood fill of region `r` from `start` with earlier labels `l0`. -/
structure Inv (fe : List (List Nat)) (r : Nat) (l0 : List Nat) (start : Nat) (s : Flood) : Prop where
  len : s.label.length = fe.length
  old : ∀ i, lab l0 i ≠ missing → lab s.label i = lab l0 i
  new : ∀ i, lab l0 i = missing → lab s.label i = missing ∨ (lab s.label i = r ∧ Joined fe start i)
  first : lab s.label start = r
  queued : ∀ i ∈ s.queue, i < fe.length ∧ lab l0 i = missing ∧ lab s.label i = r
  counted : s.count = s.label.count r

/-- `s'` labels more than `s`; what it labels more is in its queue. -/
structure Grows (s s' : Flood) : Prop where
  keep : ∀ i, lab s.label i ≠ missing → lab s'.label i ≠ missing
  queue : ∀ i ∈ s.queue, i ∈ s'.queue
  fresh : ∀ i, lab s.label i = missing → lab s'.label i ≠ missing → i ∈ s'.queue
  budget : s'.queue.length + s'.label.count missing = s.queue.length + s.label.count missing

theorem Grows.refl (s : Flood) : Grows s s := ⟨fun _ h => h, fun _ h => h, fun _ h h' => absurd h h', rfl⟩

theorem Grows.trans {s s1 s2 : Flood} (h1 : Grows s s1) (h2 : Grows s1 s2) : Grows s s2 := by
  refine ⟨fun i h => h2.keep i (h1.keep i h), fun i h => h2.queue i (h1.queue i h), ?_, h2.budget.trans h1.budget⟩
  intro i h h'
  by_cases hc : lab s1.label i = missing
  · exact h2.fresh i hc h'
  · exact h2.queue i (h1.fresh i h hc)

theorem visit_spec {fe : List (List Nat)} {r : Nat} {l0 : List Nat} {start : Nat} {s : Flood} (nb : Nat)
    (hr : r ≠ missing) (inv : Inv fe r l0 start s)
    (hnb : nb = missing ∨ (nb < fe.length ∧ Joined fe start nb)) :
    ∃ s', visit r nb s = .ok s' ∧ Inv fe r l0 start s' ∧ Grows s s' ∧ (nb ≠ missing → lab s'.label nb ≠ missing) := by
  unfold visit
  by_cases hm : nb = missing
  · rw [if_pos hm]
    exact ⟨s, rfl, inv, Grows.refl s, fun h => absurd hm h⟩
  · rw [if_neg hm]
    obtain ⟨hlt, hj⟩ := hnb.resolve_left hm
    have hl : nb < s.label.length := by rw [inv.len]; exact hlt
    rw [vget_lab hl, Res.ok_bind]
    by_cases ho : lab s.label nb = missing
    · rw [if_pos ho, vset_ok _ hl, Res.ok_bind]
      obtain ⟨c1, c2⟩ := count_set_missing hl ho hr
      have hl0 : lab l0 nb = missing := by
        by_cases hc : lab l0 nb = missing
        · exact hc
        · rw [inv.old nb hc] at ho; exact absurd ho hc
      refine ⟨_, rfl, ⟨?_, ?_, ?_, ?_, ?_, ?_⟩, ⟨?_, ?_, ?_, ?_⟩, ?_⟩
      · simp [inv.len]
      · intro i hi
        show lab (s.label.set nb r) i = _
        rw [lab_set i r hl, if_neg (by rintro rfl; exact hi hl0)]
        exact inv.old i hi
      · intro i hi
        show lab (s.label.set nb r) i = missing ∨ lab (s.label.set nb r) i = r ∧ _
        rw [lab_set i r hl]
        by_cases h : i = nb
        · subst h; rw [if_pos rfl]; exact Or.inr ⟨rfl, hj⟩
        · rw [if_neg h]; exact inv.new i hi
      · show lab (s.label.set nb r) start = r
        rw [lab_set start r hl]
        split
        · rfl
        · exact inv.first
      · intro i hi
        show _ ∧ _ ∧ lab (s.label.set nb r) i = r
        rw [lab_set i r hl]
        have hi' : i ∈ s.queue ∨ i = nb := by simpa using hi
        cases hi' with
        | inl h =>
          obtain ⟨q1, q2, q3⟩ := inv.queued i h
          refine ⟨q1, q2, ?_⟩
          split
          · rfl
          · exact q3
        | inr h => subst h; exact ⟨hlt, hl0, by simp⟩
      · show s.count + 1 = (s.label.set nb r).count r
        rw [c1, inv.counted]
      · intro i hi
        show lab (s.label.set nb r) i ≠ missing
        rw [lab_set i r hl]
        split
        · exact hr
        · exact hi
      · intro i hi
        show i ∈ s.queue ++ [nb]
        simp [hi]
      · intro i h1 h2
        have h2' : lab (s.label.set nb r) i ≠ missing := h2
        rw [lab_set i r hl] at h2'
        show i ∈ s.queue ++ [nb]
        by_cases h : i = nb
        · simp [h]
        · rw [if_neg h] at h2'; exact absurd h1 h2'
      · show (s.queue ++ [nb]).length + (s.label.set nb r).count missing = _
        simp only [List.length_append, List.length_cons, List.length_nil]
        omega
      · intro _
        show lab (s.label.set nb r) nb ≠ missing
        rw [lab_set nb r hl, if_pos rfl]
        exact hr
    · rw [if_neg ho]
      exact ⟨s, rfl, inv, Grows.refl s, fun _ => ho⟩

theorem visitEdges_spec {fe : List (List Nat)} {ef : List (Nat × Nat)} (t : Tables fe ef) {r : Nat}
    {l0 : List Nat} {start cur : Nat} (hr : r ≠ missing) (hcur : Joined fe start cur) :
    ∀ (es : List Nat) (s : Flood), Inv fe r l0 start s → lab s.label cur ≠ missing →
      (∀ e ∈ es, OnFace fe cur e) →
      ∃ s', visitEdges ef r cur es s = .ok s' ∧ Inv fe r l0 start s' ∧ Grows s s' ∧
        ∀ e ∈ es, ∀ g, OnFace fe g e → lab s'.label g ≠ missing
  | [], s, inv, _, _ => ⟨s, rfl, inv, Grows.refl s, by simp⟩
  | e :: es, s, inv, hc, hes => by
    have hoe := hes e (by simp)
    have hlt := t.edges cur e hoe
    simp only [visitEdges]
    rw [vget_ok hlt, Res.ok_bind]
    have hp : ef[e]? = some ef[e] := by simp [hlt]
    obtain ⟨n1, n2⟩ := getNeighbour_spec t hoe hp
    obtain ⟨s1, v1, v2, v3, v4⟩ := visit_spec (getNeighbour ef[e] cur) hr inv
      (n1.imp id (fun h => ⟨h.1, hcur.trans (.single h.2)⟩))
    rw [v1, Res.ok_bind]
    obtain ⟨s2, w1, w2, w3, w4⟩ := visitEdges_spec t hr hcur es s1 v2 (v3.keep cur hc)
      (fun e' he' => hes e' (by simp [he']))
    refine ⟨s2, w1, w2, v3.trans w3, ?_⟩
    intro e' he' g hg
    rw [List.mem_cons] at he'
    cases he' with
    | inl h =>
      subst h
      by_cases hgc : g = cur
      · subst hgc; exact w3.keep _ (v3.keep _ hc)
      · have := n2 g hg hgc
        apply w3.keep
        rw [this]
        apply v4
        rw [← this]
        have := hg.lt
        have := t.fit
        omega
    | inr h => exact w4 e' h g hg

/-- Faces labelled in this fill whose neighbours may still be unlabelled are in the queue. -/
def Settled (fe : List (List Nat)) (l0 : List Nat) (s : Flood) : Prop :=
  ∀ i, lab l0 i = missing → lab s.label i ≠ missing →
    i ∈ s.queue ∨ ∀ j, Adjacent fe i j → lab s.label j ≠ missing

theorem flood_spec {fe : List (List Nat)} {ef : List (Nat × Nat)} (t : Tables fe ef) {r : Nat}
    {l0 : List Nat} {start : Nat} (hr : r ≠ missing) :
    ∀ (k : Nat) (s : Flood), Inv fe r l0 start s → Settled fe l0 s →
      s.queue.length + s.label.count missing ≤ k →
      ∃ s', flood fe ef r k s = .ok s' ∧ Inv fe r l0 start s' ∧ Settled fe l0 s' ∧ s'.queue = []
  | 0, s, inv, st, hk => ⟨s, rfl, inv, st, by
      cases hq : s.queue with
      | nil => rfl
      | cons a b => rw [hq] at hk; simp at hk⟩
  | k + 1, s, inv, st, hk => by
    simp only [flood]
    cases hq : s.queue with
    | nil => exact ⟨s, rfl, inv, st, hq⟩
    | cons cur rest =>
      simp only
      obtain ⟨q1, q2, q3⟩ := inv.queued cur (by rw [hq]; simp)
      rw [vget_ok q1, Res.ok_bind]
      have hcm : lab s.label cur ≠ missing := by rw [q3]; exact hr
      have hj : Joined fe start cur := by
        cases inv.new cur q2 with
        | inl h => exact absurd h hcm
        | inr h => exact h.2
      have inv0 : Inv fe r l0 start { s with queue := rest } :=
        ⟨inv.len, inv.old, inv.new, inv.first, fun i hi => inv.queued i (by rw [hq]; simp [hi]), inv.counted⟩
      have hes : ∀ e ∈ fe[cur], OnFace fe cur e := fun e he => ⟨fe[cur], by simp [q1], he⟩
      obtain ⟨s1, v1, v2, v3, v4⟩ := visitEdges_spec t hr hj fe[cur] { s with queue := rest } inv0 hcm hes
      rw [v1, Res.ok_bind]
      apply flood_spec t hr k s1 v2
      · intro i hi hl
        by_cases hlab : lab s.label i = missing
        · exact Or.inl (v3.fresh i hlab hl)
        · by_cases hic : i = cur
          · subst hic
            right
            rintro j ⟨e, h1, h2⟩
            obtain ⟨es, g1, g2⟩ := h1
            have : es = fe[i] := by
              rw [List.getElem?_eq_getElem q1] at g1
              exact (Option.some.inj g1).symm
            subst this
            exact v4 e g2 j h2
          · cases st i hi hlab with
            | inl h =>
              rw [hq, List.mem_cons] at h
              exact Or.inl (v3.queue i (h.resolve_left hic))
            | inr h => exact Or.inr (fun j hj => v3.keep j (h j hj))
      · have hb := v3.budget
        have hb' : s1.queue.length + s1.label.count missing = rest.length + s.label.count missing := hb
        rw [hq] at hk
        simp only [List.length_cons] at hk
        omega

/-- Result of one flood fill: the unlabelled faces joined with `start` get the label. -/
theorem labelConnectedRegion_spec {fe : List (List Nat)} {ef : List (Nat × Nat)} (t : Tables fe ef) {r : Nat}
    {l0 : List Nat} {start : Nat} (hr : r ≠ missing) (hlen : l0.length = fe.length) (hs : start < fe.length)
    (hs0 : lab l0 start = missing) (hnew : ∀ i, lab l0 i ≠ r)
    (hclosed : ∀ i j, lab l0 i ≠ missing → Adjacent fe i j → lab l0 j ≠ missing) :
    ∃ l, labelConnectedRegion fe ef r l0 start = .ok ⟨l, l.count r, []⟩ ∧ l.length = fe.length ∧
      (∀ i, lab l0 i ≠ missing → lab l i = lab l0 i) ∧
      (∀ i, Joined fe start i → lab l i = r) ∧
      (∀ i, lab l0 i = missing → ¬ Joined fe start i → lab l i = missing) := by
  unfold labelConnectedRegion
  have hsl : start < l0.length := by omega
  rw [vset_ok _ hsl, Res.ok_bind]
  obtain ⟨c1, c2⟩ := count_set_missing hsl hs0 hr
  have hc0 : l0.count r = 0 := by
    rw [List.count_eq_zero]
    intro hm
    obtain ⟨i, hi, he⟩ := List.getElem_of_mem hm
    exact hnew i (by rw [lab_lt hi, he])
  have hbound : l0.count missing ≤ l0.length := List.count_le_length
  obtain ⟨s', f1, f2, f3, f4⟩ := flood_spec t (l0 := l0) (start := start) hr fe.length
    ⟨l0.set start r, 1, [start]⟩
    ⟨by simp [hlen], fun i hi => by
        show lab (l0.set start r) i = _
        rw [lab_set i r hsl, if_neg (by rintro rfl; exact hi hs0)],
      fun i hi => by
        show lab (l0.set start r) i = missing ∨ lab (l0.set start r) i = r ∧ _
        rw [lab_set i r hsl]
        by_cases h : i = start
        · subst h; rw [if_pos rfl]; exact Or.inr ⟨rfl, .refl⟩
        · rw [if_neg h]; exact Or.inl hi,
      by
        show lab (l0.set start r) start = r
        rw [lab_set start r hsl, if_pos rfl],
      fun i hi => by
        have : i = start := by simpa using hi
        subst this
        refine ⟨hs, hs0, ?_⟩
        show lab (l0.set i r) i = r
        rw [lab_set i r hsl, if_pos rfl],
      by
        show 1 = (l0.set start r).count r
        rw [c1, hc0]⟩
    (by
      intro i hi hl
      have hl' : lab (l0.set start r) i ≠ missing := hl
      rw [lab_set i r hsl] at hl'
      by_cases h : i = start
      · left; simp [h]
      · rw [if_neg h] at hl'; exact absurd hi hl')
    (by
      show [start].length + (l0.set start r).count missing ≤ _
      simp only [List.length_cons, List.length_nil]
      omega)
  have hjoin : ∀ i, Joined fe start i → lab l0 i = missing ∧ lab s'.label i = r := by
    intro i hi
    induction hi with
    | refl => exact ⟨hs0, f2.first⟩
    | @tail b c _ hadj ih =>
      have hc : lab l0 c = missing := by
        by_cases h : lab l0 c = missing
        · exact h
        · exact absurd ih.1 (hclosed c b h hadj.symm)
      refine ⟨hc, ?_⟩
      have hb := f3 b ih.1 (by rw [ih.2]; exact hr)
      rw [f4] at hb
      have hcl := (hb.resolve_left (by simp)) c hadj
      exact ((f2.new c hc).resolve_left hcl).1
  refine ⟨s'.label, ?_, f2.len, f2.old, fun i hi => (hjoin i hi).2, ?_⟩
  · rw [f1]
    congr 1
    obtain ⟨a, b, c⟩ := s'
    have e1 := f2.counted
    simp only at e1 f4
    simp only [e1, f4]
  · intro i hi hnj
    cases f2.new i hi with
    | inl h => exact h
    | inr h => exact absurd h.2 hnj

end Verif.Regions
