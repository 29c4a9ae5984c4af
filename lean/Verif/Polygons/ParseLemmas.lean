import Verif.Polygons.ParseSpec
/-!
# Lemmas on parsing and gathering
-/
namespace Verif.Polygons

theorem join_nil (s : Pt) : List.intercalate [s] ([] : List (List Pt)) = [] := rfl
theorem join_one (s : Pt) (r : List Pt) : List.intercalate [s] [r] = r := by simp [List.intercalate]
theorem join_cons (s : Pt) (r q : List Pt) (rs : List (List Pt)) :
    List.intercalate [s] (r :: q :: rs) = r ++ s :: List.intercalate [s] (q :: rs) := by
  simp [List.intercalate]

/-- Index ranges of blocks divided by one separator; the last one ends at `size - 1`. -/
def spans (size n : Nat) : List (List Pt) → List (Nat × Nat)
  | [] => []
  | [_] => [(n, size - 1)]
  | r :: rs => (n, n + r.length - 1) :: spans size (n + r.length + 1) rs

theorem findLoop_run {σ : ℚ} {size : Nat} {b rest : List Pt} (hb : ∀ p ∈ b, isSep σ p = false) (n s : Nat) :
    findLoop σ size (b ++ rest) n (some s) = findLoop σ size rest (n + b.length) (some s) := by
  induction b generalizing n with
  | nil => rfl
  | cons p ps ih =>
    rw [List.cons_append, findLoop, hb p (by simp)]
    simp only [Bool.false_eq_true, if_false]
    rw [ih (fun q hq => hb q (by simp [hq])), List.length_cons]
    congr 1; omega

theorem findLoop_open {σ : ℚ} {size : Nat} {b rest : List Pt} (hb : ∀ p ∈ b, isSep σ p = false) (hne : b ≠ [])
    (n : Nat) : findLoop σ size (b ++ rest) n none = findLoop σ size rest (n + b.length) (some n) := by
  cases b with
  | nil => exact absurd rfl hne
  | cons p ps =>
    rw [List.cons_append, findLoop, hb p (by simp)]
    simp only [Bool.false_eq_true, if_false]
    rw [findLoop_run (fun q hq => hb q (by simp [hq])), List.length_cons]
    congr 1; omega

theorem findLoop_join {σ : ℚ} {s : Pt} (hs : isSep σ s = true) (size : Nat) (bs : List (List Pt))
    (hb : ∀ b ∈ bs, b ≠ [] ∧ ∀ p ∈ b, isSep σ p = false) (n : Nat) :
    findLoop σ size (List.intercalate [s] bs) n none = spans size n bs := by
  induction bs generalizing n with
  | nil => rfl
  | cons b bs ih =>
    have hb0 := hb b (by simp)
    cases bs with
    | nil =>
      rw [join_one]
      have := findLoop_open (size := size) (rest := []) hb0.2 hb0.1 n
      rw [List.append_nil] at this
      rw [this]; rfl
    | cons c cs =>
      rw [join_cons, findLoop_open hb0.2 hb0.1 n, findLoop, hs]
      simp only [if_true]
      rw [ih (fun b h => hb b (List.mem_cons_of_mem _ h))]
      rfl

theorem findLoop_dropLast {σ : ℚ} {size : Nat} (xs : List Pt) {a b : Pt} (ha : isSep σ a = false)
    (hb : isSep σ b = false) (n : Nat) (o : Option Nat) :
    findLoop σ size (xs ++ [a, b]) n o = findLoop σ size (xs ++ [a]) n o := by
  induction xs generalizing n o with
  | nil => cases o <;> simp [findLoop, ha, hb]
  | cons x xs ih => cases o <;> simp only [List.cons_append, findLoop, ih]

theorem slice_mid (pre r post : List Pt) :
    ((pre ++ (r ++ post)).take (pre.length + r.length)).drop pre.length = r := by
  rw [← List.append_assoc, ← List.length_append, List.take_left, List.drop_left]

theorem initialise_ok {r : List Pt} (h : ClosedRing r) : initialise r = .ok r := by
  obtain ⟨h1, h2, p, q, h3, h4, h5⟩ := h
  have hc : r.countP (fun p => !p.isValid) = 0 := by
    rw [List.countP_eq_zero]; intro p hp; simp [h2 p hp]
  have : ¬ (0 < r.length ∧ r.length < 4) := by omega
  simp [initialise, this, h3, h4, h5, hc]

theorem initialise_throw {r : List Pt} (hne : r ≠ []) (h : ¬ ClosedRing r) : initialise r = .throw := by
  unfold initialise
  by_cases h1 : 0 < r.length ∧ r.length < 4
  · rw [if_pos h1]
  · rw [if_neg h1]
    have hl : 0 < r.length := List.length_pos_iff.2 hne
    obtain ⟨p, hp⟩ : ∃ p, r.head? = some p := by cases r with
      | nil => exact absurd rfl hne
      | cons p _ => exact ⟨p, rfl⟩
    obtain ⟨q, hq⟩ : ∃ q, r.getLast? = some q := ⟨_, List.getLast?_eq_some_getLast hne⟩
    simp only [hp, hq]
    by_cases h2 : p.same q = true
    · simp only [h2, Bool.not_true, Bool.false_eq_true, if_false]
      rw [if_pos]
      rw [gt_iff_lt, List.countP_pos_iff]
      by_contra hcon
      refine h ⟨by omega, fun x hx => ?_, p, q, hp, hq, h2⟩
      by_contra hx'
      exact hcon ⟨x, hx, by simpa using hx'⟩
    · simp [h2]

theorem constructPolygon_mid {pre r post : List Pt} (hne : r ≠ []) :
    constructPolygon (pre ++ (r ++ post)) pre.length (pre.length + r.length - 1) = initialise r := by
  have hl : 0 < r.length := List.length_pos_iff.2 hne
  unfold constructPolygon
  rw [if_neg (by omega), if_neg (by simp; omega)]
  rw [show pre.length + r.length - 1 + 1 = pre.length + r.length by omega, slice_mid]

/-- The rings found in a block, all good. -/
theorem constructRings_ok (rs : List (List Pt)) (pre : List Pt) (hne : ∀ r ∈ rs, r ≠ [])
    (h : ∀ r ∈ rs, ClosedRing r) :
    constructRings (pre ++ List.intercalate [innerSep] rs)
      (spans (pre ++ List.intercalate [innerSep] rs).length pre.length rs) = .ok rs := by
  induction rs generalizing pre with
  | nil => rfl
  | cons r rs ih =>
    have hr := hne r (by simp)
    cases rs with
    | nil =>
      rw [join_one, spans, constructRings, List.length_append]
      have := constructPolygon_mid (pre := pre) (post := []) hr
      rw [List.append_nil] at this
      simp only [this, initialise_ok (h r (by simp)), Res.ok_bind, constructRings]
    | cons q qs =>
      rw [join_cons, spans, constructRings]
      · rw [constructPolygon_mid hr, initialise_ok (h r (by simp)), Res.ok_bind]
        have := ih (pre ++ (r ++ [innerSep])) (fun x hx => hne x (by simp [List.mem_cons.1 hx]))
          (fun x hx => h x (by simp [List.mem_cons.1 hx]))
        simp only [List.append_assoc, List.singleton_append, List.length_append, List.length_cons,
          List.length_nil] at this ⊢
        have e : pre.length + (r.length + (0 + 1)) = pre.length + r.length + 1 := by omega
        rw [e] at this
        rw [this]
        rfl
      · simp

theorem constructRings_throw (rs : List (List Pt)) (pre : List Pt) (hne : ∀ r ∈ rs, r ≠ [])
    (h : ¬ ∀ r ∈ rs, ClosedRing r) :
    constructRings (pre ++ List.intercalate [innerSep] rs)
      (spans (pre ++ List.intercalate [innerSep] rs).length pre.length rs) = .throw := by
  induction rs generalizing pre with
  | nil => simp at h
  | cons r rs ih =>
    have hr := hne r (by simp)
    cases rs with
    | nil =>
      rw [join_one, spans, constructRings, List.length_append]
      have := constructPolygon_mid (pre := pre) (post := []) hr
      rw [List.append_nil] at this
      simp only [this, initialise_throw hr (by simpa using h), Res.throw_bind]
    | cons q qs =>
      rw [join_cons, spans, constructRings]
      · rw [constructPolygon_mid hr]
        by_cases hc : ClosedRing r
        · rw [initialise_ok hc, Res.ok_bind]
          have := ih (pre ++ (r ++ [innerSep])) (fun x hx => hne x (by simp [List.mem_cons.1 hx]))
            (fun hall => h (fun x hx => by
              rcases List.mem_cons.1 hx with rfl | hx
              · exact hc
              · exact hall x hx))
          simp only [List.append_assoc, List.singleton_append, List.length_append, List.length_cons,
            List.length_nil] at this ⊢
          have e : pre.length + (r.length + (0 + 1)) = pre.length + r.length + 1 := by omega
          rw [e] at this
          rw [this]
          rfl
        · rw [initialise_throw hr hc]; rfl
      · simp

/-- The block of points of a polygon. -/
def Area.block (a : Area) : List Pt := List.intercalate [innerSep] a.rings

theorem block_ne {a : Area} (h : a.Separable) : a.block ≠ [] := by
  obtain ⟨o, hs⟩ := a
  have : o ≠ [] := (h.1 o (by simp [Area.rings])).1
  cases hs with
  | nil => simpa [Area.block, Area.rings] using this
  | cons q qs => simp [Area.block, Area.rings, join_cons]

theorem block_not_outer {a : Area} (h : a.Separable) : ∀ p ∈ a.block, isSep missingDouble p = false := by
  obtain ⟨o, hs⟩ := a
  have key : ∀ rs : List (List Pt), (∀ r ∈ rs, Polygons.Separable r) →
      ∀ p ∈ List.intercalate [innerSep] rs, isSep missingDouble p = false := by
    intro rs
    induction rs with
    | nil => intro _ p hp; simp [List.intercalate] at hp
    | cons r rs ih =>
      intro hsep p hp
      cases rs with
      | nil => rw [join_one] at hp; exact ((hsep r (by simp)).2 p hp).1
      | cons q qs =>
        rw [join_cons, List.mem_append, List.mem_cons] at hp
        rcases hp with hp | rfl | hp
        · exact ((hsep r (by simp)).2 p hp).1
        · exact innerSep_not_outer
        · exact ih (fun x hx => hsep x (by simp [List.mem_cons.1 hx])) p hp
  exact key _ h.1

/-- Leaving out the last point does not change the ranges when the last ring has two points. -/
theorem findLoop_block_dropLast (rs : List (List Pt)) (hne : rs ≠ []) (h : ∀ r ∈ rs, Polygons.Separable r)
    (h2 : 2 ≤ (rs.getLast hne).length) (size n : Nat) :
    findLoop innerOuterSeparator size (List.intercalate [innerSep] rs).dropLast n none
      = spans size n rs := by
  rw [← findLoop_join innerSep_isSep size rs (fun b hb => ⟨(h b hb).1, fun p hp => ((h b hb).2 p hp).2⟩) n]
  have key : ∃ xs a b, List.intercalate [innerSep] rs = xs ++ [a, b] ∧
      isSep innerOuterSeparator a = false ∧ isSep innerOuterSeparator b = false := by
    clear n
    induction rs with
    | nil => exact absurd rfl hne
    | cons r rs ih =>
      cases rs with
      | nil =>
        have hs := h r (by simp)
        simp only [List.getLast_singleton] at h2
        obtain ⟨xs, a, b, e⟩ : ∃ xs a b, r = xs ++ [a, b] := by
          refine ⟨r.take (r.length - 2), r[r.length - 2], r[r.length - 1], ?_⟩
          have hd : r.drop (r.length - 2) = [r[r.length - 2], r[r.length - 1]] := by
            rw [List.drop_eq_getElem_cons (by omega), List.drop_eq_getElem_cons (by omega)]
            rw [List.drop_eq_nil_of_le (by omega)]
            simp only [show r.length - 2 + 1 = r.length - 1 by omega]
          rw [← hd, List.take_append_drop]
        refine ⟨xs, a, b, by rw [join_one, e], (hs.2 a (by simp [e])).2, (hs.2 b (by simp [e])).2⟩
      | cons q qs =>
        obtain ⟨xs, a, b, e, ha, hb⟩ := ih (by simp) (fun x hx => h x (by simp [List.mem_cons.1 hx]))
          (by rwa [List.getLast_cons (by simp)] at h2)
        exact ⟨r ++ innerSep :: xs, a, b, by rw [join_cons, e]; simp, ha, hb⟩
  obtain ⟨xs, a, b, e, ha, hb⟩ := key
  rw [e, findLoop_dropLast xs ha hb]
  congr 1
  rw [show xs ++ [a, b] = (xs ++ [a]) ++ [b] by simp, List.dropLast_concat]

/-- With a hole, the ranges found in a block without its last point. -/
theorem findLoop_holes {a : Area} (h : a.Separable) (hh : a.2 ≠ []) (size n : Nat) :
    findLoop innerOuterSeparator size a.block.dropLast n none = spans size n a.rings := by
  refine findLoop_block_dropLast a.rings (by simp [Area.rings]) h.1 ?_ size n
  have : a.rings.getLast (by simp [Area.rings]) = a.2.getLast hh := by
    simp only [Area.rings]; rw [List.getLast_cons hh]
  rw [this]
  exact h.2 _ (List.getLast_mem hh)

/-- Without holes, at most one range is found. -/
theorem findLoop_noHoles {a : Area} (h : a.Separable) (hh : a.2 = []) (size n : Nat) :
    findLoop innerOuterSeparator size a.block.dropLast n none = [] ∨
    findLoop innerOuterSeparator size a.block.dropLast n none = [(n, size - 1)] := by
  obtain ⟨o, hs⟩ := a
  simp only at hh; subst hh
  have ho := h.1 o (by simp [Area.rings])
  simp only [Area.block, Area.rings, join_one]
  by_cases hd : o.dropLast = []
  · left; rw [hd]; rfl
  · right
    have := findLoop_open (σ := innerOuterSeparator) (size := size) (b := o.dropLast) (rest := [])
      (fun p hp => (ho.2 p (List.dropLast_subset _ hp)).2) hd n
    rw [List.append_nil] at this
    rw [this]; rfl

theorem take_pred_eq_dropLast (l : List Pt) : (l.take (l.length - 1)).drop 0 = l.dropLast := by
  rw [List.drop_zero, List.dropLast_eq_take]

theorem enclosureCtor_ranges {a : Area} (h : a.Separable) :
    findIndices a.block 0 (a.block.length - 1) innerOuterSeparator
      = findLoop innerOuterSeparator a.block.length a.block.dropLast 0 none := by
  have hne := block_ne h
  unfold findIndices
  rw [if_neg (by simpa using hne), if_neg (by omega), take_pred_eq_dropLast]

theorem rings_ne {a : Area} (h : a.Separable) : ∀ r ∈ a.rings, r ≠ [] := fun r hr => (h.1 r hr).1

theorem enclosureCtor_noHoles {o : List Pt} (h : Area.Separable (o, [])) :
    enclosureCtor (Area.block (o, [])) = (initialise o >>= fun r => .ok ⟨r, []⟩) := by
  have e : Area.block (o, []) = o := by simp [Area.block, Area.rings, join_one]
  have hne : o ≠ [] := (h.1 o (by simp [Area.rings])).1
  have hl : 0 < o.length := List.length_pos_iff.2 hne
  have hc : constructPolygon o 0 (o.length - 1) = initialise o := by
    have := constructPolygon_mid (pre := []) (post := []) hne
    simpa using this
  unfold enclosureCtor
  simp only [enclosureCtor_ranges h]
  rcases findLoop_noHoles h rfl (Area.block (o, [])).length 0 with hr | hr <;>
  · rw [hr]
    rw [e]
    simp only [outerEnd, hc, List.tail, constructRings]
    cases initialise o <;> rfl

theorem outerEnd_holes (o q : List Pt) (qs : List (List Pt)) (pts : List Pt) (size n : Nat) :
    outerEnd pts (spans size n (o :: q :: qs)) = n + o.length - 1 := by
  cases qs <;> simp [spans, outerEnd]

theorem enclosureCtor_holes {o q : List Pt} {qs : List (List Pt)} (h : Area.Separable (o, q :: qs)) :
    enclosureCtor (Area.block (o, q :: qs)) = (do
      let r ← initialise o
      let rs ← constructRings (Area.block (o, q :: qs))
        (spans (Area.block (o, q :: qs)).length (o.length + 1) (q :: qs))
      .ok ⟨r, rs⟩) := by
  have hne : o ≠ [] := (h.1 o (by simp [Area.rings])).1
  unfold enclosureCtor
  simp only [enclosureCtor_ranges h, findLoop_holes h (by simp)]
  simp only [Area.rings, outerEnd_holes]
  have hc : constructPolygon (Area.block (o, q :: qs)) 0 (0 + o.length - 1) = initialise o := by
    have := constructPolygon_mid (pre := []) (post := innerSep :: List.intercalate [innerSep] (q :: qs)) hne
    simpa [Area.block, Area.rings, join_cons] using this
  rw [hc]
  simp [spans]

theorem enclosureCtor_ok {a : Area} (h : a.Separable) (hc : ∀ r ∈ a.rings, ClosedRing r) :
    enclosureCtor a.block = .ok ⟨a.1, a.2⟩ := by
  obtain ⟨o, hs⟩ := a
  cases hs with
  | nil => rw [enclosureCtor_noHoles h, initialise_ok (hc o (by simp [Area.rings]))]; rfl
  | cons q qs =>
    rw [enclosureCtor_holes h, initialise_ok (hc o (by simp [Area.rings])), Res.ok_bind]
    have := constructRings_ok (q :: qs) (o ++ [innerSep]) (fun r hr => rings_ne h r (by simp [Area.rings, List.mem_cons.1 hr]))
      (fun r hr => hc r (by simp [Area.rings, List.mem_cons.1 hr]))
    have e : o ++ [innerSep] ++ List.intercalate [innerSep] (q :: qs) = Area.block (o, q :: qs) := by
      simp [Area.block, Area.rings, join_cons]
    rw [e] at this
    simp only [List.length_append, List.length_cons, List.length_nil, Nat.zero_add] at this
    rw [this]; rfl

theorem enclosureCtor_throw {a : Area} (h : a.Separable) (hc : ¬ ∀ r ∈ a.rings, ClosedRing r) :
    enclosureCtor a.block = .throw := by
  obtain ⟨o, hs⟩ := a
  have hne : o ≠ [] := (h.1 o (by simp [Area.rings])).1
  cases hs with
  | nil => rw [enclosureCtor_noHoles h, initialise_throw hne (by simpa [Area.rings] using hc)]; rfl
  | cons q qs =>
    rw [enclosureCtor_holes h]
    by_cases ho : ClosedRing o
    · rw [initialise_ok ho, Res.ok_bind]
      have := constructRings_throw (q :: qs) (o ++ [innerSep])
        (fun r hr => rings_ne h r (by simp [Area.rings, List.mem_cons.1 hr]))
        (fun hall => hc (fun r hr => by
          rcases List.mem_cons.1 (show r ∈ o :: (q :: qs) from hr) with rfl | hr
          · exact ho
          · exact hall r hr))
      have e : o ++ [innerSep] ++ List.intercalate [innerSep] (q :: qs) = Area.block (o, q :: qs) := by
        simp [Area.block, Area.rings, join_cons]
      rw [e] at this
      simp only [List.length_append, List.length_cons, List.length_nil, Nat.zero_add] at this
      rw [this]; rfl
    · rw [initialise_throw hne ho]; rfl

theorem shiftOuter_block {a : Area} (h : a.Separable) (pre post : List Pt) :
    shiftOuter (pre ++ (a.block ++ post)) (pre.length, pre.length + a.block.length - 1)
      = (pre.length, pre.length + a.1.length - 1) := by
  have hl : 0 < a.block.length := List.length_pos_iff.2 (block_ne h)
  have hf : findIndices (pre ++ (a.block ++ post)) pre.length (pre.length + a.block.length - 1) innerOuterSeparator
      = findLoop innerOuterSeparator (pre ++ (a.block ++ post)).length a.block.dropLast pre.length none := by
    unfold findIndices
    rw [if_neg, if_neg]
    · congr 1
      have : pre.length + a.block.length - 1 = pre.length + a.block.dropLast.length := by
        rw [List.length_dropLast]; omega
      rw [this]
      have e : pre ++ (a.block ++ post) = pre ++ (a.block.dropLast ++ (a.block.getLast (block_ne h) :: post)) := by
        congr 1
        conv_lhs => rw [← List.dropLast_concat_getLast (block_ne h)]
        simp
      rw [e, slice_mid]
    · simp; omega
    · simp [block_ne h]
  unfold shiftOuter
  rw [hf]
  obtain ⟨o, hs⟩ := a
  cases hs with
  | nil =>
    rcases findLoop_noHoles h rfl (pre ++ (Area.block (o, []) ++ post)).length pre.length with hr | hr <;> rw [hr] <;>
      simp [Area.block, Area.rings, join_one]
  | cons q qs =>
    rw [findLoop_holes h (by simp)]
    cases qs <;> simp [Area.rings, spans] <;> omega

/-- Start and end of the outer rings, when `n` points precede the list. -/
def outerSpans (n : Nat) : List Area → List (Nat × Nat)
  | [] => []
  | a :: as => (n, n + a.1.length - 1) :: outerSpans (n + a.block.length + 1) as

theorem flat_eq (as : List Area) : flat as = List.intercalate [outerSep] (as.map Area.block) := rfl

theorem ctorLoop_ok (as : List Area) (pre : List Pt) (h : ∀ a ∈ as, a.Separable)
    (hc : ∀ a ∈ as, ∀ r ∈ a.rings, ClosedRing r) :
    ctorLoop (pre ++ flat as) (spans (pre ++ flat as).length pre.length (as.map Area.block))
      = .ok (as.map fun a => ⟨a.1, a.2⟩, outerSpans pre.length as) := by
  induction as generalizing pre with
  | nil => rfl
  | cons a as ih =>
    have ha := h a (by simp)
    have hl : 0 < a.block.length := List.length_pos_iff.2 (block_ne ha)
    cases as with
    | nil =>
      have hs := shiftOuter_block ha pre []
      have hm := slice_mid pre a.block []
      rw [List.append_nil] at hs hm
      simp only [flat_eq, List.map_cons, List.map_nil, join_one, spans, ctorLoop, List.length_append]
      rw [if_neg (by omega), hs, show pre.length + a.block.length - 1 + 1 = pre.length + a.block.length by omega, hm,
        enclosureCtor_ok ha (hc a (by simp))]
      rfl
    | cons b bs =>
      have hih := ih (pre ++ (a.block ++ [outerSep])) (fun x hx => h x (by simp [List.mem_cons.1 hx]))
        (fun x hx => hc x (by simp [List.mem_cons.1 hx]))
      have e : flat (a :: b :: bs) = a.block ++ outerSep :: flat (b :: bs) := by
        simp only [flat_eq, List.map_cons, join_cons]
      have e2 : pre ++ (a.block ++ [outerSep]) ++ flat (b :: bs) = pre ++ flat (a :: b :: bs) := by
        rw [e]; simp
      have e3 : (pre ++ (a.block ++ [outerSep])).length = pre.length + a.block.length + 1 := by
        simp; omega
      rw [e2, e3] at hih
      simp only [List.map_cons, spans] at hih ⊢
      rw [ctorLoop]
      simp only [hih]
      rw [if_neg (by rw [e]; simp; omega), e, shiftOuter_block ha,
        show pre.length + a.block.length - 1 + 1 = pre.length + a.block.length by omega, slice_mid,
        enclosureCtor_ok ha (hc a (by simp))]
      rfl

theorem ctorLoop_throw (as : List Area) (pre : List Pt) (h : ∀ a ∈ as, a.Separable)
    (hc : ¬ ∀ a ∈ as, ∀ r ∈ a.rings, ClosedRing r) :
    ctorLoop (pre ++ flat as) (spans (pre ++ flat as).length pre.length (as.map Area.block)) = .throw := by
  induction as generalizing pre with
  | nil => simp at hc
  | cons a as ih =>
    have ha := h a (by simp)
    have hl : 0 < a.block.length := List.length_pos_iff.2 (block_ne ha)
    cases as with
    | nil =>
      have hm := slice_mid pre a.block []
      rw [List.append_nil] at hm
      simp only [flat_eq, List.map_cons, List.map_nil, join_one, spans, ctorLoop, List.length_append]
      rw [if_neg (by omega), show pre.length + a.block.length - 1 + 1 = pre.length + a.block.length by omega, hm,
        enclosureCtor_throw ha (fun hall => hc (by simpa using hall))]
      rfl
    | cons b bs =>
      have e : flat (a :: b :: bs) = a.block ++ outerSep :: flat (b :: bs) := by
        simp only [flat_eq, List.map_cons, join_cons]
      by_cases hac : ∀ r ∈ a.rings, ClosedRing r
      · have hih := ih (pre ++ (a.block ++ [outerSep])) (fun x hx => h x (by simp [List.mem_cons.1 hx]))
          (fun hall => hc (fun x hx => by
            rcases List.mem_cons.1 hx with rfl | hx
            · exact hac
            · exact hall x hx))
        have e2 : pre ++ (a.block ++ [outerSep]) ++ flat (b :: bs) = pre ++ flat (a :: b :: bs) := by
          rw [e]; simp
        have e3 : (pre ++ (a.block ++ [outerSep])).length = pre.length + a.block.length + 1 := by
          simp; omega
        rw [e2, e3] at hih
        simp only [List.map_cons, spans] at hih ⊢
        rw [ctorLoop]
        simp only [hih]
        rw [if_neg (by rw [e]; simp; omega), e,
          show pre.length + a.block.length - 1 + 1 = pre.length + a.block.length by omega, slice_mid,
          enclosureCtor_ok ha hac]
        rfl
      · simp only [List.map_cons, spans]
        rw [ctorLoop, if_neg (by rw [e]; simp; omega), e,
          show pre.length + a.block.length - 1 + 1 = pre.length + a.block.length by omega, slice_mid,
          enclosureCtor_throw ha hac]
        rfl

theorem outer_ranges (as : List Area) (h : ∀ a ∈ as, a.Separable) :
    findIndices (flat as) 0 (flat as).length missingDouble = spans (flat as).length 0 (as.map Area.block) := by
  cases as with
  | nil => rfl
  | cons a as =>
    have hne : flat (a :: as) ≠ [] := by
      have := block_ne (h a (by simp))
      cases as <;> simp [flat_eq, join_one, join_cons, this]
    unfold findIndices
    rw [if_neg (by simpa using hne), if_neg (by omega), List.take_length, List.drop_zero]
    refine findLoop_join outerSep_isSep _ _ ?_ 0
    intro b hb
    obtain ⟨x, hx, rfl⟩ := List.mem_map.1 hb
    exact ⟨block_ne (h x hx), block_not_outer (h x hx)⟩

theorem gather_block (a : Area) : Enclosure.gather ⟨a.1, a.2⟩ = a.block := by
  obtain ⟨o, hs⟩ := a
  have key : ∀ (hs : List (List Pt)) (o : List Pt), o ++ (hs.map (fun r => innerSep :: r)).flatten
      = List.intercalate [innerSep] (o :: hs) := by
    intro hs
    induction hs with
    | nil => intro o; simp [join_one]
    | cons q qs ih => intro o; rw [join_cons, ← ih q]; simp
  exact key hs o

theorem gatherLoop_flat (as : List Area) : gatherLoop (as.map fun a => ⟨a.1, a.2⟩) = flat as := by
  induction as with
  | nil => rfl
  | cons a as ih =>
    cases as with
    | nil => simp [gatherLoop, gather_block, flat_eq, join_one]
    | cons b bs =>
      have : flat (a :: b :: bs) = a.block ++ outerSep :: flat (b :: bs) := by
        simp only [flat_eq, List.map_cons, join_cons]
      rw [this, ← ih]
      simp [gatherLoop, gather_block]

theorem block_length (a : Area) : a.block.length = Enclosure.numberOfPoints ⟨a.1, a.2⟩ + a.2.length := by
  rw [← gather_block]
  have key : ∀ hs : List (List Pt), ((hs.map (fun r => innerSep :: r)).flatten).length = (hs.map List.length).sum + hs.length := by
    intro hs
    induction hs with
    | nil => rfl
    | cons q qs ih => simp only [List.map_cons, List.flatten_cons, List.length_append, ih, List.length_cons, List.sum_cons]; omega
  simp only [Enclosure.gather, List.length_append, key, Enclosure.numberOfPoints]; omega

theorem countNodes_flat (as : List Area) : countNodes (as.map fun a => ⟨a.1, a.2⟩) = (flat as).length := by
  induction as with
  | nil => rfl
  | cons a as ih =>
    cases as with
    | nil => simp [countNodes, flat_eq, join_one, block_length]
    | cons b bs =>
      have : flat (a :: b :: bs) = a.block ++ outerSep :: flat (b :: bs) := by
        simp only [flat_eq, List.map_cons, join_cons]
      rw [this, List.length_append, List.length_cons, ← ih, block_length]
      simp [countNodes]; omega

theorem polygonsCtor_ok (as : List Area) (h : ∀ a ∈ as, a.Separable)
    (hc : ∀ a ∈ as, ∀ r ∈ a.rings, ClosedRing r) :
    polygonsCtor (flat as)
      = .ok ⟨as.map fun a => ⟨a.1, a.2⟩, outerSpans 0 as, (flat as).length⟩ := by
  unfold polygonsCtor
  rw [outer_ranges as h]
  have := ctorLoop_ok as [] h hc
  simp only [List.nil_append, List.length_nil] at this
  rw [this, Res.ok_bind, countNodes_flat]

theorem polygonsCtor_throw (as : List Area) (h : ∀ a ∈ as, a.Separable)
    (hc : ¬ ∀ a ∈ as, ∀ r ∈ a.rings, ClosedRing r) : polygonsCtor (flat as) = .throw := by
  unfold polygonsCtor
  rw [outer_ranges as h]
  have := ctorLoop_throw as [] h hc
  simp only [List.nil_append, List.length_nil] at this
  rw [this]; rfl

end Verif.Polygons
