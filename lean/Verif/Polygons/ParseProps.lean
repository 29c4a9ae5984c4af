import Verif.Polygons.ParseLemmas
/-!
# Property C22: polygon lists survive parsing and gathering
-/
namespace Verif.Polygons

/-! ## Supporting lemmas -/

theorem ring_of_construct {points : List Pt} {s e : Nat} {r : List Pt}
    (h : constructPolygon points s e = .ok r) : ClosedRing r := by
  unfold constructPolygon at h
  split at h
  · cases h
  · split at h
    · cases h
    · rename_i h1 h2
      have hne : (points.take (e + 1)).drop s ≠ [] := by
        intro h0
        have := congrArg List.length h0
        simp at this; omega
      by_cases hc : ClosedRing ((points.take (e + 1)).drop s)
      · rw [initialise_ok hc] at h; cases h; exact hc
      · rw [initialise_throw hne hc] at h; cases h

theorem rings_of_construct {points : List Pt} {l : List (Nat × Nat)} {rs : List (List Pt)}
    (h : constructRings points l = .ok rs) : ∀ r ∈ rs, ClosedRing r := by
  induction l generalizing rs with
  | nil => cases h; simp
  | cons a l ih =>
    rw [constructRings] at h
    obtain ⟨r, h1, h2⟩ := Res.bind_eq_ok.1 h
    obtain ⟨rs', h3, h4⟩ := Res.bind_eq_ok.1 h2
    cases h4
    intro x hx
    rcases List.mem_cons.1 hx with rfl | hx
    · exact ring_of_construct h1
    · exact ih h3 x hx

theorem rings_of_enclosure {points : List Pt} {e : Enclosure} (h : enclosureCtor points = .ok e) :
    ∀ r ∈ e.outer :: e.inner, ClosedRing r := by
  unfold enclosureCtor at h
  obtain ⟨o, h1, h2⟩ := Res.bind_eq_ok.1 h
  obtain ⟨i, h3, h4⟩ := Res.bind_eq_ok.1 h2
  cases h4
  intro x hx
  rcases List.mem_cons.1 hx with rfl | hx
  · exact ring_of_construct h1
  · exact rings_of_construct h3 x hx

theorem rings_of_loop {polygon : List Pt} {l : List (Nat × Nat)} {r : List Enclosure × List (Nat × Nat)}
    (h : ctorLoop polygon l = .ok r) : ∀ e ∈ r.1, ∀ x ∈ e.outer :: e.inner, ClosedRing x := by
  induction l generalizing r with
  | nil => cases h; simp
  | cons a l ih =>
    rw [ctorLoop] at h
    split at h
    · cases h
    · simp only [] at h
      obtain ⟨e, h1, h2⟩ := Res.bind_eq_ok.1 h
      obtain ⟨rs', h3, h4⟩ := Res.bind_eq_ok.1 h2
      cases h4
      intro x hx
      rcases List.mem_cons.1 hx with rfl | hx
      · exact rings_of_enclosure h1
      · exact ih h3 x hx

theorem startOf_succ (a : Area) (as : List Area) (k : Nat) :
    startOf (a :: as) (k + 1) = a.block.length + 1 + startOf as k := by
  simp [startOf, flat_eq]

theorem getElem_block (a : Area) (s : Nat) (hs : s < a.1.length) (post : List Pt) :
    (a.block ++ post)[s]? = a.1[s]? := by
  obtain ⟨o, hs'⟩ := a
  simp only at hs
  cases hs' with
  | nil => rw [show Area.block (o, []) = o by simp [Area.block, Area.rings], List.getElem?_append_left hs]
  | cons q qs =>
    simp only [Area.block, Area.rings, join_cons, List.append_assoc]
    rw [List.getElem?_append_left hs]

theorem flat_getElem (as : List Area) (k s : Nat) (a : Area) (hk : as[k]? = some a) (hs : s < a.1.length) :
    (flat as)[startOf as k + s]? = a.1[s]? := by
  induction as generalizing k with
  | nil => simp at hk
  | cons b bs ih =>
    cases k with
    | zero =>
      simp only [List.getElem?_cons_zero, Option.some.injEq] at hk
      subst hk
      have e : startOf (b :: bs) 0 + s = s := by simp [startOf]
      rw [e]
      cases bs with
      | nil =>
        have := getElem_block b s hs []
        rw [List.append_nil] at this
        rw [← this]; simp [flat_eq]
      | cons c cs =>
        have e : flat (b :: c :: cs) = b.block ++ outerSep :: flat (c :: cs) := by
          simp only [flat_eq, List.map_cons, join_cons]
        rw [e, getElem_block b s hs]
    | succ k =>
      simp only [List.getElem?_cons_succ] at hk
      rw [startOf_succ, ← ih k hk]
      cases bs with
      | nil => simp at hk
      | cons c cs =>
        have e : flat (b :: c :: cs) = b.block ++ outerSep :: flat (c :: cs) := by
          simp only [flat_eq, List.map_cons, join_cons]
        rw [e, List.getElem?_append_right (by omega),
          show b.block.length + 1 + startOf (c :: cs) k + s - b.block.length = startOf (c :: cs) k + s + 1 by omega,
          List.getElem?_cons_succ]

theorem block_ge (a : Area) : a.1.length ≤ a.block.length := by
  rw [block_length]; simp only [Enclosure.numberOfPoints]; omega

theorem indexLoop_outer (as : List Area) (hne : ∀ a ∈ as, a.1 ≠ []) (k s e n i : Nat) (a : Area)
    (hk : as[k]? = some a) (hs : s < a.1.length) (he : e < a.1.length) :
    indexLoop (n + startOf as k + s) (n + startOf as k + e) (outerSpans n as) i = some (i + k, s, e) := by
  induction as generalizing k n i with
  | nil => simp at hk
  | cons b bs ih =>
    cases k with
    | zero =>
      simp only [List.getElem?_cons_zero, Option.some.injEq] at hk
      subst hk
      simp only [outerSpans, indexLoop]
      have e0 : startOf (b :: bs) 0 = 0 := by simp [startOf]
      rw [e0]
      rw [if_pos ⟨by omega, by omega⟩]
      simp only [wrapSub]
      rw [if_pos (by omega)]
      simp only [Option.some.injEq, Prod.mk.injEq]; omega
    | succ k =>
      simp only [List.getElem?_cons_succ] at hk
      have hb := block_ge b
      have hb1 : 0 < b.1.length := List.length_pos_iff.2 (hne b (by simp))
      rw [startOf_succ, outerSpans, indexLoop]
      have hn : ¬ (n + (b.block.length + 1 + startOf bs k) + s ≥ n ∧
          n + (b.block.length + 1 + startOf bs k) + e ≤ n + b.1.length - 1) := by omega
      rw [if_neg hn]
      have := ih (fun x hx => hne x (by simp [hx])) k (n + b.block.length + 1) (i + 1) hk
      rw [show n + (b.block.length + 1 + startOf bs k) + s = n + b.block.length + 1 + startOf bs k + s by omega,
        show n + (b.block.length + 1 + startOf bs k) + e = n + b.block.length + 1 + startOf bs k + e by omega, this,
        show i + 1 + k = i + (k + 1) by omega]

/-! ## Theorems -/

/-- **C22.** A list of polygons with holes, written down as a flat list with single separators, is
read back as precisely these polygons with these holes, and gathering the points returns the flat
list, with the reported number of nodes. -/
theorem parse_gather_round_trip (as : List Area) (h : ∀ a ∈ as, a.Separable)
    (hc : ∀ a ∈ as, ∀ r ∈ a.rings, ClosedRing r) :
    ∃ P, polygonsCtor (flat as) = .ok P ∧ P.enclosures.map (fun e => (e.outer, e.inner)) = as ∧
      P.gather = flat as ∧ P.numNodes = (flat as).length :=
  ⟨_, polygonsCtor_ok as h hc, by simp [Function.comp_def], gatherLoop_flat as, rfl⟩

/-- **C22.** A separated list is accepted exactly when every ring has three corners, is closed and
has no missing coordinates; otherwise the constructor throws.  It is never undefined. -/
theorem separated_list_accepted_iff (as : List Area) (h : ∀ a ∈ as, a.Separable) :
    ((∀ a ∈ as, ∀ r ∈ a.rings, ClosedRing r) ∧ ∃ P, polygonsCtor (flat as) = .ok P) ∨
    ((¬ ∀ a ∈ as, ∀ r ∈ a.rings, ClosedRing r) ∧ polygonsCtor (flat as) = .throw) := by
  by_cases hc : ∀ a ∈ as, ∀ r ∈ a.rings, ClosedRing r
  · exact .inl ⟨hc, _, polygonsCtor_ok as h hc⟩
  · exact .inr ⟨hc, polygonsCtor_throw as h hc⟩

/-- **C22.** Every point that is not a separator belongs to precisely one ring, in order: the rings
one after the other are the list without its separators. -/
theorem every_point_in_one_ring (as : List Area) (h : ∀ a ∈ as, a.Separable)
    (hc : ∀ a ∈ as, ∀ r ∈ a.rings, ClosedRing r) :
    ∃ P, polygonsCtor (flat as) = .ok P ∧
      (P.enclosures.flatMap fun e => e.outer :: e.inner).flatten
        = (flat as).filter fun p => !(isSep missingDouble p || isSep innerOuterSeparator p) := by
  refine ⟨_, polygonsCtor_ok as h hc, ?_⟩
  have ring : ∀ r : List Pt, Separable r →
      r.filter (fun p => !(isSep missingDouble p || isSep innerOuterSeparator p)) = r := by
    intro r hr
    rw [List.filter_eq_self]
    intro p hp
    simp [hr.2 p hp]
  have rings : ∀ rs : List (List Pt), (∀ r ∈ rs, Separable r) →
      (List.intercalate [innerSep] rs).filter (fun p => !(isSep missingDouble p || isSep innerOuterSeparator p))
        = rs.flatten := by
    intro rs
    induction rs with
    | nil => intro _; rfl
    | cons r rs ih =>
      intro hr
      cases rs with
      | nil => rw [join_one, ring r (hr r (by simp))]; simp
      | cons q qs =>
        rw [join_cons, List.filter_append, ring r (hr r (by simp)), List.filter_cons,
          if_neg (by simp), ih (fun x hx => hr x (by simp [List.mem_cons.1 hx]))]
        simp
  clear hc
  induction as with
  | nil => rfl
  | cons a as ih =>
    have ha : a.block.filter (fun p => !(isSep missingDouble p || isSep innerOuterSeparator p)) = a.rings.flatten :=
      rings _ (h a (by simp)).1
    cases as with
    | nil =>
      rw [show flat [a] = a.block by simp [flat_eq], ha]
      simp [Area.rings]
    | cons b bs =>
      have e : flat (a :: b :: bs) = a.block ++ outerSep :: flat (b :: bs) := by
        simp only [flat_eq, List.map_cons, join_cons]
      rw [e, List.filter_append, ha, List.filter_cons, if_neg (by simp),
        ← ih (fun x hx => h x (by simp [List.mem_cons.1 hx]))]
      simp [Area.rings]

/-- **C22.** Whatever list of points was accepted - with extra separators at the start, at the end or
in between - gathering and reading again gives the same polygons, provided no ring has a point with
`x = -998`. -/
theorem gathered_list_reads_back (l : List Pt) (P : PolyList) (hP : polygonsCtor l = .ok P)
    (hs : ∀ e ∈ P.enclosures, ∀ r ∈ e.outer :: e.inner, ∀ p ∈ r, isSep innerOuterSeparator p = false) :
    ∃ P', polygonsCtor P.gather = .ok P' ∧ P'.enclosures = P.enclosures ∧ P'.gather = P.gather := by
  unfold polygonsCtor at hP
  obtain ⟨r, h1, h2⟩ := Res.bind_eq_ok.1 hP
  cases h2
  have hcl := rings_of_loop h1
  let as : List Area := r.1.map fun e => (e.outer, e.inner)
  have e1 : as.map (fun a => (⟨a.1, a.2⟩ : Enclosure)) = r.1 := by simp [as, Function.comp_def]
  have hc : ∀ a ∈ as, ∀ x ∈ a.rings, ClosedRing x := by
    intro a ha x hx
    obtain ⟨e, he, rfl⟩ := List.mem_map.1 ha
    exact hcl e he x hx
  have hsep : ∀ a ∈ as, a.Separable := by
    intro a ha
    obtain ⟨e, he, rfl⟩ := List.mem_map.1 ha
    refine ⟨fun x hx => ⟨?_, fun p hp => ⟨?_, hs e he x hx p hp⟩⟩, fun x hx => ?_⟩
    · have := (hcl e he x hx).1
      intro h0; rw [h0] at this; simp at this
    · have := (hcl e he x hx).2.1 p hp
      simp only [Pt.isValid, Bool.not_eq_true', Bool.or_eq_false_iff] at this
      exact this.1
    · have := (hcl e he x (by simp [hx])).1
      omega
  refine ⟨⟨as.map fun a => ⟨a.1, a.2⟩, outerSpans 0 as, (flat as).length⟩, ?_, e1, ?_⟩
  · rw [← polygonsCtor_ok as hsep hc]
    congr 1
    show gatherLoop r.1 = _
    rw [← e1, gatherLoop_flat]
  · show gatherLoop _ = gatherLoop _
    rw [e1]

/-- **C22.** Indices into the flat list that denote two vertices of an outer ring are mapped to the
polygon and to the positions of these vertices in its ring; `(0, 0)` denotes the whole first ring. -/
theorem polygon_index_finds_vertices (as : List Area) (h : ∀ a ∈ as, a.Separable)
    (hc : ∀ a ∈ as, ∀ r ∈ a.rings, ClosedRing r) (k : Nat) (a : Area) (hk : as[k]? = some a)
    (s e : Nat) (hs : s < a.1.length) (he : e < a.1.length) :
    ∃ P, polygonsCtor (flat as) = .ok P ∧
      (flat as)[startOf as k + s]? = a.1[s]? ∧ (flat as)[startOf as k + e]? = a.1[e]? ∧
      P.index (startOf as k + s) (startOf as k + e)
        = .ok (k, s, if startOf as k + s = 0 ∧ startOf as k + e = 0 then a.1.length - 1 else e) := by
  refine ⟨_, polygonsCtor_ok as h hc, flat_getElem as k s a hk hs, flat_getElem as k e a hk he, ?_⟩
  have hne : ∀ a ∈ as, a.1 ≠ [] := fun a ha => ((h a ha).1 a.1 (by simp [Area.rings])).1
  cases as with
  | nil => simp at hk
  | cons b bs =>
    simp only [PolyList.index, List.map_cons]
    split_ifs with h0
    · obtain ⟨h1, h2⟩ := h0
      have hk0 : k = 0 := by
        cases k with
        | zero => rfl
        | succ k => rw [startOf_succ] at h1; omega
      subst hk0
      simp only [List.getElem?_cons_zero, Option.some.injEq] at hk
      subst hk
      have hb1 : 0 < b.1.length := List.length_pos_iff.2 (hne b (by simp))
      have := indexLoop_outer (b :: bs) hne 0 s (b.1.length - 1) 0 0 b rfl hs (by omega)
      have e0 : startOf (b :: bs) 0 = 0 := by simp [startOf]
      rw [e0] at this h1 ⊢
      simp only [Nat.zero_add] at this ⊢
      rw [this]
    · have := indexLoop_outer (b :: bs) hne k s e 0 0 a hk hs he
      simp only [Nat.zero_add] at this
      rw [this]

/-- A hole of one point at the end of a polygon is not divided off: when it equals the first point of
the outer ring, the list is accepted as one ring with the separator as a vertex. -/
theorem single_point_hole_becomes_vertex :
    ∃ (a : Area) (P : PolyList), polygonsCtor (flat [a]) = .ok P ∧ a.2.length = 1 ∧
      P.enclosures.map (fun e => e.inner.length) = [0] ∧ ∃ e ∈ P.enclosures, innerSep ∈ e.outer := by
  refine ⟨([⟨0, 0⟩, ⟨4, 0⟩, ⟨0, 4⟩, ⟨0, 0⟩], [[⟨0, 0⟩]]),
    ⟨[⟨[⟨0, 0⟩, ⟨4, 0⟩, ⟨0, 4⟩, ⟨0, 0⟩, innerSep, ⟨0, 0⟩], []⟩], [(0, 5)], 6⟩, ?_, rfl, rfl, ?_⟩
  · rw [show flat [(([⟨0, 0⟩, ⟨4, 0⟩, ⟨0, 4⟩, ⟨0, 0⟩], [[⟨0, 0⟩]]) : Area)]
      = [⟨0, 0⟩, ⟨4, 0⟩, ⟨0, 4⟩, ⟨0, 0⟩, innerSep, ⟨0, 0⟩] from rfl]
    decide +kernel
  · exact ⟨_, List.mem_cons_self, by simp⟩

/-! ## The hypotheses can be met -/

/-- A square with two holes and a triangle. -/
def demo : List Area :=
  [([⟨0, 0⟩, ⟨10, 0⟩, ⟨10, 10⟩, ⟨0, 10⟩, ⟨0, 0⟩],
    [[⟨1, 1⟩, ⟨2, 1⟩, ⟨1, 2⟩, ⟨1, 1⟩], [⟨5, 5⟩, ⟨6, 5⟩, ⟨5, 6⟩, ⟨5, 5⟩]]),
   ([⟨20, 0⟩, ⟨24, 0⟩, ⟨20, 4⟩, ⟨20, 0⟩], [])]

instance (r : List Pt) : Decidable (Separable r) := by unfold Separable; infer_instance
instance (a : Area) : Decidable a.Separable := by unfold Area.Separable; infer_instance

theorem closedRing_of_check {r : List Pt} (h4 : 4 ≤ r.length) (hv : ∀ p ∈ r, p.isValid = true)
    (hh : ∃ p, r.head? = some p ∧ r.getLast? = some p) : ClosedRing r := by
  obtain ⟨p, h1, h2⟩ := hh
  exact ⟨h4, hv, p, p, h1, h2, Pt.same_self p⟩

theorem demo_separable : ∀ a ∈ demo, a.Separable := by decide +kernel

theorem demo_closed : ∀ a ∈ demo, ∀ r ∈ a.rings, ClosedRing r := by
  have key : ∀ a ∈ demo, ∀ r ∈ a.rings, 4 ≤ r.length ∧ (∀ p ∈ r, p.isValid = true) ∧
      r.head?.isSome ∧ r.head? = r.getLast? := by decide +kernel
  intro a ha r hr
  obtain ⟨h1, h2, h3, h4⟩ := key a ha r hr
  obtain ⟨p, hp⟩ := Option.isSome_iff_exists.1 h3
  exact closedRing_of_check h1 h2 ⟨p, hp, by rw [← h4, hp]⟩

example : ∃ P, polygonsCtor (flat demo) = .ok P ∧ P.enclosures.map (fun e => (e.outer, e.inner)) = demo ∧
      P.gather = flat demo ∧ P.numNodes = 20 := parse_gather_round_trip demo demo_separable demo_closed

example : ∃ P, polygonsCtor (flat demo) = .ok P ∧ (flat demo)[17]? = some ⟨24, 0⟩ ∧
    (flat demo)[18]? = some ⟨20, 4⟩ ∧ P.index 17 18 = .ok (1, 1, 2) :=
  polygon_index_finds_vertices demo demo_separable demo_closed 1 _ rfl 1 2 (by decide) (by decide)

/-- Extra separators around the polygons are accepted, and dropped on gathering. -/
example : ∃ P, polygonsCtor (outerSep :: outerSep :: flat demo ++ [outerSep]) = .ok P ∧ P.gather = flat demo ∧
    (∀ e ∈ P.enclosures, ∀ r ∈ e.outer :: e.inner, ∀ p ∈ r, isSep innerOuterSeparator p = false) := by
  refine ⟨⟨demo.map fun (a : Area) => ⟨a.1, a.2⟩, [(2, 6), (18, 21)], 20⟩, ?_, gatherLoop_flat demo, ?_⟩
  · have : flat demo = [⟨0, 0⟩, ⟨10, 0⟩, ⟨10, 10⟩, ⟨0, 10⟩, ⟨0, 0⟩, innerSep, ⟨1, 1⟩, ⟨2, 1⟩, ⟨1, 2⟩, ⟨1, 1⟩,
      innerSep, ⟨5, 5⟩, ⟨6, 5⟩, ⟨5, 6⟩, ⟨5, 5⟩, outerSep, ⟨20, 0⟩, ⟨24, 0⟩, ⟨20, 4⟩, ⟨20, 0⟩] := rfl
    rw [this]
    decide +kernel
  · decide +kernel

/-- A ring that is not closed is refused. -/
example : polygonsCtor (flat [([⟨0, 0⟩, ⟨10, 0⟩, ⟨10, 10⟩, ⟨0, 10⟩], [])]) = .throw := by
  refine polygonsCtor_throw _ (by decide +kernel) ?_
  intro h
  have := h _ (List.mem_singleton.2 rfl) [⟨0, 0⟩, ⟨10, 0⟩, ⟨10, 10⟩, ⟨0, 10⟩] (by simp [Area.rings])
  obtain ⟨-, -, p, q, h1, h2, h3⟩ := this
  cases h1; cases h2
  revert h3; decide +kernel

end Verif.Polygons
