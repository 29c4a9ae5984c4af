import Verif.ToCurvi.GrowLemmas
/-!
# Lemmas: the first face and the resulting grid
-/
namespace Verif.ToCurvi
open Verif.Mesh Verif.Faces Verif.Refine Verif.Curvi
variable {P : Type} {m : Mesh P} {s : State} {f0 : Nat} {t : Front}

/-! ## The first face -/

/-- The part of the invariant about the bookkeeping. -/
structure Books (m : Mesh P) (t : Front) : Prop where
  leni : t.i.length = m.nodes.length
  lenj : t.j.length = m.nodes.length
  none : ∀ n, n < m.nodes.length → t.place n = none → t.i[n]? = some noIndex ∧ t.j[n]? = some noIndex
  map : ∀ j i n, t.map.cell j i = some n ↔ t.place n = some (i, j)
  range : ∀ j i n, t.map.cell j i = some n → t.map.inside j i = true

theorem corner_eq (h : Books m t) {es : List Nat} {a b e e' n : Nat} {i j : Int} (h1 : es[a]? = some e) (h2 : es[b]? = some e')
    (h3 : findCommonNode m.edges e e' = .ok n) (hn : n < m.nodes.length) (hp : t.place n = none) (hi : i ≠ noIndex) (hj : j ≠ noIndex)
    (hfree : ∀ k, t.place k ≠ some (i, j)) (hin : t.map.inside j i = true) :
    ∃ t', corner m.edges es a b i j t = .ok t' ∧ Books m t' ∧ (∀ k, t'.place k = if k = n then some (i, j) else t.place k) ∧
      (∀ j i, t'.map.inside j i = t.map.inside j i) := by
  have hni : n < t.i.length := by rw [h.leni]; exact hn
  have hnj : n < t.j.length := by rw [h.lenj]; exact hn
  unfold corner
  rw [vget_eq_ok.2 h1, Res.ok_bind, vget_eq_ok.2 h2, Res.ok_bind, h3, Res.ok_bind]
  unfold Front.index
  rw [vset_ok _ hni, Res.ok_bind, vset_ok _ hnj, Res.ok_bind, Res.ok_bind]
  unfold Front.enter Mapping.set
  simp only
  rw [if_pos hin, Res.ok_bind]
  have hplace : ∀ k, Front.place { i := t.i.set n i, j := t.j.set n j, map := { t.map with cell := fun j' i' => if j' = j ∧ i' = i then some n else t.map.cell j' i' } } k =
      if k = n then some (i, j) else t.place k := by
    intro k
    unfold Front.place
    simp only
    rw [getElem?_set_eq hni, getElem?_set_eq hnj]
    by_cases hk : k = n
    · simp [hk, hi, hj]
    · simp only [hk, if_false]
  refine ⟨_, rfl, ⟨by simpa using h.leni, by simpa using h.lenj, ?_, ?_, ?_⟩, hplace, fun _ _ => rfl⟩
  · intro k hk hkn
    rw [hplace] at hkn
    split at hkn
    · simp at hkn
    · rename_i hne
      simp only
      rw [getElem?_set_eq hni, getElem?_set_eq hnj, if_neg hne, if_neg hne]
      exact h.none k hk hkn
  · intro j' i' k
    rw [hplace]
    simp only
    by_cases hc : j' = j ∧ i' = i
    · rw [if_pos hc]
      obtain ⟨rfl, rfl⟩ := hc
      by_cases hk : k = n
      · simp [hk]
      · rw [if_neg hk]
        simp only [Option.some.injEq]
        exact ⟨fun hh => absurd hh.symm hk, fun hh => absurd hh (hfree k)⟩
    · rw [if_neg hc]
      by_cases hk : k = n
      · rw [if_pos hk, hk, h.map, hp]
        simp only [reduceCtorEq, Option.some.injEq, Prod.mk.injEq, false_iff]
        exact fun hh => hc ⟨hh.2.symm, hh.1.symm⟩
      · rw [if_neg hk]; exact h.map j' i' k
  · intro j' i' k hk
    simp only at hk
    split at hk
    · rename_i hc; rw [hc.1, hc.2]; exact hin
    · exact h.range j' i' k hk

theorem place_start (n k : Nat) (map : Mapping) : Front.place ⟨List.replicate n noIndex, List.replicate n noIndex, map⟩ k = none := by
  unfold Front.place
  simp only [List.getElem?_replicate]
  by_cases h : k < n
  · simp [h]
  · simp [h]

/-- The first face has its places. -/
theorem seed_eq (hf : Facts m s) {f : Nat} {ns : List Nat} (hq : Quad s f ns) : ∃ t, seed m s f = .ok t ∧ Inv m s f t ∧ OnCell t.place ns ∧
    (∀ k p, t.place k = some p → 0 ≤ p.1 ∧ 0 ≤ p.2) := by
  obtain ⟨a, b, c, d, e0, e1, e2, e3, h1, h2, h3, h4, h5⟩ := hf.quad hq
  have la := hf.node_lt hq (n := a) (by rw [h1]; simp)
  have lb := hf.node_lt hq (n := b) (by rw [h1]; simp)
  have lc := hf.node_lt hq (n := c) (by rw [h1]; simp)
  have ld := hf.node_lt hq (n := d) (by rw [h1]; simp)
  have ma := hf.node_ne hq (n := a) (by rw [h1]; simp)
  have mb := hf.node_ne hq (n := b) (by rw [h1]; simp)
  have mc := hf.node_ne hq (n := c) (by rw [h1]; simp)
  have md := hf.node_ne hq (n := d) (by rw [h1]; simp)
  have q0 := hf.edge_lt h5.b0
  have q1 := hf.edge_lt h5.b1
  have q2 := hf.edge_lt h5.b2
  have q3 := hf.edge_lt h5.b3
  simp only [List.nodup_cons, List.mem_cons, List.not_mem_nil, or_false, not_or, not_false_eq_true, List.nodup_nil, and_true] at h2
  obtain ⟨⟨n1, n2, n3⟩, ⟨n4, n5⟩, n6⟩ := h2
  unfold seed
  rw [vget_eq_ok.2 h3, Res.ok_bind]
  simp only
  have hc : ∀ j i, (Mapping.new.resize (-3) (-3) 3 3).cell j i = none := by
    intro j i
    show (if Mapping.new.inside j i then Mapping.new.cell j i else none) = none
    split <;> rfl
  have B0 : Books m ⟨List.replicate m.nodes.length noIndex, List.replicate m.nodes.length noIndex, Mapping.new.resize (-3) (-3) 3 3⟩ := by
    refine ⟨by simp, by simp, ?_, ?_, ?_⟩
    · intro n hn _; simp [hn]
    · intro j i n
      rw [place_start]
      simp only
      rw [hc]
      simp
    · intro j i n hh
      simp only at hh
      rw [hc] at hh
      simp at hh
  have inn : ∀ i j : Int, 0 ≤ i → i ≤ 1 → 0 ≤ j → j ≤ 1 → (Mapping.new.resize (-3) (-3) 3 3).inside j i = true := by
    intro i j g1 g2 g3 g4; exact inside_new (by omega) (by omega) (by omega) (by omega)
  have z : (0 : Int) ≠ noIndex := by decide
  have o : (1 : Int) ≠ noIndex := by decide
  obtain ⟨t1, r1, B1, p1, i1⟩ := corner_eq B0 (i := 0) (j := 0) (es := [e0, e1, e2, e3]) (a := 0) (b := 1) rfl rfl (common_eq q0 q1 ma mb mc n2 n1 n4 h5.j0 h5.j1) lb
    (place_start _ _ _) z z (fun k => by rw [place_start]; simp) (inn 0 0 (by omega) (by omega) (by omega) (by omega))
  rw [r1, Res.ok_bind]
  simp only [place_start] at p1
  obtain ⟨t2, r2, B2, p2, i2⟩ := corner_eq B1 (i := 1) (j := 0) (es := [e0, e1, e2, e3]) (a := 1) (b := 2) rfl rfl (common_eq q1 q2 mb mc md n5 n4 n6 h5.j1 h5.j2) lc
    (by rw [p1, if_neg (Ne.symm n4)]) o z (fun k => by rw [p1]; split <;> simp) (by rw [i1]; exact inn 1 0 (by omega) (by omega) (by omega) (by omega))
  rw [r2, Res.ok_bind]
  simp only [p1] at p2
  obtain ⟨t3, r3, B3, p3, i3⟩ := corner_eq B2 (i := 1) (j := 1) (es := [e0, e1, e2, e3]) (a := 2) (b := 3) rfl rfl (common_eq q2 q3 mc md ma (Ne.symm n2) n6 (Ne.symm n3) h5.j2 h5.j3) ld
    (by rw [p2, if_neg (Ne.symm n6), if_neg (Ne.symm n5)]) o o (fun k => by rw [p2]; split_ifs <;> simp) (by rw [i2, i1]; exact inn 1 1 (by omega) (by omega) (by omega) (by omega))
  rw [r3, Res.ok_bind]
  simp only [p2] at p3
  obtain ⟨t4, r4, B4, p4, i4⟩ := corner_eq B3 (i := 0) (j := 1) (es := [e0, e1, e2, e3]) (a := 3) (b := 0) rfl rfl (common_eq q3 q0 md ma mb (Ne.symm n5) (Ne.symm n3) n1 h5.j3 h5.j0) la
    (by rw [p3, if_neg n3, if_neg n2, if_neg n1]) z o (fun k => by rw [p3]; split_ifs <;> simp) (by rw [i3, i2, i1]; exact inn 0 1 (by omega) (by omega) (by omega) (by omega))
  simp only [p3] at p4
  have pa : t4.place a = some (0, 1) := by rw [p4, if_pos rfl]
  have pd : t4.place d = some (1, 1) := by rw [p4, if_neg (Ne.symm n3), if_pos rfl]
  have pc : t4.place c = some (1, 0) := by rw [p4, if_neg (Ne.symm n2), if_neg n6, if_pos rfl]
  have pb : t4.place b = some (0, 0) := by rw [p4, if_neg (Ne.symm n1), if_neg n5, if_neg n4, if_pos rfl]
  have pcases : ∀ n p, t4.place n = some p → (n = a ∧ p = (0, 1)) ∨ (n = b ∧ p = (0, 0)) ∨ (n = c ∧ p = (1, 0)) ∨ (n = d ∧ p = (1, 1)) := by
    intro n p hp
    rw [p4] at hp
    split_ifs at hp with c1 c2 c3 c4
    · exact Or.inl ⟨c1, (Option.some.inj hp).symm⟩
    · exact Or.inr (Or.inr (Or.inr ⟨c2, (Option.some.inj hp).symm⟩))
    · exact Or.inr (Or.inr (Or.inl ⟨c3, (Option.some.inj hp).symm⟩))
    · exact Or.inr (Or.inl ⟨c4, (Option.some.inj hp).symm⟩)
  have hon : OnCell t4.place ns := by
    rw [h1]
    exact ⟨a, b, c, d, _, _, _, _, rfl, pa, pb, pc, pd, 1, -1, by simp, by simp, Or.inr ⟨by simp, by simp, by simp⟩⟩
  have lab : Linked m s a b := ⟨e0, f, ns, h5.j0, h5.b0, hq⟩
  have lbc : Linked m s b c := ⟨e1, f, ns, h5.j1, h5.b1, hq⟩
  have lcd : Linked m s c d := ⟨e2, f, ns, h5.j2, h5.b2, hq⟩
  have lda : Linked m s d a := ⟨e3, f, ns, h5.j3, h5.b3, hq⟩
  refine ⟨t4, r4, ⟨B4.leni, B4.lenj, B4.none, B4.map, B4.range, ?_, ?_, ?_, ?_, ?_⟩, hon, ?_⟩
  · intro n p hp
    refine ⟨f, ns, hq, ?_, hon, .start⟩
    rw [h1]
    rcases pcases n p hp with ⟨rfl, _⟩ | ⟨rfl, _⟩ | ⟨rfl, _⟩ | ⟨rfl, _⟩ <;> simp
  · intro n n' p q hp hq' hbe
    rcases pcases n p hp with ⟨rfl, rfl⟩ | ⟨rfl, rfl⟩ | ⟨rfl, rfl⟩ | ⟨rfl, rfl⟩ <;>
      rcases pcases n' q hq' with ⟨rfl, rfl⟩ | ⟨rfl, rfl⟩ | ⟨rfl, rfl⟩ | ⟨rfl, rfl⟩ <;>
      first | assumption | exact Linked.symm (by assumption) | (exfalso; unfold Beside at hbe; simp at hbe)
  · intro n p hp k h6 h7
    have : k = 0 ∨ k = 1 := by rcases pcases n p hp with ⟨_, rfl⟩ | ⟨_, rfl⟩ | ⟨_, rfl⟩ | ⟨_, rfl⟩ <;> simp only at h6 <;> omega
    rcases this with rfl | rfl
    · exact ⟨_, _, pa, rfl⟩
    · exact ⟨_, _, pc, rfl⟩
  · intro n p hp k h6 h7
    have : k = 0 ∨ k = 1 := by rcases pcases n p hp with ⟨_, rfl⟩ | ⟨_, rfl⟩ | ⟨_, rfl⟩ | ⟨_, rfl⟩ <;> simp only at h6 <;> omega
    rcases this with rfl | rfl
    · exact ⟨_, _, pb, rfl⟩
    · exact ⟨_, _, pa, rfl⟩
  · exact ⟨a, b, c, d, by rw [← h1]; exact hq.1, pb, pc, pd, pa⟩
  · intro k p hp
    rcases pcases k p hp with ⟨_, rfl⟩ | ⟨_, rfl⟩ | ⟨_, rfl⟩ | ⟨_, rfl⟩ <;> simp

/-! ## The matrix of nodes -/

theorem foldl_min (l : List Int) : ∀ a, (l.foldl min a = a ∨ l.foldl min a ∈ l) ∧ l.foldl min a ≤ a ∧ ∀ x ∈ l, l.foldl min a ≤ x := by
  induction l with
  | nil => intro a; simp
  | cons b l ih =>
    intro a
    simp only [List.foldl_cons]
    obtain ⟨h1, h2, h3⟩ := ih (min a b)
    refine ⟨?_, by omega, ?_⟩
    · rcases h1 with h1 | h1
      · rw [h1]
        rcases le_total a b with h | h
        · rw [min_eq_left h]; exact Or.inl rfl
        · rw [min_eq_right h]; exact Or.inr (by simp)
      · exact Or.inr (List.mem_cons_of_mem _ h1)
    · intro x hx
      rcases List.mem_cons.1 hx with rfl | hx
      · omega
      · exact h3 x hx

theorem foldl_max (l : List Int) : ∀ a, (l.foldl max a = a ∨ l.foldl max a ∈ l) ∧ a ≤ l.foldl max a ∧ ∀ x ∈ l, x ≤ l.foldl max a := by
  induction l with
  | nil => intro a; simp
  | cons b l ih =>
    intro a
    simp only [List.foldl_cons]
    obtain ⟨h1, h2, h3⟩ := ih (max a b)
    refine ⟨?_, by omega, ?_⟩
    · rcases h1 with h1 | h1
      · rw [h1]
        rcases le_total a b with h | h
        · rw [max_eq_right h]; exact Or.inr (by simp)
        · rw [max_eq_left h]; exact Or.inl rfl
      · exact Or.inr (List.mem_cons_of_mem _ h1)
    · intro x hx
      rcases List.mem_cons.1 hx with rfl | hx
      · omega
      · exact h3 x hx

theorem extent_eq {l : List Int} (h : ∃ x ∈ l, x ≠ noIndex) : ∃ e, extent l = some e ∧ e.1 ∈ l ∧ e.1 ≠ noIndex ∧ e.2 ∈ l ∧ e.2 ≠ noIndex ∧
    ∀ x ∈ l, x ≠ noIndex → e.1 ≤ x ∧ x ≤ e.2 := by
  have hm : ∀ x, x ∈ l.filter (fun x => decide (x ≠ noIndex)) ↔ x ∈ l ∧ x ≠ noIndex := by intro x; simp
  unfold extent
  cases hl : l.filter (fun x => decide (x ≠ noIndex)) with
  | nil =>
    obtain ⟨x, h1, h2⟩ := h
    have := (hm x).2 ⟨h1, h2⟩
    rw [hl] at this; simp at this
  | cons a r =>
    rw [hl] at hm
    obtain ⟨h1, h2, h3⟩ := foldl_min r a
    obtain ⟨g1, g2, g3⟩ := foldl_max r a
    have k1 : r.foldl min a ∈ a :: r := by
      rcases h1 with h1 | h1
      · rw [h1]; simp
      · exact List.mem_cons_of_mem _ h1
    have k2 : r.foldl max a ∈ a :: r := by
      rcases g1 with g1 | g1
      · rw [g1]; simp
      · exact List.mem_cons_of_mem _ g1
    refine ⟨_, rfl, ((hm _).1 k1).1, ((hm _).1 k1).2, ((hm _).1 k2).1, ((hm _).1 k2).2, ?_⟩
    intro x hx hne
    rcases List.mem_cons.1 ((hm x).2 ⟨hx, hne⟩) with rfl | hr
    · exact ⟨h2, g2⟩
    · exact ⟨h3 x hr, g3 x hr⟩

theorem Inv.mem_i (h : Inv m s f0 t) {x : Int} : x ∈ t.i ∧ x ≠ noIndex ↔ ∃ n p, t.place n = some p ∧ p.1 = x := by
  constructor
  · rintro ⟨h1, h2⟩
    obtain ⟨n, hn, rfl⟩ := List.mem_iff_getElem.1 h1
    cases hp : t.place n with
    | none =>
      obtain ⟨h3, _⟩ := h.none n (by rw [← h.leni]; exact hn) hp
      rw [List.getElem?_eq_getElem hn] at h3
      exact absurd (Option.some.inj h3) h2
    | some p =>
      refine ⟨n, p, hp, ?_⟩
      have h3 := (place_some.1 hp).1
      rw [List.getElem?_eq_getElem hn] at h3
      exact (Option.some.inj h3).symm
  · rintro ⟨n, p, h1, rfl⟩
    obtain ⟨h2, _, h3, _⟩ := place_some.1 h1
    exact ⟨List.mem_of_getElem? h2, h3⟩

theorem Inv.mem_j (h : Inv m s f0 t) {x : Int} : x ∈ t.j ∧ x ≠ noIndex ↔ ∃ n p, t.place n = some p ∧ p.2 = x := by
  constructor
  · rintro ⟨h1, h2⟩
    obtain ⟨n, hn, rfl⟩ := List.mem_iff_getElem.1 h1
    cases hp : t.place n with
    | none =>
      obtain ⟨_, h3⟩ := h.none n (by rw [← h.lenj]; exact hn) hp
      rw [List.getElem?_eq_getElem hn] at h3
      exact absurd (Option.some.inj h3) h2
    | some p =>
      refine ⟨n, p, hp, ?_⟩
      have h3 := (place_some.1 hp).2.1
      rw [List.getElem?_eq_getElem hn] at h3
      exact (Option.some.inj h3).symm
  · rintro ⟨n, p, h1, rfl⟩
    obtain ⟨_, h2, _, h3⟩ := place_some.1 h1
    exact ⟨List.mem_of_getElem? h2, h3⟩

/-- The nodes are copied to their places. -/
theorem matrix_eq (h : Inv m s f0 t) : ∃ (ei ej : Int × Int) (c : Nat → Nat → Option P),
    matrix m t = .ok ((ej.2 - ej.1 + 1).toNat, (ei.2 - ei.1 + 1).toNat, c) ∧ extent t.i = some ei ∧ extent t.j = some ej ∧
    (∀ n p, t.place n = some p → ei.1 ≤ p.1 ∧ p.1 ≤ ei.2 ∧ ej.1 ≤ p.2 ∧ p.2 ≤ ej.2) ∧
    (∃ n p, t.place n = some p ∧ p.1 = ei.1) ∧ (∃ n p, t.place n = some p ∧ p.1 = ei.2) ∧
    (∃ n p, t.place n = some p ∧ p.2 = ej.1) ∧ (∃ n p, t.place n = some p ∧ p.2 = ej.2) ∧
    (∀ n p, t.place n = some p → c (p.2 - ej.1).toNat (p.1 - ei.1).toNat = (m.nodes[n]?).join) ∧
    (∀ r k : Nat, (∀ n, t.place n ≠ some (ei.1 + k, ej.1 + r)) → c r k = none) := by
  obtain ⟨a, b, _, _, _, hb, _⟩ := h.first
  obtain ⟨ei, i1, i2, i3, i4, i5, i6⟩ := extent_eq (l := t.i) ⟨0, (h.mem_i.2 ⟨b, _, hb, rfl⟩).1, (h.mem_i.2 ⟨b, _, hb, rfl⟩).2⟩
  obtain ⟨ej, j1, j2, j3, j4, j5, j6⟩ := extent_eq (l := t.j) ⟨0, (h.mem_j.2 ⟨b, _, hb, rfl⟩).1, (h.mem_j.2 ⟨b, _, hb, rfl⟩).2⟩
  have hin : ∀ n p, t.place n = some p → ei.1 ≤ p.1 ∧ p.1 ≤ ei.2 ∧ ej.1 ≤ p.2 ∧ p.2 ≤ ej.2 := by
    intro n p hp
    have k1 := h.mem_i.2 ⟨n, p, hp, rfl⟩
    have k2 := h.mem_j.2 ⟨n, p, hp, rfl⟩
    exact ⟨(i6 _ k1.1 k1.2).1, (i6 _ k1.1 k1.2).2, (j6 _ k2.1 k2.2).1, (j6 _ k2.1 k2.2).2⟩
  obtain ⟨c, c1, c2, c3⟩ := forRange_inv (f := copyNode m.nodes t ei ej) (lo := 0) (hi := m.nodes.length) (s := fun _ _ => none)
    (fun k c => (∀ n < k, ∀ p, t.place n = some p → c (p.2 - ej.1).toNat (p.1 - ei.1).toNat = (m.nodes[n]?).join) ∧
      (∀ r col : Nat, (∀ n, t.place n ≠ some (ei.1 + col, ej.1 + r)) → c r col = none)) (by omega)
    ⟨by intro n hn; omega, fun _ _ _ => rfl⟩ (by
      intro k c _ hk ⟨c1, c2⟩
      have hki : k < t.i.length := by rw [h.leni]; exact hk
      have hkj : k < t.j.length := by rw [h.lenj]; exact hk
      unfold copyNode
      rw [vget_ok hkj, Res.ok_bind, vget_ok hki, Res.ok_bind]
      cases hp : t.place k with
      | none =>
        obtain ⟨g1, g2⟩ := h.none k hk hp
        rw [List.getElem?_eq_getElem hki] at g1
        rw [if_neg (fun hc => hc.2 (Option.some.inj g1))]
        refine ⟨c, rfl, ?_, c2⟩
        intro n hn p hp'
        by_cases hnk : n = k
        · subst hnk; rw [hp] at hp'; simp at hp'
        · exact c1 n (by omega) p hp'
      | some p =>
        obtain ⟨g1, g2, g3, g4⟩ := place_some.1 hp
        rw [List.getElem?_eq_getElem hki] at g1
        rw [List.getElem?_eq_getElem hkj] at g2
        rw [Option.some.inj g1, Option.some.inj g2, if_pos ⟨g4, g3⟩]
        obtain ⟨b1, b2, b3, b4⟩ := hin k p hp
        rw [if_pos ⟨b3, b4, b1, b2⟩, if_pos hk, vget_ok hk, Res.ok_bind]
        refine ⟨_, rfl, ?_, ?_⟩
        · intro n hn q hq
          unfold upd
          by_cases hnk : n = k
          · subst hnk
            rw [hp] at hq; obtain rfl := Option.some.inj hq
            rw [if_pos ⟨rfl, rfl⟩, List.getElem?_eq_getElem hk]; rfl
          · rw [if_neg, c1 n (by omega) q hq]
            rintro ⟨l1, l2⟩
            obtain ⟨d1, d2, d3, d4⟩ := hin n q hq
            have : q = p := Prod.ext (by omega) (by omega)
            rw [this] at hq
            exact hnk (h.once hq hp)
        · intro r col hh
          unfold upd
          rw [if_neg, c2 r col hh]
          rintro ⟨l1, l2⟩
          refine hh k ?_
          rw [hp]
          congr 1
          exact Prod.ext (by simp only; omega) (by simp only; omega))
  have hmat : matrix m t = .ok ((ej.2 - ej.1 + 1).toNat, (ei.2 - ei.1 + 1).toNat, c) := by
    unfold matrix
    rw [i1, j1]
    simp only
    rw [c1]; rfl
  refine ⟨ei, ej, c, hmat, i1, j1, hin, h.mem_i.1 ⟨i2, i3⟩, h.mem_i.1 ⟨i4, i5⟩, h.mem_j.1 ⟨j2, j3⟩, h.mem_j.1 ⟨j4, j5⟩, ?_, c3⟩
  intro n p hp
  exact c2 n (h.lt hp) p hp

end Verif.ToCurvi
