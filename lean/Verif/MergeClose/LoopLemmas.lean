import Verif.MergeClose.Lemmas
/-!
# Lemmas: the search tree and the loop over the selected nodes
-/
namespace Verif.MergeClose
open Verif.Mesh
variable {P : Type}

/-- `r` comes after `k` in the list of points and lies close to it. -/
def Later (cl : P → P → Bool) (pts : List P) (k r : Nat) : Prop := k < r ∧ ∃ p q, pts[k]? = some p ∧ pts[r]? = some q ∧ cl p q = true

/-- The tree before round `k`. -/
structure TreeOk (cl : P → P → Bool) (pts : List P) (k : Nat) (t : Tree P) : Prop where
  len : t.length = pts.length
  todo : ∀ (j : Nat) p, k ≤ j → pts[j]? = some p → t[j]? = some (some (p, j))
  done : ∀ (j : Nat) p, j < k → pts[j]? = some p → t[j]? = some none ∨ (t[j]? = some (some (p, j)) ∧ ∀ r, ¬ Later cl pts j r)

theorem build_eq (pts : List P) : build (pts.map some) = pts.zipIdx.map some := by
  unfold build
  rw [List.zipIdx_map, List.filterMap_map]
  rw [← List.filterMap_eq_map]
  rfl

theorem build_ok (cl : P → P → Bool) (pts : List P) : TreeOk cl pts 0 (build (pts.map some)) := by
  rw [build_eq]
  refine ⟨by simp, ?_, ?_⟩
  · intro j p _ h
    simp [List.getElem?_zipIdx, h]
  · intro j p h; omega

theorem TreeOk.entry {cl : P → P → Bool} {pts : List P} {k : Nat} {t : Tree P} (h : TreeOk cl pts k t) {j : Nat} {x : P × Nat}
    (hx : t[j]? = some (some x)) : x.2 = j ∧ pts[j]? = some x.1 := by
  have hj : j < pts.length := by rw [← h.len]; exact (List.getElem?_eq_some_iff.1 hx).1
  have hp : pts[j]? = some pts[j] := List.getElem?_eq_getElem hj
  have : t[j]? = some (some (pts[j], j)) := by
    by_cases hk : k ≤ j
    · exact h.todo j _ hk hp
    · rcases h.done j _ (by omega) hp with q | q
      · rw [q] at hx; cases hx
      · exact q.1
  rw [this] at hx
  have := Option.some.inj (Option.some.inj hx)
  subst this
  exact ⟨rfl, hp⟩

/-- The points found, before they are put in the order in which they are reported. -/
def hits (cl : P → P → Bool) (t : Tree P) (p : P) : List Nat := ((t.filterMap id).filter (fun q => cl p q.1)).map Prod.snd

theorem mem_hits {cl : P → P → Bool} {pts : List P} {k : Nat} {t : Tree P} (h : TreeOk cl pts k t) {p : P} {r : Nat} :
    r ∈ hits cl t p ↔ ∃ q, t[r]? = some (some (q, r)) ∧ cl p q = true := by
  unfold hits
  simp only [List.mem_map, List.mem_filter, List.mem_filterMap, id]
  constructor
  · rintro ⟨⟨q, r'⟩, ⟨⟨o, ho, rfl⟩, hc⟩, rfl⟩
    obtain ⟨j, hj, he⟩ := List.getElem_of_mem ho
    have he' : t[j]? = some (some (q, r')) := by rw [List.getElem?_eq_getElem hj, he]
    have := (h.entry he').1
    simp only at this
    subst this
    exact ⟨q, he', hc⟩
  · rintro ⟨q, h1, h2⟩
    exact ⟨(q, r), ⟨⟨_, List.mem_of_getElem? h1, rfl⟩, h2⟩, rfl⟩

theorem hits_nodup {cl : P → P → Bool} {pts : List P} {k : Nat} {t : Tree P} (h : TreeOk cl pts k t) (p : P) : (hits cl t p).Nodup := by
  unfold hits
  have h1 : ((t.filterMap id).map Prod.snd).Nodup := by
    rw [List.map_filterMap]
    unfold List.Nodup
    rw [List.pairwise_filterMap, List.pairwise_iff_getElem]
    intro i j hi hj hij x hx y hy
    simp only [id, Option.map_eq_some_iff] at hx hy
    obtain ⟨u, hu, rfl⟩ := hx
    obtain ⟨v, hv, rfl⟩ := hy
    have e1 := (h.entry (j := i) (x := u) (by rw [List.getElem?_eq_getElem hi, hu])).1
    have e2 := (h.entry (j := j) (x := v) (by rw [List.getElem?_eq_getElem hj, hv])).1
    omega
  exact h1.sublist (List.filter_sublist.map _)

theorem mem_hits_iff {cl : P → P → Bool} (hrefl : ∀ p, cl p p = true) (hsymm : ∀ p q, cl p q = cl q p) {pts : List P} {k : Nat} {t : Tree P}
    (h : TreeOk cl pts k t) {p : P} (hp : pts[k]? = some p) {r : Nat} : r ∈ hits cl t p ↔ r = k ∨ Later cl pts k r := by
  rw [mem_hits h]
  constructor
  · rintro ⟨q, h1, h2⟩
    by_cases hk : r = k
    · exact Or.inl hk
    · right
      have hq := (h.entry h1).2
      refine ⟨?_, p, q, hp, hq, h2⟩
      by_contra hlt
      rcases h.done r q (by omega) hq with e | ⟨_, e⟩
      · rw [e] at h1; cases h1
      · exact e k ⟨by omega, q, p, hq, hp, by rw [hsymm]; exact h2⟩
  · rintro (rfl | ⟨hlt, p', q, h1, h2, h3⟩)
    · exact ⟨p, h.todo r p (Nat.le_refl _) hp, hrefl p⟩
    · rw [hp] at h1
      obtain rfl := Option.some.inj h1
      exact ⟨q, h.todo r q (by omega) h2, h3⟩

theorem not_empty {t : Tree P} {j : Nat} {x : P × Nat} (h : t[j]? = some (some x)) : empty t = false := by
  unfold empty
  rw [List.all_eq_false]
  exact ⟨some x, List.mem_of_getElem? h, by simp⟩

/-- What is known of the selected nodes. -/
structure Setting (cl : P → P → Bool) (pts : List P) (sel : List Nat) (m1 : Mesh P) (nr : Nat → Nat → Prop) : Prop where
  len : sel.length = pts.length
  sorted : ∀ (j r a b : Nat), j < r → sel[j]? = some a → sel[r]? = some b → a < b
  valid : ∀ (j n : Nat), sel[j]? = some n → n < m1.nodes.length ∧ (m1.nodes[n]?).join.isSome
  near : ∀ (j r a b : Nat), Later cl pts j r → sel[j]? = some a → sel[r]? = some b → nr a b
  refl : ∀ p, cl p p = true
  symm : ∀ p q, cl p q = cl q p
  cap : ∀ n, reach m1 nr n ≤ 16

theorem Setting.ne {cl : P → P → Bool} {pts : List P} {sel : List Nat} {m1 : Mesh P} {nr : Nat → Nat → Prop} (S : Setting cl pts sel m1 nr)
    {j r a b : Nat} (hjr : j ≠ r) (ha : sel[j]? = some a) (hb : sel[r]? = some b) : a ≠ b := by
  rcases Nat.lt_or_gt_of_ne hjr with h | h
  · have := S.sorted j r a b h ha hb; omega
  · have := S.sorted r j b a h hb ha; omega

theorem vget_of {α : Type} {l : List α} {i : Nat} {a : α} (h : l[i]? = some a) : vget l i = .ok a := by
  simp [vget, h]

section
variable {cl : P → P → Bool} {pts : List P} {sel : List Nat} {m1 : Mesh P} {nr : Nat → Nat → Prop}

/-- Once the node is gone, the remaining answers change nothing. -/
theorem mergeFound_gone (S : Setting cl pts sel m1 nr) {k a : Nat} (ha : sel[k]? = some a) {rep : Nat → Nat} (hra : rep a ≠ a) {t : Tree P}
    (ht : t[k]? = some none) (hne : empty t = false) (rs : List Nat)
    (hrs : ∀ r ∈ rs, r ≠ k → ∃ b, sel[r]? = some b ∧ rep b = b) {as : List (Act P)} {m : Mesh P} (h : MeshOk m1 nr rep as m) :
    ∃ bs m', mergeFound sel k rs t m = .ok (bs, t, m') ∧ MeshOk m1 nr rep (as ++ bs) m' := by
  induction rs generalizing as m with
  | nil => exact ⟨[], m, rfl, by rw [List.append_nil]; exact h⟩
  | cons r rs ih =>
    have hrs' : ∀ r ∈ rs, r ≠ k → ∃ b, sel[r]? = some b ∧ rep b = b := fun r' h1 => hrs r' (List.mem_cons_of_mem _ h1)
    by_cases hr : r = k
    · rw [mergeFound, if_neg (fun q => q hr)]
      exact ih hrs' h
    · obtain ⟨b, hb, hrb⟩ := hrs r (by simp) hr
      obtain ⟨bs, m', e1, h1⟩ := h.merge_gone (S.valid k a ha).1 (S.valid r b hb).1 (S.ne (fun q => hr q.symm) ha hb) hra hrb (S.valid r b hb).2 S.cap
      obtain ⟨cs, m'', e2, h2⟩ := ih hrs' h1
      have hset : vset t k none = .ok t := by
        obtain ⟨hl, he⟩ := List.getElem?_eq_some_iff.1 ht
        rw [vset_ok none hl]
        congr 1
        conv_rhs => rw [← List.set_getElem_self hl]
        rw [he]
      refine ⟨bs ++ cs, m'', ?_, by rw [← List.append_assoc]; exact h2⟩
      rw [mergeFound, if_pos hr, vget_of ha, Res.ok_bind, vget_of hb, Res.ok_bind, e1, Res.ok_bind, remove, hne,
        if_neg Bool.false_ne_true, hset, Res.ok_bind, e2, Res.ok_bind]

/-- The answers of one search: the first node found takes the edges. -/
theorem mergeFound_ok (S : Setting cl pts sel m1 nr) {k a : Nat} (ha : sel[k]? = some a) {rep : Nat → Nat} (hra : rep a = a) {t : Tree P}
    (hk : k < t.length) (rs : List Nat)
    (hrs : ∀ r ∈ rs, r ≠ k → Later cl pts k r ∧ (∃ b, sel[r]? = some b ∧ rep b = b) ∧ ∃ x, t[r]? = some (some x))
    (hex : ∃ r ∈ rs, r ≠ k) {as : List (Act P)} {m : Mesh P} (h : MeshOk m1 nr rep as m) :
    ∃ r b bs m', r ∈ rs ∧ r ≠ k ∧ sel[r]? = some b ∧ mergeFound sel k rs t m = .ok (bs, t.set k none, m') ∧
      MeshOk m1 nr (fun i => if rep i = a then b else rep i) (as ++ bs) m' := by
  induction rs with
  | nil => obtain ⟨r, hr, _⟩ := hex; cases hr
  | cons r rs ih =>
    by_cases hr : r = k
    · obtain ⟨r', b, bs, m', h1, h2, h3, h4, h5⟩ := ih (fun r' h1 => hrs r' (List.mem_cons_of_mem _ h1)) (by
        obtain ⟨r', h1, h2⟩ := hex
        rcases List.mem_cons.1 h1 with rfl | h1
        · exact absurd hr h2
        · exact ⟨r', h1, h2⟩)
      refine ⟨r', b, bs, m', List.mem_cons_of_mem _ h1, h2, h3, ?_, h5⟩
      rw [mergeFound, if_neg (fun q => q hr)]
      exact h4
    · obtain ⟨hl, ⟨b, hb, hrb⟩, x, hx⟩ := hrs r (by simp) hr
      have hab := S.ne (fun q => hr q.symm) ha hb
      obtain ⟨bs, m', e1, h1⟩ := h.merge (S.valid k a ha).1 (S.valid r b hb).1 hab hra hrb (S.near k r a b hl ha hb)
        (S.valid r b hb).2 S.cap
      have hx' : (t.set k none)[r]? = some (some x) := by rw [List.getElem?_set_ne (fun q => hr q.symm)]; exact hx
      obtain ⟨cs, m'', e2, h2⟩ := mergeFound_gone S ha (rep := fun i => if rep i = a then b else rep i)
        (by simp only [hra, if_true]; exact hab.symm) (t := t.set k none) (by simp [hk]) (not_empty hx') rs (by
          intro r' h1 h2
          obtain ⟨_, ⟨b', hb', hrb'⟩, _⟩ := hrs r' (List.mem_cons_of_mem _ h1) h2
          refine ⟨b', hb', ?_⟩
          rw [if_neg (by rw [hrb']; exact (S.ne (fun q => h2 q.symm) ha hb').symm)]
          exact hrb') h1
      refine ⟨r, b, bs ++ cs, m'', by simp, hr, hb, ?_, by rw [← List.append_assoc]; exact h2⟩
      rw [mergeFound, if_pos hr, vget_of ha, Res.ok_bind, vget_of hb, Res.ok_bind, e1, Res.ok_bind, remove, not_empty hx,
        if_neg Bool.false_ne_true, vset_ok none hk, Res.ok_bind, e2, Res.ok_bind]

/-- The state before round `k`. -/
structure RoundOk (cl : P → P → Bool) (pts : List P) (sel : List Nat) (m1 : Mesh P) (nr : Nat → Nat → Prop) (k : Nat) (rep : Nat → Nat)
    (as : List (Act P)) (t : Tree P) (m : Mesh P) : Prop where
  tree : TreeOk cl pts k t
  mesh : MeshOk m1 nr rep as m
  todo : ∀ (j b : Nat), k ≤ j → sel[j]? = some b → rep b = b
  done : ∀ (j b : Nat), j < k → sel[j]? = some b → rep b = b → ∀ r, ¬ Later cl pts j r

theorem round_ok (S : Setting cl pts sel m1 nr) (env : Env P) (d : ℚ) (hcl : env.close d = cl) (hrep : ∀ l, (env.report l).Perm l) {k : Nat}
    (hk : k < pts.length) {rep : Nat → Nat} {as : List (Act P)} {t : Tree P} {m : Mesh P} (h : RoundOk cl pts sel m1 nr k rep as t m) :
    ∃ bs t' m' rep', round env d sel (pts.map some) k t m = .ok (bs, t', m') ∧ RoundOk cl pts sel m1 nr (k + 1) rep' (as ++ bs) t' m' := by
  have hp : pts[k]? = some pts[k] := List.getElem?_eq_getElem hk
  have hks : k < sel.length := by rw [S.len]; exact hk
  have ha : sel[k]? = some sel[k] := List.getElem?_eq_getElem hks
  have hkt : k < t.length := by rw [h.tree.len]; exact hk
  have hx : t[k]? = some (some (pts[k], k)) := h.tree.todo k _ (Nat.le_refl _) hp
  have hmem : ∀ r, r ∈ env.report (hits cl t pts[k]) ↔ r = k ∨ Later cl pts k r := by
    intro r
    rw [(hrep _).mem_iff, mem_hits_iff S.refl S.symm h.tree hp]
  have hnd : (env.report (hits cl t pts[k])).Nodup := (hrep _).nodup_iff.2 (hits_nodup h.tree _)
  have e0 : round env d sel (pts.map some) k t m =
      if (env.report (hits cl t pts[k])).length > 1 then mergeFound sel k (env.report (hits cl t pts[k])) t m else .ok ([], t, m) := by
    rw [round, vget_of (a := some pts[k]) (by simp [hp]), Res.ok_bind, find, not_empty hx, if_neg Bool.false_ne_true, hcl]
    rfl
  rw [e0]
  generalize hf : env.report (hits cl t pts[k]) = found at hmem hnd
  by_cases hlen : found.length > 1
  · rw [if_pos hlen]
    have hex : ∃ r ∈ found, r ≠ k := by
      by_contra hno
      push Not at hno
      match found, hlen, hnd, hno with
      | x :: y :: l, _, hnd, hno =>
        have h1 := hno x (by simp)
        have h2 := hno y (by simp)
        rw [h1, h2] at hnd
        simp at hnd
    have hrs : ∀ r ∈ found, r ≠ k → Later cl pts k r ∧ (∃ b, sel[r]? = some b ∧ rep b = b) ∧ ∃ x, t[r]? = some (some x) := by
      intro r h1 h2
      have hl : Later cl pts k r := by
        rcases (hmem r).1 h1 with q | q
        · exact absurd q h2
        · exact q
      obtain ⟨hlt, p, q, _, hq, _⟩ := id hl
      have hr : r < sel.length := by rw [S.len]; exact (List.getElem?_eq_some_iff.1 hq).1
      exact ⟨hl, ⟨sel[r], List.getElem?_eq_getElem hr, h.todo r _ (by omega) (List.getElem?_eq_getElem hr)⟩, _, h.tree.todo r q (by omega) hq⟩
    have hra := h.todo k _ (Nat.le_refl _) ha
    obtain ⟨r, b, bs, m', h1, h2, h3, h4, h5⟩ := mergeFound_ok S ha hra hkt found hrs hex h.mesh
    have hab := S.ne (fun q => h2 q.symm) ha h3
    have hrb : rep b = b := by
      obtain ⟨_, ⟨b', q1, q2⟩, _⟩ := hrs r h1 h2
      rw [h3] at q1
      obtain rfl := Option.some.inj q1
      exact q2
    refine ⟨bs, _, m', _, h4, ?_, h5, ?_, ?_⟩
    · refine ⟨by rw [List.length_set]; exact h.tree.len, ?_, ?_⟩
      · intro j p hj hpj
        rw [List.getElem?_set_ne (by omega)]
        exact h.tree.todo j p (by omega) hpj
      · intro j p hj hpj
        by_cases hjk : j = k
        · left; subst hjk; simp [hkt]
        · rw [List.getElem?_set_ne (by omega)]
          exact h.tree.done j p (by omega) hpj
    · intro j c hj hc
      have := h.todo j c (by omega) hc
      simp only [this]
      rw [if_neg (S.ne (by omega) hc ha)]
    · intro j c hj hc hrc
      have hr : rep c = c := by
        by_cases hq : rep c = sel[k]
        · simp only [hq, if_true] at hrc
          subst hrc
          exact hrb
        · simp only [hq, if_false] at hrc
          exact hrc
      by_cases hjk : j = k
      · exfalso
        subst hjk
        rw [ha] at hc
        obtain rfl := Option.some.inj hc
        simp only [hr, if_true] at hrc
        exact hab hrc.symm
      · exact h.done j c (by omega) hc hr
  · rw [if_neg hlen]
    have hno : ∀ r, ¬ Later cl pts k r := by
      intro r hr
      have h1 := (hmem r).2 (Or.inr hr)
      have h2 := (hmem k).2 (Or.inl rfl)
      have := hr.1
      match found, hlen, h1, h2 with
      | [x], _, h1, h2 => simp at h1 h2; omega
      | x :: y :: l, hlen, _, _ => simp at hlen
    refine ⟨[], t, m, rep, rfl, ?_, by rw [List.append_nil]; exact h.mesh, fun j b hj => h.todo j b (by omega), ?_⟩
    · refine ⟨h.tree.len, fun j p hj => h.tree.todo j p (by omega), ?_⟩
      intro j p hj hpj
      by_cases hjk : j = k
      · right; subst hjk; exact ⟨h.tree.todo j p (Nat.le_refl _) hpj, hno⟩
      · exact h.tree.done j p (by omega) hpj
    · intro j b hj hb hr
      by_cases hjk : j = k
      · subst hjk; exact hno
      · exact h.done j b (by omega) hb hr

theorem rounds_ok (S : Setting cl pts sel m1 nr) (env : Env P) (d : ℚ) (hcl : env.close d = cl) (hrep : ∀ l, (env.report l).Perm l) (c k : Nat)
    (hk : k + c = pts.length) {rep : Nat → Nat} {as : List (Act P)} {t : Tree P} {m : Mesh P} (h : RoundOk cl pts sel m1 nr k rep as t m) :
    ∃ bs t' m' rep', rounds env d sel (pts.map some) c k t m = .ok (bs, m') ∧ RoundOk cl pts sel m1 nr pts.length rep' (as ++ bs) t' m' := by
  induction c generalizing k rep as t m with
  | zero =>
    have : k = pts.length := by omega
    subst this
    exact ⟨[], t, m, rep, rfl, by rw [List.append_nil]; exact h⟩
  | succ c ih =>
    obtain ⟨bs, t', m', rep', e1, h1⟩ := round_ok S env d hcl hrep (by omega) h
    obtain ⟨cs, t'', m'', rep'', e2, h2⟩ := ih (k + 1) (by omega) h1
    refine ⟨bs ++ cs, t'', m'', rep'', ?_, by rw [← List.append_assoc]; exact h2⟩
    rw [rounds, e1, Res.ok_bind, e2, Res.ok_bind]

end

end Verif.MergeClose
