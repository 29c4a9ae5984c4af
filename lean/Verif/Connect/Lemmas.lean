import Verif.Connect.Spec
import Mathlib.Data.List.Nodup
import Mathlib.Tactic.SplitIfs
import Mathlib.Tactic.Push

/-!
# Lemmas on the choice of nodes to merge
-/
namespace Verif.Connect

theorem each_inv {α σ : Type} {f : α → σ → Res σ} {I : σ → Prop} (l : List α)
    (hf : ∀ a ∈ l, ∀ s t, I s → f a s = .ok t → I t) :
    ∀ s t, I s → each f l s = .ok t → I t := by
  induction l with
  | nil => intro s t hs h; simp only [each, Res.ok.injEq] at h; exact h ▸ hs
  | cons a l ih =>
    intro s t hs h
    rw [each] at h
    cases ha : f a s with
    | throw => rw [ha] at h; cases h
    | ub => rw [ha] at h; cases h
    | ok u =>
      rw [ha] at h
      exact ih (fun b hb => hf b (List.mem_cons_of_mem _ hb)) u t
        (hf a List.mem_cons_self s u hs ha) h

/-- What one round brings about and the others keep holds at the end. -/
theorem each_reach {α σ : Type} {f : α → σ → Res σ} {I Q : σ → Prop} (l : List α) (a : α)
    (hal : a ∈ l)
    (hI : ∀ a ∈ l, ∀ s t, I s → f a s = .ok t → I t)
    (ha : ∀ s t, I s → f a s = .ok t → Q t)
    (hQ : ∀ b ∈ l, ∀ s t, I s → Q s → f b s = .ok t → Q t) :
    ∀ s t, I s → each f l s = .ok t → Q t := by
  induction l with
  | nil => cases hal
  | cons c l ih =>
    intro s t hs h
    rw [each] at h
    cases hc : f c s with
    | throw => rw [hc] at h; cases h
    | ub => rw [hc] at h; cases h
    | ok u =>
      rw [hc] at h
      have hu := hI c List.mem_cons_self s u hs hc
      rcases List.mem_cons.1 hal with rfl | hal'
      · have hq := ha s u hs hc
        exact (each_inv (I := fun s => I s ∧ Q s) l (fun b hb s t hst hb' =>
          ⟨hI b (List.mem_cons_of_mem _ hb) s t hst.1 hb',
            hQ b (List.mem_cons_of_mem _ hb) s t hst.1 hst.2 hb'⟩) u t ⟨hu, hq⟩ h).2
      · exact ih hal' (fun b hb => hI b (List.mem_cons_of_mem _ hb))
          (fun b hb => hQ b (List.mem_cons_of_mem _ hb)) u t hu h

theorem lastNode_mem (l : List Nat) (h : lastNode l ≠ missing) : lastNode l ∈ l := by
  have key : ∀ (l : List Nat) (a : Nat),
      (l.foldl (fun a x => if x = missing then a else x) a) = a ∨
      (l.foldl (fun a x => if x = missing then a else x) a) ∈ l := by
    intro l
    induction l with
    | nil => intro a; exact Or.inl rfl
    | cons x l ih =>
      intro a
      rw [List.foldl_cons]
      by_cases hx : x = missing
      · rw [if_pos hx]
        rcases ih a with h | h
        · exact Or.inl h
        · exact Or.inr (List.mem_cons_of_mem _ h)
      · rw [if_neg hx]
        rcases ih x with h | h
        · rw [h]; exact Or.inr List.mem_cons_self
        · exact Or.inr (List.mem_cons_of_mem _ h)
  rcases key l missing with h' | h'
  · exact absurd h' h
  · exact h'

theorem bedge_mem {p : Input} {i : Nat} (hi : i < p.boundary.length) : p.bedge i ∈ p.boundary := by
  unfold Input.bedge
  rw [List.getD_eq_getElem?_getD, List.getElem?_eq_getElem hi]
  exact List.getElem_mem hi

theorem bedge_ne {p : Input} (hp : Proper p) {i j : Nat} (hi : i < p.boundary.length)
    (hj : j < p.boundary.length) (h : i ≠ j) : p.bedge i ≠ p.bedge j := by
  unfold Input.bedge
  rw [List.getD_eq_getElem?_getD, List.getElem?_eq_getElem hi, List.getD_eq_getElem?_getD,
    List.getElem?_eq_getElem hj]
  intro he
  simp only [Option.getD_some] at he
  exact h ((hp.nodup.getElem_inj_iff).1 he)

/-- The entries of the table are close edges. -/
theorem near_close {p : Input} (hp : Proper p) {i j : Nat} {r : Nat × Nat}
    (hi : i < p.boundary.length) (h : (j, r) ∈ p.near i) :
    j < p.boundary.length ∧ CloseEdges p (p.bedge i) (p.bedge j) r := by
  unfold Input.near at h
  rw [List.mem_filterMap] at h
  obtain ⟨k, hk, h⟩ := h
  rw [List.mem_range] at hk
  split_ifs at h with hik
  rw [Option.map_eq_some_iff] at h
  obtain ⟨r', hr', he⟩ := h
  cases he
  exact ⟨hk, bedge_mem hi, bedge_mem hk, bedge_ne hp hi hk hik, hr'⟩

theorem startOf_close {p : Input} (hp : Proper p) {i : Nat} (hi : i < p.boundary.length)
    (h : p.startOf i ≠ missing) {e : Nat × Nat} (he : p.edges[p.bedge i]? = some e) :
    CloseNodes p e.1 (p.startOf i) := by
  have hm := lastNode_mem _ h
  rw [List.mem_map] at hm
  obtain ⟨⟨j, r⟩, hr, hs⟩ := hm
  obtain ⟨-, hc⟩ := near_close hp hi hr
  exact ⟨_, _, r, e, hc, he, Or.inl ⟨rfl, hs.symm⟩⟩

theorem endOf_close {p : Input} (hp : Proper p) {i : Nat} (hi : i < p.boundary.length)
    (h : p.endOf i ≠ missing) {e : Nat × Nat} (he : p.edges[p.bedge i]? = some e) :
    CloseNodes p e.2 (p.endOf i) := by
  have hm := lastNode_mem _ h
  rw [List.mem_map] at hm
  obtain ⟨⟨j, r⟩, hr, hs⟩ := hm
  obtain ⟨-, hc⟩ := near_close hp hi hr
  exact ⟨_, _, r, e, hc, he, Or.inr ⟨rfl, hs.symm⟩⟩

/-- What the loop keeps. -/
structure Inv (p : Input) (st : St) : Prop where
  len : st.ind.length = p.edges.length
  nodup : (st.merges.map Prod.fst).Nodup
  dom : ∀ n : Nat, st.ind[n]? = some .doMerge ↔ n ∈ st.merges.map Prod.fst
  kept : ∀ n : Nat, st.ind[n]? = some .doNotMerge ↔ n ∈ st.kept
  close : ∀ q ∈ st.merges, CloseNodes p q.1 q.2
  edges : ∀ (b : Nat) (e : Nat × Nat), st.edges[b]? = some e → e = (missing, missing) ∨ p.edges[b]? = some e
  dead : ∀ b ∈ st.gone, st.live[b]? = some false
  gone : ∀ l b l', st.gone = l ++ b :: l' →
    ∃ c r, CloseEdges p b c r ∧ c ∉ l

theorem vget_some {α : Type} {l : List α} {i : Nat} {a : α} (h : vget l i = .ok a) :
    l[i]? = some a := vget_eq_ok.1 h

theorem start_inv (p : Input) : Inv p (start p) where
  len := by simp [start]
  nodup := by simp [start]
  dom := by
    intro n
    simp only [start, List.map_nil, List.not_mem_nil, iff_false, List.getElem?_replicate]
    split_ifs <;> simp
  kept := by
    intro n
    simp only [start, List.not_mem_nil, iff_false, List.getElem?_replicate]
    split_ifs <;> simp
  close := by simp [start]
  edges := fun b e h => Or.inr h
  dead := by simp [start]
  gone := by simp [start]

theorem propose_inv {p : Input} {st st' : St} {n t : Nat} (h : Inv p st)
    (hc : t ≠ missing → n < p.edges.length → CloseNodes p n t) (hp : propose st n t = .ok st') :
    Inv p st' ∧ st'.edges = st.edges ∧ (t ≠ missing → n < p.edges.length ∧
      st'.ind[n]? ≠ some .initial) ∧ (∀ m : Nat, st.ind[m]? ≠ some .initial →
      st'.ind[m]? ≠ some .initial) := by
  unfold propose at hp
  split_ifs at hp with ht
  · cases hp
    exact ⟨h, rfl, fun hh => absurd ht hh, fun _ hm => hm⟩
  cases ha : vget st.ind n with
  | throw => rw [ha] at hp; cases hp
  | ub => rw [ha] at hp; cases hp
  | ok a =>
    rw [ha] at hp
    simp only [Res.bind] at hp
    have hg := vget_some ha
    have hn : n < st.ind.length := by
      by_contra hcon
      rw [List.getElem?_eq_none (by omega)] at hg
      cases hg
    have hn' : n < p.edges.length := h.len ▸ hn
    split_ifs at hp with hi
    · cases hp
      subst hi
      have hnm : n ∉ st.merges.map Prod.fst := by
        intro hm
        rw [(h.dom n).2 hm] at hg
        cases hg
      have hnk : n ∉ st.kept := by
        intro hm
        rw [(h.kept n).2 hm] at hg
        cases hg
      refine ⟨⟨by simp [h.len], ?_, ?_, ?_, ?_, h.edges, h.dead, h.gone⟩, rfl, fun _ => ⟨hn', ?_⟩, ?_⟩
      · rw [List.map_append, List.nodup_append]
        refine ⟨h.nodup, by simp, ?_⟩
        intro a ha' b hb
        simp only [List.map_cons, List.map_nil, List.mem_singleton] at hb
        subst hb
        rintro rfl
        exact hnm ha'
      · intro m
        rw [List.map_append, List.mem_append]
        simp only [List.map_cons, List.map_nil, List.mem_singleton]
        rw [List.getElem?_set]
        by_cases hmn : n = m
        · subst hmn; simp [hn]
        · rw [if_neg hmn, h.dom m]
          constructor
          · exact Or.inl
          · rintro (h1 | h1)
            · exact h1
            · exact absurd h1.symm hmn
      · intro m
        simp only
        rw [List.getElem?_set]
        by_cases hmn : n = m
        · subst hmn; simp [hn, hnk]
        · rw [if_neg hmn, h.kept m]
      · intro q hq
        rcases List.mem_append.1 hq with hq | hq
        · exact h.close q hq
        · rw [List.mem_singleton] at hq
          subst hq
          exact hc ht hn'
      · simp only
        rw [List.getElem?_set]
        simp [hn]
      · intro m hm
        simp only
        rw [List.getElem?_set]
        by_cases hmn : n = m
        · subst hmn; simp [hn]
        · rw [if_neg hmn]; exact hm
    · cases hp
      refine ⟨h, rfl, fun _ => ⟨hn', ?_⟩, fun _ hm => hm⟩
      rw [hg]
      intro hh
      cases hh
      exact hi rfl

theorem hang_inv {p : Input} {st st' : St} {s e n : Nat} (h : Inv p st)
    (hp : hang st s e n = .ok st') :
    Inv p st' ∧ st'.edges = st.edges ∧ (∀ m : Nat, st.ind[m]? ≠ some .initial →
      st'.ind[m]? ≠ some .initial) := by
  unfold hang at hp
  cases ha : vget st.ind n with
  | throw => rw [ha] at hp; cases hp
  | ub => rw [ha] at hp; cases hp
  | ok a =>
    rw [ha] at hp
    simp only [Res.bind] at hp
    have hg := vget_some ha
    have hn : n < st.ind.length := by
      by_contra hcon
      rw [List.getElem?_eq_none (by omega)] at hg
      cases hg
    split_ifs at hp with hi
    · cases hp
      obtain ⟨rfl, -, -⟩ := hi
      have hnm : n ∉ st.merges.map Prod.fst := by
        intro hm
        rw [(h.dom n).2 hm] at hg
        cases hg
      refine ⟨⟨by simp [h.len], h.nodup, ?_, ?_, h.close, h.edges, h.dead, h.gone⟩, rfl, ?_⟩
      · intro m
        simp only
        rw [List.getElem?_set]
        by_cases hmn : n = m
        · subst hmn; simp only [hn, if_true]; constructor
          · intro hh; cases hh
          · intro hh; exact absurd hh hnm
        · rw [if_neg hmn, h.dom m]
      · intro m
        simp only
        rw [List.getElem?_set, List.mem_append, List.mem_singleton]
        by_cases hmn : n = m
        · subst hmn; simp [hn]
        · rw [if_neg hmn, h.kept m]
          constructor
          · exact Or.inl
          · rintro (h1 | h1)
            · exact h1
            · exact absurd h1.symm hmn
      · intro m hm
        simp only
        rw [List.getElem?_set]
        by_cases hmn : n = m
        · subst hmn; simp [hn]
        · rw [if_neg hmn]; exact hm
    · cases hp
      exact ⟨h, rfl, fun _ hm => hm⟩

theorem split_snoc {l l' g : List Nat} {b x : Nat} (h : g ++ [x] = l ++ b :: l') :
    (l' = [] ∧ l = g ∧ b = x) ∨ ∃ l'', g = l ++ b :: l'' := by
  rcases List.eq_nil_or_concat l' with rfl | ⟨m, y, rfl⟩
  · left
    have := List.append_inj' h rfl
    simp only [List.cons.injEq, and_true] at this
    exact ⟨rfl, this.1.symm, this.2.symm⟩
  · right
    rw [List.concat_eq_append] at h
    have h2 : g ++ [x] = (l ++ b :: m) ++ [y] := by rw [h]; simp
    exact ⟨m, (List.append_inj' h2 rfl).1⟩

theorem takeAway_inv {p : Input} {st st' : St} {b c : Nat} {r : Nat × Nat} (h : Inv p st)
    (hc : CloseEdges p b c r) (hp : takeAway st b c = .ok st') :
    Inv p st' ∧ st'.ind = st.ind ∧ st'.merges = st.merges := by
  unfold takeAway at hp
  cases hx : vget st.live b with
  | throw => rw [hx] at hp; cases hp
  | ub => rw [hx] at hp; cases hp
  | ok x =>
    rw [hx] at hp
    simp only [Res.bind] at hp
    cases hy : vget st.live c with
    | throw => rw [hy] at hp; cases hp
    | ub => rw [hy] at hp; cases hp
    | ok y =>
      rw [hy] at hp
      simp only at hp
      split_ifs at hp with hxy
      · cases hp
        obtain ⟨rfl, rfl⟩ := hxy
        have hb := vget_some hx
        have hcl := vget_some hy
        have hbl : b < st.live.length := by
          by_contra hcon
          rw [List.getElem?_eq_none (by omega)] at hb
          cases hb
        refine ⟨⟨h.len, h.nodup, h.dom, h.kept, h.close, ?_, ?_, ?_⟩, rfl, rfl⟩
        · intro d e hd
          simp only at hd
          rw [List.getElem?_set] at hd
          split_ifs at hd
          · cases hd; exact Or.inl rfl
          · exact h.edges d e hd
        · intro d hd
          simp only at hd ⊢
          rw [List.getElem?_set]
          by_cases hbd : b = d
          · subst hbd; simp [hbl]
          · rw [if_neg hbd]
            rcases List.mem_append.1 hd with hd | hd
            · exact h.dead d hd
            · rw [List.mem_singleton] at hd
              exact absurd hd.symm hbd
        · intro l d l' hl
          simp only at hl
          rcases split_snoc hl with ⟨-, rfl, rfl⟩ | ⟨l'', hl'⟩
          · refine ⟨c, r, hc, ?_⟩
            intro hcg
            rw [h.dead c hcg] at hcl
            cases hcl
          · exact h.gone l d l'' hl'
      · cases hp
        exact ⟨h, rfl, rfl⟩

/-- The nodes of the edge at hand are not undecided any more, once a close edge is treated that has
no more close edges. -/
theorem stepNear_inv {p : Input} (hp : Proper p) {i j : Nat} {be : Nat × Nat}
    (hi : i < p.boundary.length) (hj : j ∈ (p.near i).map Prod.fst)
    (hbe : be = (missing, missing) ∨ p.edges[p.bedge i]? = some be) {st st' : St} (h : Inv p st)
    (hs : stepNear p i be j st = .ok st') :
    Inv p st' ∧
    (p.count j ≤ p.count i →
      (p.startOf i ≠ missing → be.1 < p.edges.length ∧ st'.ind[be.1]? ≠ some .initial) ∧
      (p.endOf i ≠ missing → be.2 < p.edges.length ∧ st'.ind[be.2]? ≠ some .initial)) ∧
    (∀ m : Nat, st.ind[m]? ≠ some .initial → st'.ind[m]? ≠ some .initial) := by
  rw [List.mem_map] at hj
  obtain ⟨⟨j', r⟩, hr, rfl⟩ := hj
  obtain ⟨hjl, hclose⟩ := near_close hp hi hr
  simp only at hs
  unfold stepNear at hs
  by_cases hcnt : p.count j' ≤ p.count i
  swap
  · rw [if_neg hcnt] at hs
    cases hs
    exact ⟨h, fun hh => absurd hh hcnt, fun _ hm => hm⟩
  rw [if_pos hcnt] at hs
  have e1 : p.startOf i ≠ missing → be.1 < p.edges.length → CloseNodes p be.1 (p.startOf i) := by
    intro h1 h2
    rcases hbe with rfl | hbe
    · have := hp.fits; simp only at h2; omega
    · exact startOf_close hp hi h1 hbe
  have e2 : p.endOf i ≠ missing → be.2 < p.edges.length → CloseNodes p be.2 (p.endOf i) := by
    intro h1 h2
    rcases hbe with rfl | hbe
    · have := hp.fits; simp only at h2; omega
    · exact endOf_close hp hi h1 hbe
  cases h1 : propose st be.1 (p.startOf i) with
  | throw => rw [h1] at hs; cases hs
  | ub => rw [h1] at hs; cases hs
  | ok s1 =>
    rw [h1] at hs
    simp only [Res.bind] at hs
    obtain ⟨i1, -, a1, m1⟩ := propose_inv h e1 h1
    cases h2 : propose s1 be.2 (p.endOf i) with
    | throw => rw [h2] at hs; cases hs
    | ub => rw [h2] at hs; cases hs
    | ok s2 =>
      rw [h2] at hs
      simp only at hs
      obtain ⟨i2, -, a2, m2⟩ := propose_inv i1 e2 h2
      have fin : ∀ s3, Inv p s3 → (∀ m : Nat, s2.ind[m]? ≠ some .initial → s3.ind[m]? ≠ some .initial) →
          takeAway s3 (p.bedge i) (p.bedge j') = .ok st' → Inv p st' ∧
          (p.count j' ≤ p.count i →
            (p.startOf i ≠ missing → be.1 < p.edges.length ∧ st'.ind[be.1]? ≠ some .initial) ∧
            (p.endOf i ≠ missing → be.2 < p.edges.length ∧ st'.ind[be.2]? ≠ some .initial)) ∧
          (∀ m : Nat, st.ind[m]? ≠ some .initial → st'.ind[m]? ≠ some .initial) := by
        intro s3 i3 m3 ht
        obtain ⟨i4, e4, -⟩ := takeAway_inv i3 hclose ht
        rw [e4]
        refine ⟨i4, fun _ => ⟨fun hh => ⟨(a1 hh).1, ?_⟩, fun hh => ⟨(a2 hh).1, ?_⟩⟩, ?_⟩
        · exact m3 _ (m2 _ (a1 hh).2)
        · exact m3 _ (a2 hh).2
        · intro m hm
          exact m3 _ (m2 _ (m1 _ hm))
      by_cases hlt : p.count j' < p.count i
      · rw [if_pos hlt] at hs
        cases h3 : vget s2.edges (p.bedge j') with
        | throw => rw [h3] at hs; cases hs
        | ub => rw [h3] at hs; cases hs
        | ok ej =>
          rw [h3] at hs
          simp only at hs
          cases h4 : hang s2 (p.startOf i) (p.endOf i) ej.1 with
          | throw => rw [h4] at hs; cases hs
          | ub => rw [h4] at hs; cases hs
          | ok s3 =>
            rw [h4] at hs
            simp only at hs
            obtain ⟨i3, -, m3⟩ := hang_inv i2 h4
            cases h5 : hang s3 (p.startOf i) (p.endOf i) ej.2 with
            | throw => rw [h5] at hs; cases hs
            | ub => rw [h5] at hs; cases hs
            | ok s4 =>
              rw [h5] at hs
              simp only at hs
              obtain ⟨i4, -, m4⟩ := hang_inv i3 h5
              exact fin s4 i4 (fun m hm => m4 _ (m3 _ hm)) hs
      · rw [if_neg hlt] at hs
        exact fin s2 i2 (fun _ hm => hm) hs

theorem deleted_edges {p : Input} (del : List Nat) : ∀ (l : List (Nat × Nat)),
    (∀ (b : Nat) (e : Nat × Nat), l[b]? = some e → e = (missing, missing) ∨ p.edges[b]? = some e) →
    ∀ (b : Nat) (e : Nat × Nat), (del.foldl (fun l e => l.set e (missing, missing)) l)[b]? = some e →
      e = (missing, missing) ∨ p.edges[b]? = some e := by
  induction del with
  | nil => intro l hl; exact hl
  | cons d del ih =>
    intro l hl
    rw [List.foldl_cons]
    apply ih
    intro b e hb
    rw [List.getElem?_set] at hb
    split_ifs at hb
    · cases hb; exact Or.inl rfl
    · exact hl b e hb

theorem free_inv {p : Input} {i : Nat} {st st' : St} (h : Inv p st) (hf : free p i st = .ok st') :
    Inv p st' ∧ st'.ind = st.ind ∧ st.hanging.length ≤ 4 := by
  unfold free at hf
  split at hf
  · rename_i h0
    cases hf
    exact ⟨h, rfl, by omega⟩
  · rename_i k h0
    by_cases h1 : 4 < k
    · rw [if_pos h1] at hf; cases hf
    rw [if_neg h1] at hf
    by_cases h2 : p.across i = [] ∨ k = 4
    · rw [if_pos h2] at hf; cases hf
    rw [if_neg h2] at hf
    push Not at h2
    have hk : k ≤ 3 := by omega
    simp only [Res.ok.injEq] at hf
    subst hf
    exact ⟨⟨h.len, h.nodup, h.dom, h.kept, h.close, deleted_edges _ _ h.edges, h.dead, h.gone⟩, rfl, by omega⟩

theorem stepEdge_inv {p : Input} (hp : Proper p) {i : Nat} (hi : i < p.boundary.length)
    {st st' : St} (h : Inv p st) (hs : stepEdge p i st = .ok st') :
    Inv p st' ∧ (∀ m : Nat, st.ind[m]? ≠ some .initial → st'.ind[m]? ≠ some .initial) ∧
    (∀ j ∈ (p.near i).map Prod.fst, p.count j ≤ p.count i → ∀ e, p.edges[p.bedge i]? = some e →
      (p.startOf i ≠ missing → st'.ind[e.1]? ≠ some .initial ∧ e.1 < p.edges.length) ∧
      (p.endOf i ≠ missing → st'.ind[e.2]? ≠ some .initial ∧ e.2 < p.edges.length)) := by
  unfold stepEdge at hs
  split_ifs at hs with h0
  · cases hs
    refine ⟨h, fun _ hm => hm, ?_⟩
    intro j hj
    have : (p.near i) = [] := List.length_eq_zero_iff.1 h0
    rw [this] at hj
    cases hj
  cases hb : vget st.edges (p.bedge i) with
  | throw => rw [hb] at hs; cases hs
  | ub => rw [hb] at hs; cases hs
  | ok be =>
    rw [hb] at hs
    simp only [Res.bind] at hs
    have hbe := h.edges _ _ (vget_some hb)
    have hI : Inv p { st with hanging := [] } :=
      ⟨h.len, h.nodup, h.dom, h.kept, h.close, h.edges, h.dead, h.gone⟩
    cases he : each (stepNear p i be) ((p.near i).map Prod.fst) { st with hanging := [] } with
    | throw => rw [he] at hs; cases hs
    | ub => rw [he] at hs; cases hs
    | ok s1 =>
      rw [he] at hs
      simp only at hs
      have i1 : Inv p s1 := each_inv (I := Inv p) _
        (fun j hj s t h1 h2 => (stepNear_inv hp hi hj hbe h1 h2).1) _ _ hI he
      obtain ⟨i2, e2, -⟩ := free_inv i1 hs
      have mono : ∀ m : Nat, st.ind[m]? ≠ some .initial → s1.ind[m]? ≠ some .initial := by
        intro m hm
        exact (each_inv (I := fun s => Inv p s ∧ s.ind[m]? ≠ some .initial) _
          (fun j hj s t h1 h2 => ⟨(stepNear_inv hp hi hj hbe h1.1 h2).1,
            (stepNear_inv hp hi hj hbe h1.1 h2).2.2 m h1.2⟩) _ _ ⟨hI, hm⟩ he).2
      rw [e2]
      refine ⟨i2, mono, ?_⟩
      intro j hj hcnt e hpe
      have r1 : p.startOf i ≠ missing → be.1 < p.edges.length ∧ s1.ind[be.1]? ≠ some .initial :=
        fun hh => each_reach (I := Inv p)
          (Q := fun s => be.1 < p.edges.length ∧ s.ind[be.1]? ≠ some .initial) _ j hj
          (fun j hj s t h1 h2 => (stepNear_inv hp hi hj hbe h1 h2).1)
          (fun s t h1 h2 => ((stepNear_inv hp hi hj hbe h1 h2).2.1 hcnt).1 hh)
          (fun b hb s t h1 h2 h3 => ⟨h2.1, (stepNear_inv hp hi hb hbe h1 h3).2.2 _ h2.2⟩)
          _ _ hI he
      have r2 : p.endOf i ≠ missing → be.2 < p.edges.length ∧ s1.ind[be.2]? ≠ some .initial :=
        fun hh => each_reach (I := Inv p)
          (Q := fun s => be.2 < p.edges.length ∧ s.ind[be.2]? ≠ some .initial) _ j hj
          (fun j hj s t h1 h2 => (stepNear_inv hp hi hj hbe h1 h2).1)
          (fun s t h1 h2 => ((stepNear_inv hp hi hj hbe h1 h2).2.1 hcnt).2 hh)
          (fun b hb s t h1 h2 h3 => ⟨h2.1, (stepNear_inv hp hi hb hbe h1 h3).2.2 _ h2.2⟩)
          _ _ hI he
      have hf := hp.fits
      rcases hbe with rfl | hbe
      · constructor
        · intro hh; have := (r1 hh).1; simp only at this; omega
        · intro hh; have := (r2 hh).1; simp only at this; omega
      · rw [hbe] at hpe
        cases hpe
        exact ⟨fun hh => ⟨(r1 hh).2, (r1 hh).1⟩, fun hh => ⟨(r2 hh).2, (r2 hh).1⟩⟩

/-- The merges that are done. -/
theorem mergeNodes_spec : ∀ (l : List (Nat × Nat)) (ind : List Ind) (done : List (Nat × Nat)),
    mergeNodes l ind = .ok done →
    done.Sublist l ∧
    (∀ q ∈ done, ind[q.2]? ≠ some .doNotMerge) ∧
    done.Pairwise (fun q q' => q'.2 ≠ q.1 ∨ ind.length ≤ q.1) ∧
    done.Pairwise (fun q q' => q'.2 ≠ q.2) ∧
    (∀ q ∈ l, q ∈ done ∨ ind[q.2]? = some .doNotMerge ∨ ∃ d ∈ done, d.1 = q.2 ∨ d.2 = q.2) := by
  intro l
  induction l with
  | nil =>
    intro ind done h
    simp only [mergeNodes, Res.ok.injEq] at h
    subst h
    simp
  | cons q l ih =>
    intro ind done h
    obtain ⟨f, s⟩ := q
    rw [mergeNodes] at h
    cases ha : vget ind s with
    | throw => rw [ha] at h; cases h
    | ub => rw [ha] at h; cases h
    | ok a =>
      rw [ha] at h
      simp only [Res.bind] at h
      have hg := vget_some ha
      have hs : s < ind.length := by
        by_contra hcon
        rw [List.getElem?_eq_none (by omega)] at hg
        cases hg
      split_ifs at h with hd
      · obtain ⟨h1, h2, h3, h4, h5⟩ := ih ind done h
        refine ⟨h1.cons _, h2, h3, h4, ?_⟩
        intro q hq
        rcases List.mem_cons.1 hq with rfl | hq
        · right; left; rw [hg, hd]
        · exact h5 q hq
      · cases hr : mergeNodes l ((ind.set f .doNotMerge).set s .doNotMerge) with
        | throw => rw [hr] at h; cases h
        | ub => rw [hr] at h; cases h
        | ok r =>
          rw [hr] at h
          simp only [Res.ok.injEq] at h
          subst h
          obtain ⟨h1, h2, h3, h4, h5⟩ := ih _ r hr
          have look : ∀ m, ((ind.set f .doNotMerge).set s .doNotMerge)[m]? =
              if s = m ∨ (f = m ∧ f < ind.length) then some .doNotMerge else ind[m]? := by
            intro m
            rw [List.getElem?_set, List.getElem?_set]
            by_cases hsm : s = m
            · subst hsm; simp [hs]
            · by_cases hfm : f = m
              · subst hfm
                by_cases hl : f < ind.length
                · simp [hsm, hl]
                · simp [hsm, hl]
              · simp [hsm, hfm]
          refine ⟨h1.cons_cons _, ?_, ?_, ?_, ?_⟩
          · intro q hq
            rcases List.mem_cons.1 hq with rfl | hq
            · rw [hg]; intro hh; cases hh; exact hd rfl
            · have := h2 q hq
              rw [look] at this
              split_ifs at this with hc
              · exact absurd rfl this
              · exact this
          · rw [List.pairwise_cons]
            refine ⟨?_, ?_⟩
            · intro q hq
              have := h2 q hq
              rw [look] at this
              split_ifs at this with hc
              · exact absurd rfl this
              · push Not at hc
                simp only
                by_cases hl : f < ind.length
                · left; intro hh; exact absurd hl (hc.2 hh.symm)
                · right; omega
            · simpa using h3
          · rw [List.pairwise_cons]
            refine ⟨?_, h4⟩
            intro q hq
            have := h2 q hq
            rw [look] at this
            split_ifs at this with hc
            · exact absurd rfl this
            · push Not at hc
              exact fun hh => hc.1 hh.symm
          · intro q hq
            rcases List.mem_cons.1 hq with rfl | hq
            · left; exact List.mem_cons_self
            · rcases h5 q hq with h6 | h6 | ⟨d, hd', h6⟩
              · left; exact List.mem_cons_of_mem _ h6
              · rw [look] at h6
                split_ifs at h6 with hc
                · right; right
                  refine ⟨(f, s), List.mem_cons_self, ?_⟩
                  rcases hc with hc | hc
                  · exact Or.inr hc
                  · exact Or.inl hc.1
                · right; left; exact h6
              · right; right
                exact ⟨d, List.mem_cons_of_mem _ hd', h6⟩

end Verif.Connect
