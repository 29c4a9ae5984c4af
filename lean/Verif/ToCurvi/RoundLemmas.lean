import Verif.ToCurvi.StepLemmas
/-!
# Lemmas: the whole front
-/
namespace Verif.ToCurvi
open Verif.Mesh Verif.Faces Verif.Refine Verif.Curvi
variable {P : Type} {m : Mesh P} {s : State} {f0 : Nat} {t : Front}

/-! ## Nodes stay where they are, in every run -/

theorem index_kept {t t' : Front} {n : Nat} {X : Int × Int} (h : t.index n X.1 X.2 = .ok t') (he : ∀ q, t.place n = some q → q = X) :
    Extends t.place t'.place ∧ (∀ k, k ≠ n → t'.place k = t.place k) := by
  unfold Front.index at h
  obtain ⟨is, h1, h⟩ := Res.bind_eq_ok.1 h
  obtain ⟨js, h2, h⟩ := Res.bind_eq_ok.1 h
  obtain rfl := Res.ok.inj h
  obtain ⟨g1, rfl⟩ := vset_eq_ok.1 h1
  obtain ⟨g2, rfl⟩ := vset_eq_ok.1 h2
  have hk : ∀ k, k ≠ n → Front.place { t with i := t.i.set n X.1, j := t.j.set n X.2 } k = t.place k := by
    intro k hk
    unfold Front.place
    rw [getElem?_set_eq g1, getElem?_set_eq g2, if_neg hk, if_neg hk]
  refine ⟨?_, hk⟩
  intro k r hr
  by_cases hkn : k = n
  · subst hkn
    obtain rfl := he r hr
    obtain ⟨_, _, k3, k4⟩ := place_some.1 hr
    refine place_some.2 ⟨?_, ?_, k3, k4⟩
    · simp only; rw [getElem?_set_eq g1, if_pos rfl]
    · simp only; rw [getElem?_set_eq g2, if_pos rfl]
  · rw [hk k hkn]; exact hr

theorem enter_kept {t t' : Front} {n : Nat} {i j : Int} (h : t.enter n i j = .ok t') : t'.place = t.place := by
  unfold Front.enter at h
  obtain ⟨map, _, h⟩ := Res.bind_eq_ok.1 h
  obtain rfl := Res.ok.inj h
  rfl

theorem elsewhere_false {t : Front} {x : Nat} {X : Int × Int} (h : elsewhere t (x, X.1, X.2) = .ok false) : ∀ q, t.place x = some q → q = X := by
  intro q hq
  obtain ⟨h1, h2, h3, h4⟩ := place_some.1 hq
  unfold elsewhere at h
  simp only at h
  rw [vget_eq_ok.2 h1, vget_eq_ok.2 h2] at h
  have h5 := Res.ok.inj h
  simp only [Bool.or_eq_false_iff, Bool.and_eq_false_iff, decide_eq_false_iff_not, not_not] at h5
  have h6 : q.1 = X.1 := h5.1.resolve_left h3
  have h7 : q.2 = X.2 := h5.2.resolve_left h4
  exact Prod.ext h6 h7

theorem connectionValid_kept {t t' : Front} {x : Candidate} {b : Bool} (h : connectionValid m s t x = .ok (b, t')) : t'.place = t.place := by
  unfold connectionValid at h
  simp only at h
  obtain ⟨b', _, h⟩ := Res.bind_eq_ok.1 h
  obtain ⟨_, rfl⟩ := Prod.mk.inj (Res.ok.inj h)
  rfl

theorem settle_kept {t t' : Front} {x y : Nat} {X Y : Int × Int} (hxy : x = y → X = Y) (h : settle (x, X.1, X.2) (y, Y.1, Y.2) t = .ok t')
    (hx : ∀ q, t.place x = some q → q = X) (hy : ∀ q, t.place y = some q → q = Y) : Extends t.place t'.place := by
  unfold settle at h
  obtain ⟨t1, h1, h⟩ := Res.bind_eq_ok.1 h
  obtain ⟨t2, h2, h⟩ := Res.bind_eq_ok.1 h
  obtain ⟨t3, h3, h⟩ := Res.bind_eq_ok.1 h
  obtain ⟨g1, g2⟩ := index_kept h1 hx
  have hy1 : ∀ q, t1.place y = some q → q = Y := by
    intro q hq
    by_cases hc : y = x
    · subst hc
      simp only [Front.index] at h1
      obtain ⟨is, k1, h1⟩ := Res.bind_eq_ok.1 h1
      obtain ⟨js, k2, h1⟩ := Res.bind_eq_ok.1 h1
      obtain rfl := Res.ok.inj h1
      obtain ⟨l1, rfl⟩ := vset_eq_ok.1 k1
      obtain ⟨l2, rfl⟩ := vset_eq_ok.1 k2
      obtain ⟨e1, e2, _⟩ := place_some.1 hq
      simp only at e1 e2
      rw [getElem?_set_eq l1, if_pos rfl] at e1
      rw [getElem?_set_eq l2, if_pos rfl] at e2
      rw [← hxy rfl]
      exact Prod.ext (Option.some.inj e1).symm (Option.some.inj e2).symm
    · rw [g2 y hc] at hq; exact hy q hq
  obtain ⟨g3, _⟩ := index_kept h2 hy1
  rw [enter_kept h, enter_kept h3]
  exact g1.trans g3

theorem tryNodes_kept {t : Front} {g x y : Nat} {X Y : Int × Int} (hxy : x = y → X = Y) {r : Nat × Front}
    (h : tryNodes m s g (x, X.1, X.2) (y, Y.1, Y.2) t = .ok r) : Extends t.place r.2.place := by
  unfold tryNodes at h
  obtain ⟨a, h1, h⟩ := Res.bind_eq_ok.1 h
  obtain ⟨b, h2, h⟩ := Res.bind_eq_ok.1 h
  cases a with
  | true => obtain rfl := Res.ok.inj h; exact Extends.refl _
  | false =>
    cases b with
    | true => obtain rfl := Res.ok.inj h; exact Extends.refl _
    | false =>
      rw [if_neg (by simp)] at h
      unfold tryFirst at h
      obtain ⟨⟨c1, t1⟩, h3, h⟩ := Res.bind_eq_ok.1 h
      have e1 := connectionValid_kept h3
      simp only at h
      cases c1 with
      | false => obtain rfl := Res.ok.inj h; simp only; rw [e1]; exact Extends.refl _
      | true =>
        simp only [if_true] at h
        unfold trySecond at h
        obtain ⟨⟨c2, t2⟩, h4, h⟩ := Res.bind_eq_ok.1 h
        have e2 := connectionValid_kept h4
        simp only at h
        cases c2 with
        | false => obtain rfl := Res.ok.inj h; simp only; rw [e2, e1]; exact Extends.refl _
        | true =>
          simp only [if_true] at h
          obtain ⟨t3, h5, h⟩ := Res.bind_eq_ok.1 h
          obtain rfl := Res.ok.inj h
          have := settle_kept hxy h5 (by rw [e2, e1]; exact elsewhere_false h1) (by rw [e2, e1]; exact elsewhere_false h2)
          rw [e2, e1] at this
          exact this

theorem acrossEdge_some (hf : Facts m s) {f e g : Nat} {vis : List Bool} (h : acrossEdge s f vis e = .ok (some g)) :
    Borders s g e ∧ ∃ ns, Quad s g ns := by
  unfold acrossEdge at h
  split at h
  · exact absurd (Res.ok.inj h) (by simp)
  · obtain ⟨c, h1, h⟩ := Res.bind_eq_ok.1 h
    have he : e < m.edges.length := by rw [← hf.numFaces]; exact (List.getElem?_eq_some_iff.1 (vget_eq_ok.1 h1)).1
    obtain ⟨c', p, l, k1, k2, k3, k4, k5⟩ := hf.faces e he
    rw [vget_eq_ok.1 h1] at k1
    obtain rfl := Option.some.inj k1
    split at h
    · exact absurd (Res.ok.inj h) (by simp)
    · rename_i hc
      unfold otherFace at h
      rw [vget_eq_ok.2 k2, Res.ok_bind] at h
      cases k3 with
      | none => omega
      | one => omega
      | two a b =>
        simp only at h
        obtain ⟨v, h2, h⟩ := Res.bind_eq_ok.1 h
        cases v with
        | true => exact absurd (Res.ok.inj h) (by simp)
        | false =>
          simp only [Bool.false_eq_true, if_false] at h
          obtain ⟨q, h3, h⟩ := Res.bind_eq_ok.1 h
          cases q with
          | false => exact absurd (Res.ok.inj h) (by simp)
          | true =>
            simp only [if_true] at h
            have hg := Option.some.inj (Res.ok.inj h)
            have hB : Borders s g e := by
              refine (k5 g).1 ?_
              rw [← hg]
              split <;> simp
            obtain ⟨b', j1, j2⟩ := hf.isQuad_eq hB
            rw [hg, j1] at h3
            exact ⟨hB, j2.1 (Res.ok.inj h3)⟩

/-- Lists of the same lengths. -/
def SameLen (t t' : Front) : Prop := t'.i.length = t.i.length ∧ t'.j.length = t.j.length

theorem index_len {t t' : Front} {n : Nat} {i j : Int} (h : t.index n i j = .ok t') : SameLen t t' := by
  unfold Front.index at h
  obtain ⟨is, h1, h⟩ := Res.bind_eq_ok.1 h
  obtain ⟨js, h2, h⟩ := Res.bind_eq_ok.1 h
  obtain rfl := Res.ok.inj h
  obtain ⟨g1, rfl⟩ := vset_eq_ok.1 h1
  obtain ⟨g2, rfl⟩ := vset_eq_ok.1 h2
  exact ⟨by simp, by simp⟩

theorem enter_len {t t' : Front} {n : Nat} {i j : Int} (h : t.enter n i j = .ok t') : SameLen t t' := by
  unfold Front.enter at h
  obtain ⟨map, _, h⟩ := Res.bind_eq_ok.1 h
  obtain rfl := Res.ok.inj h
  exact ⟨rfl, rfl⟩

theorem SameLen.trans {a b c : Front} (h : SameLen a b) (h' : SameLen b c) : SameLen a c := ⟨h'.1.trans h.1, h'.2.trans h.2⟩

theorem connectionValid_len {t t' : Front} {x : Candidate} {b : Bool} (h : connectionValid m s t x = .ok (b, t')) : SameLen t t' := by
  unfold connectionValid at h
  simp only at h
  obtain ⟨b', _, h⟩ := Res.bind_eq_ok.1 h
  obtain ⟨_, rfl⟩ := Prod.mk.inj (Res.ok.inj h)
  exact ⟨rfl, rfl⟩

theorem tryNodes_len {t : Front} {g : Nat} {x y : Candidate} {r : Nat × Front} (h : tryNodes m s g x y t = .ok r) : SameLen t r.2 := by
  unfold tryNodes at h
  obtain ⟨a, h1, h⟩ := Res.bind_eq_ok.1 h
  obtain ⟨b, h2, h⟩ := Res.bind_eq_ok.1 h
  cases hab : (a || b) with
  | true => rw [hab] at h; obtain rfl := Res.ok.inj h; exact ⟨rfl, rfl⟩
  | false =>
    rw [hab, if_neg (by simp)] at h
    unfold tryFirst at h
    obtain ⟨⟨c1, t1⟩, h3, h⟩ := Res.bind_eq_ok.1 h
    have e1 := connectionValid_len h3
    simp only at h
    cases c1 with
    | false => obtain rfl := Res.ok.inj h; exact e1
    | true =>
      simp only [if_true] at h
      unfold trySecond at h
      obtain ⟨⟨c2, t2⟩, h4, h⟩ := Res.bind_eq_ok.1 h
      have e2 := connectionValid_len h4
      simp only at h
      cases c2 with
      | false => obtain rfl := Res.ok.inj h; exact e1.trans e2
      | true =>
        simp only [if_true] at h
        obtain ⟨t3, h5, h⟩ := Res.bind_eq_ok.1 h
        obtain rfl := Res.ok.inj h
        unfold settle at h5
        obtain ⟨u1, k1, h5⟩ := Res.bind_eq_ok.1 h5
        obtain ⟨u2, k2, h5⟩ := Res.bind_eq_ok.1 h5
        obtain ⟨u3, k3, h5⟩ := Res.bind_eq_ok.1 h5
        exact e1.trans (e2.trans ((index_len k1).trans ((index_len k2).trans ((enter_len k3).trans (enter_len h5)))))

/-- Enough room in the lists, and it stays so; no node moves. -/
structure Kept (m : Mesh P) (t t' : Front) : Prop where
  ext : Extends t.place t'.place
  room : t'.i.length = m.nodes.length ∧ t'.j.length = m.nodes.length

theorem Kept.trans {t1 t2 t3 : Front} (h : Kept m t1 t2) (h' : Kept m t2 t3) : Kept m t1 t3 := ⟨h.ext.trans h'.ext, h'.room⟩

theorem tryFace_kept (hf : Facts m s) {e d g : Nat} (hg : Borders s g e ∧ ∃ ns, Quad s g ns) {r : Nat × Front}
    (hi : t.i.length = m.nodes.length ∧ t.j.length = m.nodes.length) (h : tryFace m s e d g t = .ok r) : Kept m t r.2 := by
  obtain ⟨hB, ns, hq⟩ := hg
  obtain ⟨a, b, y, x, h1, h2, h3, h4⟩ := tryFace_eq hf hq hB
  have hm := h1.mem
  have a1 : a < t.i.length := by rw [hi.1]; exact hf.node_lt hq hm.1
  have a2 : a < t.j.length := by rw [hi.2]; exact hf.node_lt hq hm.1
  have b1 : b < t.i.length := by rw [hi.1]; exact hf.node_lt hq hm.2.1
  have b2 : b < t.j.length := by rw [hi.2]; exact hf.node_lt hq hm.2.1
  rw [h4 d t (t.i[a], t.j[a]) (t.i[b], t.j[b]) (List.getElem?_eq_getElem a1) (List.getElem?_eq_getElem a2) (List.getElem?_eq_getElem b1)
    (List.getElem?_eq_getElem b2)] at h
  have hl := tryNodes_len h
  exact ⟨tryNodes_kept (X := (_, _)) (Y := (_, _)) (fun hc => absurd hc h3) h, hl.1.trans hi.1, hl.2.trans hi.2⟩

theorem neighbour_kept (hf : Facts m s) {f d : Nat} {loc : Int → Int → Option Nat} {vis : List Bool} {r : Nat × Front}
    (hi : t.i.length = m.nodes.length ∧ t.j.length = m.nodes.length) (h : neighbour m s f loc d vis t = .ok r) : Kept m t r.2 := by
  unfold neighbour at h
  obtain ⟨a, _, h⟩ := Res.bind_eq_ok.1 h
  obtain ⟨b, _, h⟩ := Res.bind_eq_ok.1 h
  obtain ⟨e, _, h⟩ := Res.bind_eq_ok.1 h
  obtain ⟨g, h1, h⟩ := Res.bind_eq_ok.1 h
  cases g with
  | none => obtain rfl := Res.ok.inj h; exact ⟨Extends.refl _, hi⟩
  | some g => exact tryFace_kept hf (acrossEdge_some hf h1) hi h

theorem spread_kept (hf : Facts m s) {f d : Nat} {loc : Int → Int → Option Nat} {vis : List Bool} {w w' : Work}
    (hi : w.2.i.length = m.nodes.length ∧ w.2.j.length = m.nodes.length) (h : spread m s f loc vis d w = .ok w') : Kept m w.2 w'.2 := by
  unfold spread at h
  obtain ⟨r, h1, h⟩ := Res.bind_eq_ok.1 h
  obtain rfl := Res.ok.inj h
  exact neighbour_kept hf hi h1

theorem four {σ : Type} (F : Nat → σ → Res σ) (w : σ) : forRange 0 4 F w = (do
    let w1 ← F 0 w
    let w2 ← F 1 w1
    let w3 ← F 2 w2
    F 3 w3) := by
  simp only [forRange, Nat.sub_zero, loopN, Nat.zero_add, Nat.reduceAdd]
  cases F 0 w with
  | ok w1 =>
    simp only [Res.ok_bind]
    cases F 1 w1 with
    | ok w2 =>
      simp only [Res.ok_bind]
      cases F 2 w2 with
      | ok w3 =>
        simp only [Res.ok_bind]
        cases F 3 w3 <;> rfl
      | throw => rfl
      | ub => rfl
    | throw => rfl
    | ub => rfl
  | throw => rfl
  | ub => rfl

theorem visit_kept (hf : Facts m s) {f : Nat} {vis : List Bool} {q : List Nat} {w : Work}
    (hi : t.i.length = m.nodes.length ∧ t.j.length = m.nodes.length) (h : visit m s f vis q t = .ok w) : Kept m t w.2 := by
  unfold visit at h
  obtain ⟨ns, _, h⟩ := Res.bind_eq_ok.1 h
  split at h
  · obtain rfl := Res.ok.inj h; exact ⟨Extends.refl _, hi⟩
  · obtain ⟨loc, _, h⟩ := Res.bind_eq_ok.1 h
    rw [four] at h
    obtain ⟨w1, h1, h⟩ := Res.bind_eq_ok.1 h
    obtain ⟨w2, h2, h⟩ := Res.bind_eq_ok.1 h
    obtain ⟨w3, h3, h⟩ := Res.bind_eq_ok.1 h
    have k1 := spread_kept (w := (q, t)) hf hi h1
    have k2 := spread_kept hf k1.room h2
    have k3 := spread_kept hf k2.room h3
    exact k1.trans (k2.trans (k3.trans (spread_kept hf k3.room h)))

theorem rounds_kept (hf : Facts m s) : ∀ (k : Nat) (q : List Nat) (vis : List Bool) (t t' : Front),
    t.i.length = m.nodes.length ∧ t.j.length = m.nodes.length → rounds m s k q vis t = .ok t' → Kept m t t'
  | 0, [], vis, t, t', hi, h => by
    simp only [rounds] at h; obtain rfl := Res.ok.inj h; exact ⟨Extends.refl _, hi⟩
  | k + 1, [], vis, t, t', hi, h => by
    simp only [rounds] at h; obtain rfl := Res.ok.inj h; exact ⟨Extends.refl _, hi⟩
  | 0, _ :: _, _, _, _, _, h => by simp [rounds] at h
  | k + 1, f :: q, vis, t, t', hi, h => by
    simp only [rounds] at h
    obtain ⟨v, _, h⟩ := Res.bind_eq_ok.1 h
    cases v with
    | true => exact rounds_kept hf k q vis t t' hi h
    | false =>
      simp only [Bool.false_eq_true, if_false] at h
      obtain ⟨w, h1, h⟩ := Res.bind_eq_ok.1 h
      have k1 := visit_kept hf hi h1
      exact k1.trans (rounds_kept hf k _ _ _ _ k1.room h)

/-! ## The face beyond an edge -/

theorem acrossEdge_eq (hf : Facts m s) {f e : Nat} {ns : List Nat} (hq : Quad s f ns) (hB : Borders s f e) {vis : List Bool}
    (hv : vis.length = s.facesNodes.length) : ∃ r, acrossEdge s f vis e = .ok r ∧ (∀ g, r = some g → ∃ ns', Next s e f g ns ns') ∧
      (∀ g ns', Next s e f g ns ns' → r = some g ∨ vis[g]? = some true) := by
  have he := hf.edge_lt hB
  obtain ⟨c, p, l, k1, k2, k3, k4, k5⟩ := hf.faces e he
  have hfl := (k5 f).2 hB
  have hem : e ≠ missing := by have := hf.wf.edgesFit; omega
  unfold acrossEdge
  rw [if_neg hem, vget_eq_ok.2 k1, Res.ok_bind]
  cases k3 with
  | none => simp at hfl
  | one a =>
    rw [if_pos (by omega)]
    refine ⟨none, rfl, by simp, ?_⟩
    intro g ns' hn
    have h1 := (k5 g).2 hn.rightSide
    simp only [List.mem_singleton] at h1 hfl
    exact absurd (hfl.trans h1.symm) hn.ne
  | two a b =>
    rw [if_neg (by omega)]
    unfold otherFace
    rw [vget_eq_ok.2 k2, Res.ok_bind]
    simp only [List.nodup_cons, List.mem_singleton, List.not_mem_nil, not_false_eq_true, List.nodup_nil, and_true] at k4
    simp only [List.mem_cons, List.not_mem_nil, or_false] at hfl k5
    obtain ⟨g0, hg0, hne, hin, hall⟩ : ∃ g0, (if f = a then b else a) = g0 ∧ f ≠ g0 ∧ (g0 = a ∨ g0 = b) ∧ ∀ g, (g = a ∨ g = b) → f ≠ g → g = g0 := by
      rcases hfl with rfl | rfl
      · exact ⟨b, by simp, k4, Or.inr rfl, fun g hg hne => hg.resolve_left (fun h => hne h.symm)⟩
      · exact ⟨a, by rw [if_neg (Ne.symm k4)], Ne.symm k4, Or.inl rfl, fun g hg hne => hg.resolve_right (fun h => hne h.symm)⟩
    have hBg := (k5 g0).1 hin
    simp only
    rw [hg0]
    have hlt : g0 < vis.length := by
      rw [hv, hf.lengths]
      obtain ⟨es, j1, _⟩ := hBg
      exact (List.getElem?_eq_some_iff.1 j1).1
    rw [vget_ok hlt, Res.ok_bind]
    cases hvis : vis[g0] with
    | true =>
      refine ⟨none, rfl, by simp, ?_⟩
      intro g ns' hn
      obtain rfl := hall g ((k5 g).2 hn.rightSide) hn.ne
      exact Or.inr (by rw [List.getElem?_eq_getElem hlt, hvis])
    | false =>
      simp only [Bool.false_eq_true, if_false]
      obtain ⟨b', j1, j2⟩ := hf.isQuad_eq hBg
      rw [j1, Res.ok_bind]
      cases b' with
      | true =>
        refine ⟨some g0, rfl, ?_, ?_⟩
        · intro g hg
          obtain rfl := Option.some.inj hg
          obtain ⟨ns', hq'⟩ := j2.1 rfl
          exact ⟨ns', hq, hq', hne, hB, hBg⟩
        · intro g ns' hn
          obtain rfl := hall g ((k5 g).2 hn.rightSide) hn.ne
          exact Or.inl rfl
      | false =>
        refine ⟨none, rfl, by simp, ?_⟩
        intro g ns' hn
        obtain rfl := hall g ((k5 g).2 hn.rightSide) hn.ne
        exact Bool.noConfusion (j2.2 ⟨ns', hn.right⟩)

/-- A face of the grid. -/
def Placed (s : State) (f0 : Nat) (place : Nat → Option (Int × Int)) (f : Nat) : Prop :=
  ∃ ns, Quad s f ns ∧ OnCell place ns ∧ Reached s place f0 f

theorem Placed.mono {a b : Nat → Option (Int × Int)} (h : Extends a b) {f : Nat} (hp : Placed s f0 a f) : Placed s f0 b f := by
  obtain ⟨ns, h1, h2, h3⟩ := hp
  exact ⟨ns, h1, h2.mono h, h3.mono h⟩

theorem neighbour_eq (hf : Facts m s) (hb : Bordered m s f0) (ht : NoTwin m s f0) (h : Inv m s f0 t) (hl : ¬ Long t.place) {f e a b c c' d : Nat}
    {ns : List Nat} {p q r r' : Int × Int} {vis : List Bool} (hv : vis.length = s.facesNodes.length) {loc : Int → Int → Option Nat}
    (hr : Reached s t.place f0 f) (hq : Quad s f ns) (hB : Borders s f e) (hA : Around ns a b c c') (hj : joins (edgeAt m e) a b)
    (ha : t.place a = some p) (hpb : t.place b = some q) (hpc : t.place c = some r') (hpd : t.place c' = some r) (hc : Cell p q r' r)
    (d1 : p.1 + (delta d).1 = 2 * p.1 - r.1 ∧ p.2 + (delta d).2 = 2 * p.2 - r.2)
    (d2 : q.1 + (delta d).1 = 2 * q.1 - r'.1 ∧ q.2 + (delta d).2 = 2 * q.2 - r'.2)
    (l1 : loc (nodeFrom d).1 (nodeFrom d).2 = some a) (l2 : loc (nodeTo d).1 (nodeTo d).2 = some b) :
    ∃ k t', neighbour m s f loc d vis t = .ok (k, t') ∧ Inv m s f0 t' ∧ Extends t.place t'.place ∧ (k ≠ missing → Placed s f0 t'.place k) ∧
      ∀ g ns', Next s e f g ns ns' → vis[g]? = some true ∨ (k ≠ missing ∧ k = g) ∨ Blocked m s t'.place e ns ns' := by
  have hm := hA.mem
  unfold neighbour
  rw [l1, l2]
  simp only [value, Res.ok_bind]
  rw [hf.findEdge_eq (hf.node_lt hq hm.1) (hf.node_ne hq hm.2.1) hj, Res.ok_bind]
  obtain ⟨g0, h1, h2, h3⟩ := acrossEdge_eq hf hq hB hv
  rw [h1, Res.ok_bind]
  cases g0 with
  | none =>
    refine ⟨missing, t, rfl, h, Extends.refl _, fun hc => absurd rfl hc, ?_⟩
    intro g ns' hn
    rcases h3 g ns' hn with hh | hh
    · simp at hh
    · exact Or.inl hh
  | some g0 =>
    obtain ⟨ns', hn⟩ := h2 g0 rfl
    obtain ⟨A, B, y, x, k1, k2, k3, k4⟩ := tryFace_eq hf hn.right hn.rightSide
    obtain ⟨C, D, p', q', R', R, j1, j2, j3, j4, j5, j6, j7, j8⟩ : ∃ (C D : Nat) (p' q' R' R : Int × Int), Around ns A B C D ∧ t.place A = some p' ∧
        t.place B = some q' ∧ t.place C = some R' ∧ t.place D = some R ∧ Cell p' q' R' R ∧
        (p'.1 + (delta d).1 = 2 * p'.1 - R.1 ∧ p'.2 + (delta d).2 = 2 * p'.2 - R.2) ∧
        (q'.1 + (delta d).1 = 2 * q'.1 - R'.1 ∧ q'.2 + (delta d).2 = 2 * q'.2 - R'.2) := by
      have : (A = a ∧ B = b) ∨ (A = b ∧ B = a) := by
        rcases k2 with g1 | g1 <;> rcases hj with g2 | g2 <;> rw [g1] at g2 <;> simp only [Prod.mk.injEq] at g2 <;> omega
      rcases this with ⟨rfl, rfl⟩ | ⟨rfl, rfl⟩
      · exact ⟨c, c', p, q, r', r, hA, ha, hpb, hpc, hpd, hc, d1, d2⟩
      · exact ⟨c', c, q, p, r, r', hA.flip, hpb, ha, hpd, hpc, hc.flip, d2, d1⟩
    obtain ⟨a1, a2, _⟩ := place_some.1 j2
    obtain ⟨b1, b2, _⟩ := place_some.1 j3
    obtain ⟨k, t', e1, e2, e3, e4⟩ := tryNodes_eq hf hb ht h hl hr hn k1 j2 j3 j6.mirror
    simp only
    rw [k4 d t p' q' a1 a2 b1 b2, j7.1, j7.2, j8.1, j8.2, e1]
    refine ⟨k, t', rfl, e2, e3, ?_, ?_⟩
    · intro hk
      rcases e4 with ⟨e5, _⟩ | ⟨rfl, e5⟩
      · exact absurd e5 hk
      · exact ⟨ns', hn.right, e5, .step e f k ns ns' (hr.mono e3) hn e5⟩
    · intro g ns2 hn2
      rcases h3 g ns2 hn2 with hh | hh
      · obtain rfl := Option.some.inj hh
        have hns : ns2 = ns' := by
          have := hn2.right.1; rw [hn.right.1] at this; exact (Option.some.inj this).symm
        subst hns
        rcases e4 with ⟨_, e6, e7⟩ | ⟨rfl, e5⟩
        · right; right
          rw [e6]
          exact ⟨A, B, C, D, x, y, p', q', R, R', j1, k1, k2, j2, j3, j4, j5, j6, e7⟩
        · right; left
          refine ⟨?_, rfl⟩
          have h8 := (List.getElem?_eq_some_iff.1 hn.right.1).1
          have := hf.fits
          omega
      · exact Or.inl hh

end Verif.ToCurvi
