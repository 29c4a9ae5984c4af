import Verif.Ortho.ScheduleLemmas
import Verif.Ortho.TypesLemmas
import Verif.Faces.AdminLemmas
import Verif.Mesh.PropsLemmas
/-!
# Lemmas: undo, the types of the nodes outside the polygon, the tables after administration
-/
namespace Verif.Ortho
open Verif.Mesh
variable {K : Type} [Field K] [LinearOrder K]

/-! ## Undo -/

theorem pick_ok {α : Type} {ns : List α} : ∀ {is : List Nat}, (∀ i ∈ is, i < ns.length) → ∃ u, pick ns is = .ok u ∧ u.length = is.length
  | [], _ => ⟨[], rfl, rfl⟩
  | i :: is, h => by
    obtain ⟨u, hu, hl⟩ := pick_ok (ns := ns) (is := is) (fun j hj => h j (List.mem_cons_of_mem _ hj))
    have hi := h i List.mem_cons_self
    refine ⟨(i, ns[i]) :: u, ?_, by simp [hl]⟩
    simp only [pick]
    rw [vget_eq_ok.2 (List.getElem?_eq_getElem hi), Res.ok_bind, hu, Res.ok_bind]

theorem pick_length {α : Type} {ns : List α} : ∀ {is : List Nat} {u}, pick ns is = .ok u → u.length = is.length
  | [], u, h => by obtain rfl := Res.ok.inj h; rfl
  | i :: is, u, h => by
    simp only [pick] at h
    obtain ⟨p, _, h⟩ := Res.bind_eq_ok.1 h
    obtain ⟨r, hr, h⟩ := Res.bind_eq_ok.1 h
    obtain rfl := Res.ok.inj h
    simp [pick_length hr]

/-- Equal at the given places. -/
theorem pick_congr {α : Type} {ns ns' : List α} : ∀ {is : List Nat}, (∀ i ∈ is, ns[i]? = ns'[i]?) → pick ns is = pick ns' is
  | [], _ => rfl
  | i :: is, h => by
    simp only [pick]
    have : vget ns i = vget ns' i := by unfold vget; rw [h i List.mem_cons_self]
    rw [this, pick_congr (is := is) (fun j hj => h j (List.mem_cons_of_mem _ hj))]

theorem swapLoop_pick {α : Type} {ns : List α} : ∀ {is : List Nat} {u : List (Nat × α)} {ns' : List α}, pick ns is = .ok u → is.Nodup →
    ns'.length = ns.length → ∃ u' ns'', swapLoop u ns' = .ok (u', ns'') ∧ pick ns' is = .ok u' ∧ ns''.length = ns.length ∧
      (∀ i ∈ is, ns''[i]? = ns[i]?) ∧ ∀ i, i ∉ is → ns''[i]? = ns'[i]?
  | [], u, ns', h, _, hl => by
    obtain rfl := Res.ok.inj h
    exact ⟨[], ns', rfl, rfl, hl, by simp, fun i _ => rfl⟩
  | i :: is, u, ns', h, hnd, hl => by
    simp only [pick] at h
    obtain ⟨p, hp, h⟩ := Res.bind_eq_ok.1 h
    obtain ⟨r, hr, h⟩ := Res.bind_eq_ok.1 h
    obtain rfl := Res.ok.inj h
    have hp := vget_eq_ok.1 hp
    have hi : i < ns'.length := by rw [hl]; exact (List.getElem?_eq_some_iff.1 hp).1
    obtain ⟨hni, hnd'⟩ := List.nodup_cons.1 hnd
    obtain ⟨u', ns'', a1, a2, a3, a4, a5⟩ := swapLoop_pick (ns' := ns'.set i p) hr hnd' (by simpa using hl)
    refine ⟨(i, ns'[i]) :: u', ns'', ?_, ?_, a3, ?_, ?_⟩
    · simp only [swapLoop]
      rw [vget_eq_ok.2 (List.getElem?_eq_getElem hi), Res.ok_bind, vset_ok _ hi, Res.ok_bind, a1, Res.ok_bind]
    · simp only [pick]
      rw [vget_eq_ok.2 (List.getElem?_eq_getElem hi), Res.ok_bind, pick_congr (ns' := ns'.set i p), a2, Res.ok_bind]
      intro j hj
      rw [List.getElem?_set_ne (by rintro rfl; exact hni hj)]
    · intro j hj
      rcases List.mem_cons.1 hj with rfl | hj
      · rw [a5 j hni, List.getElem?_set_self hi, hp]
      · exact a4 j hj
    · intro j hj
      rw [List.mem_cons, not_or] at hj
      rw [a5 j hj.2, List.getElem?_set_ne (Ne.symm hj.1)]

/-- What is saved restores the nodes, if no others are changed. -/
theorem saved_swap {α : Type} {ns ns' : List α} {moved : List Nat} {u : List (Nat × α)} (h : saved ns moved = .ok u) (hnd : moved.Nodup)
    (hl : ns'.length = ns.length) (hk : ∀ i, i ∉ moved → ns'[i]? = ns[i]?) :
    ∃ u', swap u ns' = .ok (u', ns) ∧ swap u' ns = .ok (u, ns') := by
  unfold saved at h
  split at h
  · cases h
  · next hlen =>
    have key : ∀ is : List Nat, is.Nodup → is.length ≤ ns.length → (∀ i, i ∉ is → ns'[i]? = ns[i]?) → pick ns is = .ok u →
        ∃ u', swap u ns' = .ok (u', ns) ∧ swap u' ns = .ok (u, ns') := by
      intro is hnd hlen hk h
      obtain ⟨u', ns'', a1, a2, a3, a4, a5⟩ := swapLoop_pick h hnd hl
      have e1 : ns'' = ns := by
        apply List.ext_getElem?
        intro i
        by_cases hi : i ∈ is
        · exact a4 i hi
        · rw [a5 i hi, hk i hi]
      subst e1
      obtain ⟨u2, ns2, b1, b2, b3, b4, b5⟩ := swapLoop_pick (ns' := ns'') a2 hnd hl.symm
      have e2 : ns2 = ns' := by
        apply List.ext_getElem?
        intro i
        by_cases hi : i ∈ is
        · exact b4 i hi
        · rw [b5 i hi, hk i hi]
      subst e2
      rw [h] at b2
      obtain rfl := Res.ok.inj b2
      refine ⟨u', ?_, ?_⟩
      · unfold swap
        rw [if_neg (by rw [pick_length h, hl]; omega), a1]
      · unfold swap
        rw [if_neg (by rw [pick_length a2]; omega), b1]
    split at h
    · exact key _ List.nodup_range (by simp) (fun i hi => by
        rw [List.mem_range] at hi
        rw [List.getElem?_eq_none (by omega), List.getElem?_eq_none (by omega)]) h
    · exact key _ hnd (by omega) hk h

theorem saved_ok {α : Type} {ns : List α} {moved : List Nat} (hlen : moved.length ≤ ns.length) (h : ∀ i ∈ moved, i < ns.length) :
    ∃ u, saved ns moved = .ok u := by
  unfold saved
  rw [if_neg (by omega)]
  split
  · obtain ⟨u, hu, _⟩ := pick_ok (ns := ns) (is := List.range ns.length) (fun i hi => List.mem_range.1 hi)
    exact ⟨u, hu⟩
  · obtain ⟨u, hu, _⟩ := pick_ok (ns := ns) h
    exact ⟨u, hu⟩

theorem insideNodes_nodup (inside : List Bool) : (insideNodes inside).Nodup := List.nodup_range.filter _

theorem insideNodes_length (inside : List Bool) : (insideNodes inside).length ≤ inside.length := by
  unfold insideNodes
  refine Nat.le_trans (List.length_filter_le _ _) ?_
  simp

theorem mem_insideNodes {inside : List Bool} {n : Nat} : n ∈ insideNodes inside ↔ inside[n]? = some true := by
  unfold insideNodes
  rw [List.mem_filter, List.mem_range, List.getD_eq_getElem?_getD]
  constructor
  · rintro ⟨h1, h2⟩
    rw [List.getElem?_eq_getElem h1] at h2 ⊢
    simpa using h2
  · intro h
    exact ⟨(List.getElem?_eq_some_iff.1 h).1, by rw [h]; rfl⟩

/-! ## Outside the polygon -/

theorem flagOutside_length : ∀ {inside : List Bool} {types : List Int}, (flagOutside inside types).length = types.length
  | [], types => by simp [flagOutside]
  | b :: bs, [] => by simp [flagOutside]
  | b :: bs, t :: ts => by simp [flagOutside, flagOutside_length]

theorem flagOutside_get : ∀ {inside : List Bool} {types : List Int} {n : Nat} {b : Bool}, inside[n]? = some b →
    (flagOutside inside types)[n]? = (types[n]?).map (fun t => if b then t else 3)
  | [], types, n, b, h => by simp at h
  | b' :: bs, [], n, b, h => by simp [flagOutside]
  | b' :: bs, t :: ts, 0, b, h => by
    simp only [List.getElem?_cons_zero, Option.some.injEq] at h
    subst h
    simp [flagOutside]
  | b' :: bs, t :: ts, n + 1, b, h => by
    simp only [List.getElem?_cons_succ] at h
    simp only [flagOutside, List.getElem?_cons_succ]
    exact flagOutside_get h

theorem kept_refl [IsStrictOrderedRing K] (M : Metric K) (net : Net) (orig : List (Pt K)) : Kept M net orig ⟨orig, orig⟩ := by
  refine ⟨rfl, rfl, fun n _ _ => ⟨rfl, fun _ => rfl⟩, ?_⟩
  intro n p q1 q2 hB
  exact ⟨p, hB.self, fun _ => .inl ⟨0, le_refl _, zero_le_one, by simp⟩⟩

/-! ## The tables after administration -/

theorem tables_of_administrated {P : Type} {m m' : Mesh P} (hm : Manageable m) (h : Administrated m m') {numFaces : List Nat} (hf : numFaces.length = m'.edges.length) :
    Tables m'.edges m'.nodesEdges numFaces m'.nodes.length := by
  have hat : ∀ (e : Nat) p, m'.edges[e]? = some p → p = if (seg m.nodes (edgeAt m e)).isSome then edgeAt m e else noEdge := by
    intro e p hp
    rw [← h.edges e]
    unfold edgeAt
    rw [hp]; rfl
  have hseg : ∀ e, (seg m.nodes (edgeAt m e)).isSome → (edgeAt m e).1 < m.nodes.length ∧ (edgeAt m e).2 < m.nodes.length := by
    intro e he
    unfold seg at he
    split at he
    · next a b ha hb =>
      constructor
      · by_contra hc
        rw [List.getElem?_eq_none (by omega)] at ha
        simp at ha
      · by_contra hc
        rw [List.getElem?_eq_none (by omega)] at hb
        simp at hb
    · simp at he
  have hlist : ∀ (n : Nat) l, m'.nodesEdges[n]? = some l → listAt m' n = l := by
    intro n l hl
    unfold listAt
    rw [hl]; rfl
  refine ⟨by rw [h.nodesLen]; exact hm.nodesFit, by rw [h.lists, h.nodesLen], hf, ?_, ?_, ?_⟩
  · intro p hp
    obtain ⟨e, he, hep⟩ := List.mem_iff_getElem.1 hp
    have := hat e p (by rw [List.getElem?_eq_getElem he, hep])
    split at this
    · next hs =>
      right; right
      rw [this, h.nodesLen]
      exact ⟨(hseg e hs).1, (hseg e hs).2, hm.noLoop e hs⟩
    · left; rw [this]; rfl
  · intro n l hl
    rw [← hlist n l hl]
    exact h.nodup n
  · intro n l hl e
    rw [← hlist n l hl, h.mem n e]
    have hn : n < m.nodes.length := by
      have := (List.getElem?_eq_some_iff.1 hl).1
      rw [h.lists] at this; exact this
    constructor
    · rintro ⟨h1, h2⟩
      have hb := hseg e h1
      have hlt : e < m'.edges.length := by
        rw [h.edgesLen]
        by_contra hc
        have : edgeAt m e = noEdge := by unfold edgeAt; rw [List.getElem?_eq_none (by omega)]; rfl
        rw [this] at hb
        have := hm.nodesFit
        simp only [noEdge] at hb
        omega
      have he := hat e _ (List.getElem?_eq_getElem hlt)
      rw [if_pos h1] at he
      refine ⟨edgeAt m e, by rw [List.getElem?_eq_getElem hlt, he], ?_, ?_, h2⟩
      · have := hm.nodesFit; omega
      · have := hm.nodesFit; omega
    · rintro ⟨p, p1, p2, p3, p4⟩
      have := hat e p p1
      split at this
      · next hs => subst this; exact ⟨hs, p4⟩
      · rw [this] at p2; exact absurd rfl p2

end Verif.Ortho
