import Verif.Casulli.TableLemmas
/-!
# Storing the number of a new node
-/
namespace Verif.Casulli
open Verif.Mesh Verif.Faces
variable {P : Type} {m m1 : Mesh P} {t : Tables P}

theorem edgeAt_congr (he : m1.edges = m.edges) (e : Nat) : edgeAt m1 e = edgeAt m e := by unfold edgeAt; rw [he]

theorem FaceOf.congr {s : State} {f : Nat} {ns es : List Nat} (h : FaceOf m s f ns es) (he : m1.edges = m.edges) : FaceOf m1 s f ns es :=
  ⟨h.nodes, h.edges, he ▸ h.proper⟩

theorem sideOf_congr (he : m1.edges = m.edges) (s : State) (f e : Nat) : sideOf m1 s f e = sideOf m s f e := by
  have : Forward m1 s f e = Forward m s f e := by unfold Forward; rw [edgeAt_congr he]
  unfold sideOf
  rw [this]

theorem endOf_congr (he : m1.edges = m.edges) (e v : Nat) : endOf m1 e v = endOf m e v := by
  simp only [endOf, edgeAt_congr he]

theorem Owns.fixed (h : Net m t) {x : Label} {e k k' : Nat} (h1 : Owns m t.faces x e k) (h2 : Owns m t.faces x e k') : k = k' := by
  cases h1 with
  | inside f e v a b => cases h2 with | inside f e v a' b' => rfl
  | along f e v a b c =>
    cases h2 with
    | along g e v a' b' c' =>
      obtain ⟨_, f0, q1, q2⟩ := h.rim a
      rw [q2 f b, q2 g b']

/-- The table has a row for every edge, and the places hold these values. -/
structure TableIs (m : Mesh P) (t : Tables P) (tab : List (List Nat)) (val : Label → Nat → Nat) : Prop where
  length : tab.length = m.edges.length
  rows : ∀ e, e < m.edges.length → ∃ row, tab[e]? = some row ∧ row.length = 4 ∧ (∀ x k, Owns m t.faces x e k → row[k]? = some (val x e)) ∧
    (edgeAt m e = noEdge → row = [missing, missing, missing, missing])

theorem TableIs.congr {tab : List (List Nat)} {val val' : Label → Nat → Nat} (h : TableIs m t tab val) (hv : ∀ x e k, Owns m t.faces x e k → val' x e = val x e) :
    TableIs m t tab val' := by
  refine ⟨h.length, fun e he => ?_⟩
  obtain ⟨row, h1, h2, h3, h4⟩ := h.rows e he
  exact ⟨row, h1, h2, fun x k hx => by rw [hv x e k hx]; exact h3 x k hx, h4⟩

theorem TableIs.slot {tab : List (List Nat)} {val : Label → Nat → Nat} (h : TableIs m t tab val) (hn : Net m t) {x : Label} {e k : Nat}
    (ho : Owns m t.faces x e k) : slot tab e k = .ok (val x e) := by
  obtain ⟨row, h1, h2, h3, h4⟩ := h.rows e (used_lt (ho.used hn))
  unfold Casulli.slot
  rw [vget_eq_ok.2 h1, Res.ok_bind, vget_eq_ok.2 (h3 x k ho)]

theorem fill_ok {tab : List (List Nat)} {val : Label → Nat → Nat} (h : TableIs m t tab val) (hn : Net m t) {x : Label} {e k : Nat} (new : Nat)
    (ho : Owns m t.faces x e k) (hm : val x e = missing) :
    ∃ tab', fill e k new tab = .ok tab' ∧ TableIs m t tab' (fun y d => if y = x ∧ d = e then new else val y d) := by
  have hu := ho.used hn
  have he := used_lt hu
  obtain ⟨row, h1, h2, h3, h4⟩ := h.rows e he
  have hk := ho.lt
  have he' : e < tab.length := by rw [h.length]; exact he
  refine ⟨tab.set e (row.set k new), ?_, ?_, ?_⟩
  · unfold fill
    rw [vget_eq_ok.2 h1, Res.ok_bind, vget_eq_ok.2 (h3 x k ho), Res.ok_bind, hm, if_pos rfl, vset_ok _ he']
  · rw [List.length_set]; exact h.length
  · intro d hd
    by_cases hde : d = e
    · subst hde
      refine ⟨row.set k new, by rw [List.getElem?_set_self he'], by rw [List.length_set]; exact h2, ?_, fun hc => absurd hc hu⟩
      intro y k' hy
      by_cases hyx : y = x
      · subst hyx
        rw [hy.fixed hn ho, List.getElem?_set_self (by omega), if_pos ⟨rfl, rfl⟩]
      · have hkk : k ≠ k' := fun hc => hyx (hy.unique hn ho hc.symm)
        rw [List.getElem?_set_ne hkk, if_neg (fun c => hyx c.1)]
        exact h3 y k' hy
    · obtain ⟨row', g1, g2, g3, g4⟩ := h.rows d hd
      refine ⟨row', by rw [List.getElem?_set_ne (Ne.symm hde)]; exact g1, g2, ?_, g4⟩
      intro y k' hy
      rw [if_neg (fun c => hde c.2)]
      exact g3 y k' hy

theorem fill_skip {tab : List (List Nat)} {val : Label → Nat → Nat} (h : TableIs m t tab val) (hn : Net m t) {x : Label} {e k : Nat} (new : Nat)
    (ho : Owns m t.faces x e k) (hm : val x e ≠ missing) : fill e k new tab = .ok tab := by
  obtain ⟨row, h1, h2, h3, h4⟩ := h.rows e (used_lt (ho.used hn))
  unfold fill
  rw [vget_eq_ok.2 h1, Res.ok_bind, vget_eq_ok.2 (h3 x k ho), Res.ok_bind, if_neg hm]

/-- Store the number of the node in the corner of a face. -/
theorem store_inside (hn : Net m t) (he : m1.edges = m.edges) {f v e1 e2 : Nat} {ns es : List Nat} (hf : FaceOf m t.faces f ns es) (h12 : e1 ≠ e2)
    (h1 : e1 ∈ es) (h2 : e2 ∈ es) (t1 : touches (edgeAt m e1) v) (t2 : touches (edgeAt m e2) v)
    (hall : ∀ e ∈ es, touches (edgeAt m e) v → e = e1 ∨ e = e2) {tab : List (List Nat)} {val : Label → Nat → Nat} (h : TableIs m t tab val) (new : Nat)
    (hm : ∀ e, val (.inside f v) e = missing) :
    ∃ tab', storeNewNode m1 t.faces v e1 e2 new tab = .ok tab' ∧ TableIs m t tab' (fun y d => if y = .inside f v then new else val y d) := by
  have b1 := hf.borders h1
  have b2 := hf.borders h2
  have u1 := used_lt (hf.used h1)
  have u2 := used_lt (hf.used h2)
  obtain ⟨c1, p1, l1, _, _, _, _, m1', f1⟩ := hn.places u1
  obtain ⟨c2, p2, l2, _, _, _, _, m2', f2⟩ := hn.places u2
  have hcom : commonFace l1 l2 = f := commonFace_ok ((m1' f).2 b1) ((m2' f).2 b2) (fun g g1 g2 => by
    by_contra hne
    exact h12 (hn.once g f e1 e2 hne ((m1' g).1 g1) b1 ((m2' g).1 g2) b2))
  have o1 := Owns.inside (m := m) (s := t.faces) f e1 v b1 t1
  have o2 := Owns.inside (m := m) (s := t.faces) f e2 v b2 t2
  obtain ⟨tab1, q1, q2⟩ := fill_ok h hn new o1 (hm e1)
  obtain ⟨tab2, q3, q4⟩ := fill_ok q2 hn new o2 (by rw [if_neg (fun c => h12 c.2.symm)]; exact hm e2)
  refine ⟨tab2, ?_, q4.congr ?_⟩
  · unfold storeNewNode
    rw [f1, Res.ok_bind, f2, Res.ok_bind, hcom]
    simp only
    rw [if_neg (Nat.ne_of_lt (hn.borders_lt b1)), isLeftOrRight_ok (hf.congr he) h1, Res.ok_bind, isLeftOrRight_ok (hf.congr he) h2, Res.ok_bind,
      isStartOrEnd_ok (by rw [he]; exact u1) (by rw [edgeAt_congr he]; exact t1), Res.ok_bind,
      isStartOrEnd_ok (by rw [he]; exact u2) (by rw [edgeAt_congr he]; exact t2), Res.ok_bind, if_neg h12, if_neg h12,
      place_eq (endOf_lt ..) (sideOf_lt ..), place_eq (endOf_lt ..) (sideOf_lt ..), sideOf_congr he, sideOf_congr he, endOf_congr he, endOf_congr he,
      q1, Res.ok_bind, q3]
  · intro y d k ho
    by_cases hy : y = .inside f v
    · subst hy
      rw [if_pos rfl]
      cases ho with
      | inside _ _ _ a b =>
        obtain ⟨ns', es', g1, g2⟩ := hn.face_borders a
        have := g1.edges
        rw [hf.edges] at this
        obtain rfl := Option.some.inj this
        rcases hall d g2 b with rfl | rfl
        · simp
        · simp
    · rw [if_neg hy, if_neg (fun c => hy c.1), if_neg (fun c => hy c.1)]

/-- Store the number of a node on a boundary edge. -/
theorem store_along (hn : Net m t) (he : m1.edges = m.edges) {e v : Nat} (hr : Rim t.faces e) (hv : touches (edgeAt m e) v)
    {tab : List (List Nat)} {val : Label → Nat → Nat} (h : TableIs m t tab val) (new : Nat) (hnew : new ≠ missing) (hm : ∀ d, val (.along e v) d = missing) :
    ∃ tab', storeNewNode m1 t.faces v e e new tab = .ok tab' ∧ TableIs m t tab' (fun y d => if y = .along e v then new else val y d) := by
  obtain ⟨hu, f, hb, hone⟩ := hn.rim hr
  have u1 := used_lt hu
  obtain ⟨c1, p1, l1, _, _, _, _, m1', f1⟩ := hn.places u1
  obtain ⟨ns, es, hf, hes⟩ := hn.face_borders hb
  have hcom : commonFace l1 l1 = f := commonFace_ok ((m1' f).2 hb) ((m1' f).2 hb) (fun g g1 _ => hone g ((m1' g).1 g1))
  have o1 := Owns.along (m := m) (s := t.faces) f e v hr hb hv
  obtain ⟨tab1, q1, q2⟩ := fill_ok h hn new o1 (hm e)
  have q3 := fill_skip q2 hn new o1 (by rw [if_pos ⟨rfl, rfl⟩]; exact hnew)
  refine ⟨tab1, ?_, q2.congr ?_⟩
  · have hp : place (endOf m e v) (oneMinus (sideOf m t.faces f e)) = endOf m e v + 2 * sideOf m t.faces f e := by
      have := sideOf_lt m t.faces f e
      rw [oneMinus_side, place_eq (endOf_lt ..) (by omega)]
      omega
    unfold storeNewNode
    rw [f1, Res.ok_bind, Res.ok_bind, hcom]
    simp only
    rw [if_neg (Nat.ne_of_lt (hn.borders_lt hb)), isLeftOrRight_ok (hf.congr he) hes, Res.ok_bind, Res.ok_bind,
      isStartOrEnd_ok (by rw [he]; exact u1) (by rw [edgeAt_congr he]; exact hv), Res.ok_bind, Res.ok_bind, if_true,
      sideOf_congr he, endOf_congr he, hp, q1, Res.ok_bind, q3]
  · intro y d k ho
    by_cases hy : y = .along e v
    · subst hy
      cases ho with
      | along g _ _ a b c => simp
    · rw [if_neg hy, if_neg (fun c => hy c.1)]

end Verif.Casulli
