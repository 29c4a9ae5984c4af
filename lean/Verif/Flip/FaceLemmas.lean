import Verif.Flip.Lemmas
/-!
# Lemmas: the faces after a flip
-/
namespace Verif.Flip
open Verif.Mesh Verif.Faces
open Verif.Polygons (Pt)

theorem places_replace {c : Nat} {p : Nat × Nat} {l : List Nat} (h : Places c p l) (hn : l.Nodup) {g f : Nat} (hg : g ∈ l) (hf : f ∉ l) :
    ∃ l', Places c (if p.1 = g then (f, p.2) else (p.1, f)) l' ∧ l'.Nodup ∧ ∀ k, k ∈ l' ↔ k = f ∨ (k ≠ g ∧ k ∈ l) := by
  cases h with
  | none => cases hg
  | one x =>
    simp only [List.mem_cons, List.not_mem_nil, or_false] at hg hf
    subst hg
    rw [if_pos rfl]
    refine ⟨[f], .one f, by simp, fun k => ?_⟩
    simp
  | two x y =>
    simp only [List.nodup_cons, List.mem_cons, List.not_mem_nil, or_false, not_false_eq_true, List.nodup_nil, and_true, not_or] at hg hf hn
    obtain ⟨hf1, hf2⟩ := hf
    by_cases hx : x = g
    · subst hx
      rw [if_pos rfl]
      refine ⟨[f, y], .two f y, by simp [hf2], fun k => ?_⟩
      simp only [List.mem_cons, List.not_mem_nil, or_false]
      constructor
      · rintro (h | rfl)
        · exact Or.inl h
        · exact Or.inr ⟨Ne.symm hn, Or.inr rfl⟩
      · rintro (h | ⟨h1, h2 | h2⟩)
        · exact Or.inl h
        · exact absurd h2 h1
        · exact Or.inr h2
    · rw [if_neg hx]
      have hy : y = g := by rcases hg with h | h <;> [exact absurd h.symm hx; exact h.symm]
      subst hy
      refine ⟨[x, f], .two x f, by simp [Ne.symm hf1], fun k => ?_⟩
      simp only [List.mem_cons, List.not_mem_nil, or_false]
      constructor
      · rintro (rfl | h)
        · exact Or.inr ⟨hn, Or.inl rfl⟩
        · exact Or.inl h
      · rintro (h | ⟨h1, h2 | h2⟩)
        · exact Or.inr h
        · exact Or.inl h2
        · exact absurd h2 h1

theorem Places.first_mem {c : Nat} {p : Nat × Nat} {l : List Nat} (h : Places c p l) (h1 : p.1 ≠ missing) : p.1 ∈ l := by
  cases h with
  | none => exact absurd rfl h1
  | one => simp
  | two => simp

theorem Places.two_of {c : Nat} {p : Nat × Nat} {l : List Nat} (h : Places c p l) (h2 : p.2 ≠ missing) : c = 2 ∧ l = [p.1, p.2] := by
  cases h with
  | none => exact absurd rfl h2
  | one => exact absurd rfl h2
  | two => exact ⟨rfl, rfl⟩

theorem perm_three {a b c d e f : Nat} (h : List.Perm [a, b, c] [d, e, f]) (x : Nat) : (x = a ∨ x = b ∨ x = c) ↔ (x = d ∨ x = e ∨ x = f) := by
  simpa using h.mem_iff (a := x)

/-- The two triangles of an edge that is to be flipped. -/
structure Quad (edges : List Edge) (s : State) (e a b l r f g al bl ar br : Nat) (nf ef ng eg : List Nat) : Prop where
  edge : edges[e]? = some (a, b)
  places : s.edgesFaces[e]? = some (f, g)
  nodesF : s.facesNodes[f]? = some nf
  edgesF : s.facesEdges[f]? = some ef
  nodesG : s.facesNodes[g]? = some ng
  edgesG : s.facesEdges[g]? = some eg
  ne : f ≠ g
  left : Triangle edges nf ef e a b l al bl
  right : Triangle edges ng eg e a b r ar br
  apart : l ≠ r

theorem Quad.edges_ne {edges : List Edge} {s : State} {e a b l r f g al bl ar br : Nat} {nf ef ng eg : List Nat}
    (q : Quad edges s e a b l r f g al bl ar br nf ef ng eg) : al ≠ ar ∧ al ≠ br ∧ bl ≠ ar ∧ bl ≠ br := by
  obtain ⟨d1, d2, d3⟩ := q.left.distinct
  obtain ⟨d4, d5, d6⟩ := q.right.distinct
  have hlr := q.apart
  obtain ⟨p1, u1, v1⟩ := q.left.first
  obtain ⟨p2, u2, v2⟩ := q.left.second
  obtain ⟨p3, u3, v3⟩ := q.right.first
  obtain ⟨p4, u4, v4⟩ := q.right.second
  have key : ∀ {x y : Nat} {p p' : Edge} {c d c' d' : Nat}, edges[x]? = some p → edges[y]? = some p' → Joins p c d → Joins p' c' d' →
      (c ≠ c' ∨ d ≠ d') → (c ≠ d' ∨ d ≠ c') → x ≠ y := by
    rintro x _ p p' c d c' d' h1 h2 h3 h4 h5 h6 rfl
    rw [h1] at h2
    obtain rfl := Option.some.inj h2
    unfold Joins at h3 h4
    rcases h3 with rfl | rfl <;> rcases h4 with h | h <;> obtain ⟨k1, k2⟩ := Prod.mk.inj h <;> omega
  exact ⟨key u1 u3 v1 v3 (Or.inr hlr) (Or.inl d5), key u1 u4 v1 v4 (Or.inl d1) (Or.inl d5),
    key u2 u3 v2 v3 (Or.inl (Ne.symm d1)) (Or.inl d6), key u2 u4 v2 v4 (Or.inr hlr) (Or.inl d6)⟩

theorem side_of {edges : List Edge} {ns es : List Nat} (h3 : ns.length = 3) {x y z i j k : Nat} (hn : ns = [x, y, z]) (he : es = [i, j, k])
    {p q t : Edge} (h0 : edges[i]? = some p) (k0 : Joins p x y) (h1 : edges[j]? = some q) (k1 : Joins q y z) (h2 : edges[k]? = some t)
    (k2 : Joins t z x) (d : x ≠ y ∧ x ≠ z ∧ y ≠ z) (d' : i ≠ j ∧ i ≠ k ∧ j ≠ k) : Proper edges ns es := by
  subst hn he
  obtain ⟨d1, d2, d3⟩ := d
  obtain ⟨e1, e2, e3⟩ := d'
  refine ⟨by simp, by simp, rfl, by simp [d1, d2, d3], by simp [e1, e2, e3], ?_⟩
  intro m hm
  match m, hm with
  | 0, _ => exact ⟨x, y, i, p, rfl, rfl, rfl, h0, k0⟩
  | 1, _ => exact ⟨y, z, j, q, rfl, rfl, rfl, h1, k1⟩
  | 2, _ => exact ⟨z, x, k, t, rfl, by simp, rfl, h2, k2⟩

/-- The faces after the flip. -/
def quadFaces (s : State) (e a b l r f g al bl ar br : Nat) (ef : List (Nat × Nat)) : State :=
  { s with
    facesNodes := (s.facesNodes.set f [l, r, a]).set g [l, r, b]
    facesEdges := (s.facesEdges.set f [e, ar, al]).set g [e, br, bl]
    edgesFaces := ef }

/-- Face `f` replaced by `g` at edge `x`. -/
def replaced (ef : List (Nat × Nat)) (x f g : Nat) : List (Nat × Nat) :=
  ef.set x (let p := (ef[x]?).getD (0, 0); if p.1 = f then (g, p.2) else (p.1, g))

theorem replaceFace_ok {ef : List (Nat × Nat)} {x f g : Nat} (h : x < ef.length) : replaceFace ef x f g = .ok (replaced ef x f g) := by
  unfold replaceFace replaced
  rw [vget_ok h, Res.ok_bind, vset_ok _ h]
  simp [h]

theorem flipFaces_ok {edges : List Edge} {s : State} {e a b l r f g al bl ar br : Nat} {nf ef ng eg : List Nat} (hL : Linked edges s)
    (q : Quad edges s e a b l r f g al bl ar br nf ef ng eg) :
    flipFaces (edges.set e (l, r)) s e a b l r (f, g) =
      .ok (quadFaces s e a b l r f g al bl ar br (replaced (replaced s.edgesFaces ar g f) bl f g)) := by
  obtain ⟨d1, d2, d3⟩ := q.left.distinct
  obtain ⟨d4, d5, d6⟩ := q.right.distinct
  obtain ⟨p1, u1, v1⟩ := q.left.first
  obtain ⟨p2, u2, v2⟩ := q.left.second
  obtain ⟨p3, u3, v3⟩ := q.right.first
  obtain ⟨p4, u4, v4⟩ := q.right.second
  obtain ⟨e1, e2, e3⟩ := q.left.apart
  obtain ⟨e4, e5, e6⟩ := q.right.apart
  have get : ∀ {x p}, e ≠ x → edges[x]? = some p → (edges.set e (l, r))[x]? = some p := by
    intro x p hx h
    rw [List.getElem?_set_ne hx, h]
  have ol : others (edges.set e (l, r)) e a b ef (missing, missing) = .ok (al, bl) :=
    others_perm (get e1 u1) (get e2 u2) ((Joins.touches_iff v1).2 (Or.inl rfl)) (fun h => by rcases (Joins.touches_iff v1).1 h with h | h <;> omega)
      (fun h => by rcases (Joins.touches_iff v2).1 h with h | h <;> omega) ((Joins.touches_iff v2).2 (Or.inl rfl)) e1 e2 q.left.sides
  have or : others (edges.set e (l, r)) e a b eg (missing, missing) = .ok (ar, br) :=
    others_perm (get e4 u3) (get e5 u4) ((Joins.touches_iff v3).2 (Or.inl rfl)) (fun h => by rcases (Joins.touches_iff v3).1 h with h | h <;> omega)
      (fun h => by rcases (Joins.touches_iff v4).1 h with h | h <;> omega) ((Joins.touches_iff v4).2 (Or.inl rfl)) e4 e5 q.right.sides
  have lt : ∀ {x p}, edges[x]? = some p → x < s.edgesFaces.length := by
    intro x p h
    rw [hL.edgesFaces]
    exact (List.getElem?_eq_some_iff.1 h).1
  have f1 : f < s.facesNodes.length := (List.getElem?_eq_some_iff.1 q.nodesF).1
  have f2 : f < s.facesEdges.length := (List.getElem?_eq_some_iff.1 q.edgesF).1
  have g1 : g < s.facesNodes.length := (List.getElem?_eq_some_iff.1 q.nodesG).1
  have g2 : g < s.facesEdges.length := (List.getElem?_eq_some_iff.1 q.edgesG).1
  unfold flipFaces
  simp only []
  rw [vget_eq_ok.2 q.edgesF, Res.ok_bind, vget_eq_ok.2 q.edgesG, Res.ok_bind, ol, Res.ok_bind, or, Res.ok_bind, vset_ok _ f1, Res.ok_bind,
    vset_ok _ f2, Res.ok_bind, vset_ok _ (by simpa using g1), Res.ok_bind, vset_ok _ (by simpa using g2), Res.ok_bind,
    replaceFace_ok (lt u3), Res.ok_bind, replaceFace_ok (by unfold replaced; simpa using lt u2), Res.ok_bind]
  rfl

theorem flipFaces_linked {edges : List Edge} {s : State} {e a b l r f g al bl ar br : Nat} {nf ef ng eg : List Nat} (hL : Linked edges s)
    (q : Quad edges s e a b l r f g al bl ar br nf ef ng eg) :
    Linked (edges.set e (l, r)) (quadFaces s e a b l r f g al bl ar br (replaced (replaced s.edgesFaces ar g f) bl f g)) := by
  obtain ⟨d1, d2, d3⟩ := q.left.distinct
  obtain ⟨d4, d5, d6⟩ := q.right.distinct
  obtain ⟨p1, u1, v1⟩ := q.left.first
  obtain ⟨p2, u2, v2⟩ := q.left.second
  obtain ⟨p3, u3, v3⟩ := q.right.first
  obtain ⟨p4, u4, v4⟩ := q.right.second
  obtain ⟨e1, e2, e3⟩ := q.left.apart
  obtain ⟨e4, e5, e6⟩ := q.right.apart
  obtain ⟨x1, x2, x3, x4⟩ := q.edges_ne
  have hlr := q.apart
  have hfg := q.ne
  have get : ∀ {x p}, e ≠ x → edges[x]? = some p → (edges.set e (l, r))[x]? = some p := by
    intro x p hx h
    rw [List.getElem?_set_ne hx, h]
  have helt : e < edges.length := (List.getElem?_eq_some_iff.1 q.edge).1
  have gete : (edges.set e (l, r))[e]? = some (l, r) := by simp [helt]
  have f1 : f < s.facesNodes.length := (List.getElem?_eq_some_iff.1 q.nodesF).1
  have f2 : f < s.facesEdges.length := (List.getElem?_eq_some_iff.1 q.edgesF).1
  have g1 : g < s.facesNodes.length := (List.getElem?_eq_some_iff.1 q.nodesG).1
  have g2 : g < s.facesEdges.length := (List.getElem?_eq_some_iff.1 q.edgesG).1
  -- faces of the edge itself
  obtain ⟨ce, pe, le, t1, t2, t3, t4, t5⟩ := hL.faces e helt
  have hpe : pe = (f, g) := by rw [q.places] at t2; exact (Option.some.inj t2).symm
  subst hpe
  -- what borders what, before
  have bf : ∀ x, Borders s f x ↔ (x = e ∨ x = al ∨ x = bl) := by
    intro x
    unfold Borders
    constructor
    · rintro ⟨es, h1, h2⟩
      rw [q.edgesF] at h1
      obtain rfl := Option.some.inj h1
      simpa using q.left.sides.mem_iff.1 h2
    · intro h
      exact ⟨ef, q.edgesF, q.left.sides.mem_iff.2 (by simpa using h)⟩
  have bg : ∀ x, Borders s g x ↔ (x = e ∨ x = ar ∨ x = br) := by
    intro x
    unfold Borders
    constructor
    · rintro ⟨es, h1, h2⟩
      rw [q.edgesG] at h1
      obtain rfl := Option.some.inj h1
      simpa using q.right.sides.mem_iff.1 h2
    · intro h
      exact ⟨eg, q.edgesG, q.right.sides.mem_iff.2 (by simpa using h)⟩
  have le2 : ∀ k, k ∈ le → k = f ∨ k = g := by
    intro k hk
    cases t3 with
    | none => cases hk
    | one _ => simp at hk; exact Or.inl hk
    | two _ _ => simpa using hk
  -- and after
  set s' := quadFaces s e a b l r f g al bl ar br (replaced (replaced s.edgesFaces ar g f) bl f g) with hs'
  have ef' : s'.facesEdges = (s.facesEdges.set f [e, ar, al]).set g [e, br, bl] := rfl
  have nf' : s'.facesNodes = (s.facesNodes.set f [l, r, a]).set g [l, r, b] := rfl
  have ff : s'.facesEdges[f]? = some [e, ar, al] := by
    rw [ef', List.getElem?_set_ne (Ne.symm hfg)]; simp [f2]
  have gg : s'.facesEdges[g]? = some [e, br, bl] := by rw [ef']; simp [g2]
  have oth : ∀ h, h ≠ f → h ≠ g → s'.facesEdges[h]? = s.facesEdges[h]? := by
    intro h h1 h2
    rw [ef', List.getElem?_set_ne (Ne.symm h2), List.getElem?_set_ne (Ne.symm h1)]
  have bf' : ∀ x, Borders s' f x ↔ (x = e ∨ x = ar ∨ x = al) := by
    intro x
    unfold Borders
    rw [ff]
    simp
  have bg' : ∀ x, Borders s' g x ↔ (x = e ∨ x = br ∨ x = bl) := by
    intro x
    unfold Borders
    rw [gg]
    simp
  have bo' : ∀ h x, h ≠ f → h ≠ g → (Borders s' h x ↔ Borders s h x) := by
    intro h x h1 h2
    unfold Borders
    rw [oth h h1 h2]
  have hgone : ∀ h, h ≠ f → h ≠ g → ¬ Borders s h e := by
    intro h h1 h2 hb
    rcases le2 h ((t5 h).2 hb) with h | h
    · exact h1 h
    · exact h2 h
  have efl : s'.edgesFaces = replaced (replaced s.edgesFaces ar g f) bl f g := rfl
  have efo : ∀ x, x ≠ ar → x ≠ bl → s'.edgesFaces[x]? = s.edgesFaces[x]? := by
    intro x h1 h2
    rw [efl]
    unfold replaced
    rw [List.getElem?_set_ne (Ne.symm h2), List.getElem?_set_ne (Ne.symm h1)]
  refine ⟨?_, ?_, ?_, ?_, ?_⟩
  · rw [ef', nf']; simpa using hL.lengths
  · intro h ns es h1 h2
    by_cases hg : h = g
    · subst hg
      rw [gg] at h2
      obtain rfl := Option.some.inj h2
      rw [nf'] at h1
      simp only [List.length_set, g1, List.getElem?_set_self] at h1
      obtain rfl := Option.some.inj h1
      exact side_of rfl rfl rfl gete (Or.inl rfl) (get e5 u4) (Joins.symm v4) (get e2 u2) v2 ⟨hlr, Ne.symm d3, Ne.symm d6⟩
        ⟨e5, e2, Ne.symm x4⟩
    · by_cases hf : h = f
      · subst hf
        rw [ff] at h2
        obtain rfl := Option.some.inj h2
        rw [nf', List.getElem?_set_ne (Ne.symm hg)] at h1
        simp only [f1, List.getElem?_set_self] at h1
        obtain rfl := Option.some.inj h1
        exact side_of rfl rfl rfl gete (Or.inl rfl) (get e4 u3) (Joins.symm v3) (get e1 u1) v1 ⟨hlr, Ne.symm d2, Ne.symm d5⟩
          ⟨e4, e1, Ne.symm x1⟩
      · rw [oth h hf hg] at h2
        rw [nf', List.getElem?_set_ne (Ne.symm hg), List.getElem?_set_ne (Ne.symm hf)] at h1
        have hp := hL.proper h ns es h1 h2
        refine ⟨hp.atLeast, hp.atMost, hp.len, hp.nodesDistinct, hp.edgesDistinct, ?_⟩
        intro i hi
        obtain ⟨c, d, x, p, k1, k2, k3, k4, k5⟩ := hp.sides i hi
        refine ⟨c, d, x, p, k1, k2, k3, get ?_ k4, k5⟩
        rintro rfl
        exact hgone h hf hg ⟨es, h2, List.mem_of_getElem? k3⟩
  · rw [List.length_set]; exact hL.numFaces
  · rw [List.length_set, efl]; unfold replaced; simpa using hL.edgesFaces
  · intro x hx
    rw [List.length_set] at hx
    obtain ⟨c, p, L, k1, k2, k3, k4, k5⟩ := hL.faces x hx
    have hxl : x < s.edgesFaces.length := by rw [hL.edgesFaces]; exact hx
    by_cases hxa : x = ar
    · subst hxa
      have hgL : g ∈ L := (k5 g).2 ((bg _).2 (Or.inr (Or.inl rfl)))
      have hfL : f ∉ L := fun h => by
        rcases (bf _).1 ((k5 f).1 h) with h | h | h
        · exact e4 h.symm
        · exact x1 h.symm
        · exact x3 h.symm
      obtain ⟨L', m1, m2, m3⟩ := places_replace k3 k4 hgL hfL
      refine ⟨c, _, L', k1, ?_, m1, m2, ?_⟩
      · rw [efl]
        unfold replaced
        rw [List.getElem?_set_ne x3]
        simp only [hxl, List.getElem?_set_self, k2, Option.getD_some]
      · intro h
        rw [m3 h]
        by_cases hf : h = f
        · subst hf
          simp [bf']
        · by_cases hg : h = g
          · subst hg
            rw [bg']
            constructor
            · rintro (h | ⟨h, _⟩)
              · exact absurd h hf
              · exact absurd rfl h
            · rintro (h | h | h)
              · exact absurd h.symm e4
              · exact absurd h e6
              · exact absurd h.symm x3
          · rw [bo' h x hf hg, ← k5 h]
            simp [hf, hg]
    · by_cases hxb : x = bl
      · subst hxb
        have hfL : f ∈ L := (k5 f).2 ((bf _).2 (Or.inr (Or.inr rfl)))
        have hgL : g ∉ L := fun h => by
          rcases (bg _).1 ((k5 g).1 h) with h | h | h
          · exact e2 h.symm
          · exact x3 h
          · exact x4 h
        obtain ⟨L', m1, m2, m3⟩ := places_replace k3 k4 hfL hgL
        refine ⟨c, _, L', k1, ?_, m1, m2, ?_⟩
        · rw [efl]
          unfold replaced
          rw [List.getElem?_set_self (by simpa using hxl), List.getElem?_set_ne (Ne.symm x3)]
          simp only [k2, Option.getD_some]
        · intro h
          rw [m3 h]
          by_cases hf : h = g
          · subst hf
            simp [bg']
          · by_cases hg : h = f
            · subst hg
              rw [bf']
              constructor
              · rintro (h | ⟨h, _⟩)
                · exact absurd h hf
                · exact absurd rfl h
              · rintro (h | h | h)
                · exact absurd h.symm e2
                · exact absurd h x3
                · exact absurd h.symm e3
            · rw [bo' h x hg hf, ← k5 h]
              simp [hf, hg]
      · refine ⟨c, p, L, k1, by rw [efo x hxa hxb]; exact k2, k3, k4, ?_⟩
        intro h
        rw [k5 h]
        by_cases hf : h = f
        · subst hf
          rw [bf, bf']
          constructor
          · rintro (h | h | h)
            · exact Or.inl h
            · exact Or.inr (Or.inr h)
            · exact absurd h hxb
          · rintro (h | h | h)
            · exact Or.inl h
            · exact absurd h hxa
            · exact Or.inr (Or.inl h)
        · by_cases hg : h = g
          · subst hg
            rw [bg, bg']
            constructor
            · rintro (h | h | h)
              · exact Or.inl h
              · exact absurd h hxa
              · exact Or.inr (Or.inl h)
            · rintro (h | h | h)
              · exact Or.inl h
              · exact Or.inr (Or.inr h)
              · exact absurd h hxb
          · rw [bo' h x hf hg]

end Verif.Flip
