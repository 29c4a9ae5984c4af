import Verif.TriInterp.GeoLemmas
import Verif.TriInterp.TableLemmas
import Mathlib.Data.Finset.Range
import Mathlib.Data.Finset.Basic
import Mathlib.Data.Finset.Card
/-!
# Lemmas: the search from triangle to triangle
-/
namespace Verif.TriInterp
open Verif.Mesh
open Verif.Polygons (Pt area2 OnSegment InBox sides inPolygonNodes)
open Verif.Sampling (Spot)

theorem vget_some {α : Type} {l : List α} {i : Nat} {a : α} (h : l[i]? = some a) : vget l i = .ok a := by unfold vget; rw [h]

/-! ## The triangles -/

theorem triangle_eq {ss : List Spot} {t : Nat × Nat × Nat} (h : ∀ n ∈ three t, n < ss.length) :
    ∃ x, triangle ss t = .ok x ∧ ((ss[t.1]?).bind fun a => (ss[t.2.1]?).bind fun b => (ss[t.2.2]?).map fun c => (⟨a, b, c⟩ : Tri)) = some x := by
  have h1 := h t.1 (by simp [three])
  have h2 := h t.2.1 (by simp [three])
  have h3 := h t.2.2 (by simp [three])
  refine ⟨⟨ss[t.1], ss[t.2.1], ss[t.2.2]⟩, ?_, ?_⟩
  · unfold triangle
    rw [vget_ok h1, Res.ok_bind, vget_ok h2, Res.ok_bind, vget_ok h3, Res.ok_bind]
  · rw [List.getElem?_eq_getElem h1, List.getElem?_eq_getElem h2, List.getElem?_eq_getElem h3]; rfl

theorem triangles_ok {ss : List Spot} : ∀ (ts : List (Nat × Nat × Nat)), (∀ t ∈ ts, ∀ n ∈ three t, n < ss.length) →
    ∃ xs, triangles ss ts = .ok xs ∧ xs.length = ts.length ∧ ∀ f : Nat, xs[f]? = (ts[f]?).bind fun t => (ss[t.1]?).bind fun a => (ss[t.2.1]?).bind fun b =>
      (ss[t.2.2]?).map fun c => (⟨a, b, c⟩ : Tri)
  | [], _ => ⟨[], rfl, rfl, by simp⟩
  | t :: ts, h => by
    obtain ⟨x, h1, h2⟩ := triangle_eq (h t (by simp))
    obtain ⟨xs, h3, h4, h5⟩ := triangles_ok ts (fun u hu => h u (by simp [hu]))
    refine ⟨x :: xs, by rw [triangles, h1, Res.ok_bind, h3, Res.ok_bind], by simp [h4], ?_⟩
    intro f
    cases f with
    | zero =>
      rw [List.getElem?_cons_zero, List.getElem?_cons_zero]
      exact h2.symm
    | succ f =>
      rw [List.getElem?_cons_succ, List.getElem?_cons_succ]
      exact h5 f

/-- The tables belong together. -/
structure Fits (T : Tables) (ss : List Spot) (D : Data) : Prop where
  samples : D.samples = ss
  len : D.tris.length = T.faceNodes.length
  tris : ∀ f : Nat, D.tris[f]? = triAt T ss f
  faceEdges : D.faceEdges = T.faceEdges
  edgeNodes : D.edgeNodes = T.edgeNodes
  noted : Noted T.edgeNodes.length (Has T) D.edgesFaces

theorem posOf_get {ss : List Spot} {n : Nat} {a : Spot} (h : ss[n]? = some a) : posOf ss n = a.pos := by unfold posOf; rw [h]; rfl

theorem triAt_some {T : Tables} {ss : List Spot} {f : Nat} {x : Tri} (h : triAt T ss f = some x) :
    ∃ t, T.faceNodes[f]? = some t ∧ ss[t.1]? = some x.a ∧ ss[t.2.1]? = some x.b ∧ ss[t.2.2]? = some x.c := by
  unfold triAt at h
  rw [Option.bind_eq_some_iff] at h
  obtain ⟨t, h1, h⟩ := h
  rw [Option.bind_eq_some_iff] at h
  obtain ⟨a, h2, h⟩ := h
  rw [Option.bind_eq_some_iff] at h
  obtain ⟨b, h3, h⟩ := h
  rw [Option.map_eq_some_iff] at h
  obtain ⟨c, h4, rfl⟩ := h
  exact ⟨t, h1, h2, h3, h4⟩

theorem Proper.triAt_exists {T : Tables} {ss : List Spot} (hP : Proper T ss) {f : Nat} (hf : f < T.faceNodes.length) : ∃ x, triAt T ss f = some x := by
  obtain ⟨x, -, h⟩ := triangle_eq (hP.corners _ (List.getElem_mem hf))
  exact ⟨x, by unfold triAt; rw [List.getElem?_eq_getElem hf]; exact h⟩

theorem Proper.area {T : Tables} {ss : List Spot} (hP : Proper T ss) {f : Nat} {x : Tri} (h : triAt T ss f = some x) : 1 / 1000000000000 ≤ x.area := by
  obtain ⟨t, h1, h2, h3, h4⟩ := triAt_some h
  have := hP.turn t (List.mem_of_getElem? h1)
  rw [posOf_get h2, posOf_get h3, posOf_get h4] at this
  exact this

theorem Proper.area_pos {T : Tables} {ss : List Spot} (hP : Proper T ss) {f : Nat} {x : Tri} (h : triAt T ss f = some x) : 0 < x.area :=
  lt_of_lt_of_le (by norm_num) (hP.area h)

theorem Proper.turn_pos {T : Tables} {ss : List Spot} (hP : Proper T ss) {t : Nat × Nat × Nat} (h : t ∈ T.faceNodes) :
    0 < area2 (posOf ss t.1) (posOf ss t.2.1) (posOf ss t.2.2) := lt_of_lt_of_le (by norm_num) (hP.turn t h)

theorem Proper.inside_iff {T : Tables} {ss : List Spot} (hP : Proper T ss) {p : Pt} (hC : Fair T ss p) {f : Nat} {x : Tri} (h : triAt T ss f = some x) :
    inPolygonNodes x.ring p = true ↔ x.Contains p := by
  obtain ⟨t, h1, h2, h3, h4⟩ := triAt_some h
  exact inNodes_iff (hP.area_pos h) (hP.valid _ (List.mem_of_getElem? h2)) (hP.valid _ (List.mem_of_getElem? h3)) (hP.valid _ (List.mem_of_getElem? h4))
    hC.valid hC.finite (hC.fair f x h)

/-- The sides of the triangle are those of the face. -/
theorem side_positions {ss : List Spot} {t : Nat × Nat × Nat} {x : Tri} (h2 : ss[t.1]? = some x.a) (h3 : ss[t.2.1]? = some x.b)
    (h4 : ss[t.2.2]? = some x.c) : sides x.ring = (sidesOf t).map fun s => (posOf ss s.1, posOf ss s.2) := by
  rw [sides_ring]
  simp only [sidesOf, List.map_cons, List.map_nil, posOf_get h2, posOf_get h3, posOf_get h4]

/-! ## Sides and edges -/

/-- No face has a side in both directions. -/
theorem Proper.one_way {T : Tables} {ss : List Spot} (hP : Proper T ss) {t : Nat × Nat × Nat} (h : t ∈ T.faceNodes) {s : Nat × Nat} (h1 : s ∈ sidesOf t)
    (h2 : s.swap ∈ sidesOf t) : False := by
  have hA := hP.turn_pos h
  obtain ⟨i, j, k⟩ := t
  obtain ⟨u, v⟩ := s
  simp only [sidesOf, Prod.swap, List.mem_cons, Prod.mk.injEq, List.not_mem_nil, or_false] at h1 h2
  have e1 : i ≠ j := by rintro rfl; simp only [area2] at hA; linarith
  have e2 : j ≠ k := by rintro rfl; simp only [area2] at hA; linarith
  have e3 : k ≠ i := by rintro rfl; simp only [area2] at hA; linarith
  rcases h1 with ⟨rfl, rfl⟩ | ⟨rfl, rfl⟩ | ⟨rfl, rfl⟩ <;> rcases h2 with ⟨a, b⟩ | ⟨a, b⟩ | ⟨a, b⟩ <;> first | exact e1 a | exact e1 b | exact e1 a.symm | exact e1 b.symm | exact e2 a | exact e2 b | exact e2 a.symm | exact e2 b.symm | exact e3 a | exact e3 b | exact e3 a.symm | exact e3 b.symm

theorem Has.face {T : Tables} {ss : List Spot} (hP : Proper T ss) {f e : Nat} (h : Has T f e) :
    ∃ t s, T.faceNodes[f]? = some t ∧ s ∈ sidesOf t ∧ Ends T e s := by
  obtain ⟨es, h1, h2⟩ := h
  have hf : f < T.faceNodes.length := by
    rw [← hP.lengths]
    exact (List.getElem?_eq_some_iff.1 h1).1
  obtain ⟨s, h3, h4⟩ := (hP.edges f _ es (List.getElem?_eq_getElem hf) h1).1 e h2
  exact ⟨_, s, List.getElem?_eq_getElem hf, h3, h4⟩

theorem Ends.swap {T : Tables} {e : Nat} {s : Nat × Nat} (h : Ends T e s) : Ends T e s.swap := by
  unfold Ends at *
  rw [Prod.swap_swap]
  exact h.symm

theorem Ends.lt {T : Tables} {e : Nat} {s : Nat × Nat} (h : Ends T e s) : e < T.edgeNodes.length := by
  rcases h with h | h
  · exact (List.getElem?_eq_some_iff.1 h).1
  · exact (List.getElem?_eq_some_iff.1 h).1

theorem Proper.two {T : Tables} {ss : List Spot} (hP : Proper T ss) (e f g h : Nat) (hf : Has T f e) (hg : Has T g e) (hh : Has T h e) :
    f = g ∨ g = h ∨ f = h := by
  by_contra hc
  push Not at hc
  obtain ⟨tf, s, h1, h2, h3⟩ := Has.face hP hf
  obtain ⟨tg, -, g1, -, -⟩ := Has.face hP hg
  obtain ⟨th, -, k1, -, -⟩ := Has.face hP hh
  have a1 := hP.shared f g tf tg e s hc.1 h1 g1 hf hg h2 h3
  have a2 := hP.shared f h tf th e s hc.2.2 h1 k1 hf hh h2 h3
  have a3 := hP.shared g h tg th e s.swap hc.2.1 g1 k1 hg hh a1 h3.swap
  rw [Prod.swap_swap] at a3
  exact hP.one_way (List.mem_of_getElem? k1) a3 a2

theorem Proper.data {T : Tables} {ss : List Spot} (hP : Proper T ss) :
    ∃ ef xs, edgesFaces T = .ok ef ∧ triangles ss T.faceNodes = .ok xs ∧ Fits T ss ⟨ss, xs, T.faceEdges, T.edgeNodes, ef⟩ := by
  obtain ⟨ef, h1, h2⟩ := edgesFaces_ok (T := T) (by rw [hP.lengths]; exact hP.few) (fun es hes => ⟨hP.distinct es hes, fun e he => by
    obtain ⟨f, hf⟩ := List.mem_iff_getElem?.1 hes
    obtain ⟨_, _, _, _, h⟩ := Has.face hP ⟨es, hf, he⟩
    exact h.lt⟩) hP.two
  obtain ⟨xs, h3, h4, h5⟩ := triangles_ok T.faceNodes hP.corners
  exact ⟨ef, xs, h1, h3, ⟨rfl, h4, h5, rfl, rfl, h2⟩⟩

theorem cuts_eq {T : Tables} {ss : List Spot} {D : Data} (hF : Fits T ss D) {e : Nat} {s : Nat × Nat} (h : Ends T e s) (h1 : s.1 < ss.length)
    (h2 : s.2 < ss.length) (c p : Pt) : cuts D c p e = .ok (Cross.crossing c p (posOf ss s.1) (posOf ss s.2)) := by
  unfold cuts
  rw [hF.edgeNodes, hF.samples, posOf_get (List.getElem?_eq_getElem h1), posOf_get (List.getElem?_eq_getElem h2)]
  rcases h with h | h
  · rw [vget_some h, Res.ok_bind, vget_ok h1, Res.ok_bind, vget_ok h2, Res.ok_bind]
  · rw [vget_some h, Res.ok_bind]
    simp only [Prod.fst_swap, Prod.snd_swap]
    rw [vget_ok h2, Res.ok_bind, vget_ok h1, Res.ok_bind, crossing_swap]

/-- Over which edge the search goes on. -/
theorem leave_found {D : Data} {c p : Pt} {t : Nat} (b : Nat → Bool) (F : Nat → Nat × Nat) : ∀ (es : List Nat),
    (∀ e ∈ es, vget D.edgesFaces e = .ok (F e) ∧ (F e).2 ≠ 0 ∧ cuts D c p e = .ok (b e)) → (∃ e ∈ es, b e = true) →
    ∃ e ∈ es, b e = true ∧ leave D c p t es = .ok (if t = (F e).1 then (F e).2 else (F e).1)
  | [], _, h => by simp at h
  | e :: es, h, hex => by
    obtain ⟨h1, h2, h3⟩ := h e (by simp)
    rw [leave, h1, Res.ok_bind, if_neg h2, h3, Res.ok_bind]
    by_cases hb : b e = true
    · exact ⟨e, by simp, hb, by rw [if_pos hb]⟩
    · obtain ⟨d, g1, g2, g3⟩ := leave_found b F es (fun d hd => h d (by simp [hd])) (by
        obtain ⟨d, hd, hbd⟩ := hex
        rcases List.mem_cons.1 hd with rfl | hd
        · exact absurd hbd hb
        · exact ⟨d, hd, hbd⟩)
      exact ⟨d, by simp [g1], g2, by rw [if_neg hb]; exact g3⟩

theorem Proper.corner_lt {T : Tables} {ss : List Spot} (hP : Proper T ss) {t : Nat × Nat × Nat} (h : t ∈ T.faceNodes) {s : Nat × Nat} (hs : s ∈ sidesOf t) :
    s.1 < ss.length ∧ s.2 < ss.length := by
  have h1 := hP.corners t h t.1 (by simp [three])
  have h2 := hP.corners t h t.2.1 (by simp [three])
  have h3 := hP.corners t h t.2.2 (by simp [three])
  simp only [sidesOf, List.mem_cons, List.not_mem_nil, or_false] at hs
  rcases hs with rfl | rfl | rfl
  · exact ⟨h1, h2⟩
  · exact ⟨h2, h3⟩
  · exact ⟨h3, h1⟩

/-- One step: over an edge behind which the location lies. -/
theorem step {T : Tables} {ss : List Spot} {D : Data} (hP : Proper T ss) (hF : Fits T ss D) {p : Pt} (hC : Clear T ss p) {f : Nat} {x : Tri}
    {t es : Nat × Nat × Nat} (hx : triAt T ss f = some x) (ht : T.faceNodes[f]? = some t) (hes : T.faceEdges[f]? = some es) (hout : ¬ x.Contains p) :
    ∃ e s, Has T f e ∧ s ∈ sidesOf t ∧ Ends T e s ∧ area2 (posOf ss s.1) (posOf ss s.2) p < 0 ∧
      ((∃ g, g ≠ f ∧ Has T g e ∧ leave D x.centre p f (three es) = .ok g) ∨
        ((∀ g, Has T g e → g = f) ∧ leave D x.centre p f (three es) = .ok missing)) := by
  have hA := hP.area_pos hx
  obtain ⟨t', ht', h2, h3, h4⟩ := triAt_some hx
  rw [ht] at ht'
  cases ht'
  have hmem := List.mem_of_getElem? ht
  have hsides := side_positions h2 h3 h4
  obtain ⟨e1, e2⟩ := hP.edges f t es ht hes
  obtain ⟨q1, q2, q3⟩ := heart_areas x
  have q1' : 0 < area2 x.b.pos x.c.pos (heart x) := by rw [q1]; linarith
  have q2' : 0 < area2 x.c.pos x.a.pos (heart x) := by rw [q2]; linarith
  have q3' : 0 < area2 x.a.pos x.b.pos (heart x) := by rw [q3]; linarith
  -- the side of each edge
  have hsd : ∀ e, ∃ s, e ∈ three es → s ∈ sidesOf t ∧ Ends T e s := fun e => by
    by_cases he : e ∈ three es
    · obtain ⟨s, hs⟩ := e1 e he
      exact ⟨s, fun _ => hs⟩
    · exact ⟨(0, 0), fun h => absurd h he⟩
  choose S hS using hsd
  have hent : ∀ e ∈ three es, ∃ q, D.edgesFaces[e]? = some q ∧ q.2 ≠ 0 ∧
      ((q = (f, missing) ∧ ∀ g, Has T g e → g = f) ∨ (q.1 = f ∧ q.2 ≠ f ∧ Has T q.2 e) ∨ (q.1 ≠ f ∧ Has T q.1 e)) := by
    intro e he
    have hl : e < D.edgesFaces.length := by rw [hF.noted.len]; exact (hS e he).2.lt
    have hfe : Has T f e := ⟨es, hes, he⟩
    refine ⟨_, List.getElem?_eq_getElem hl, ?_⟩
    rcases hF.noted.entry e _ (List.getElem?_eq_getElem hl) with ⟨-, k2⟩ | ⟨k1, k2, k3⟩ | ⟨k1, k2, k3⟩
    · exact absurd hfe (k2 f)
    · have : f = D.edgesFaces[e].1 := (k3 f).1 hfe
      refine ⟨by rw [k1]; decide, .inl ⟨?_, fun g hg => by rw [this]; exact (k3 g).1 hg⟩⟩
      rw [this, ← k1]
    · refine ⟨by omega, .inr ?_⟩
      by_cases hq : D.edgesFaces[e].1 = f
      · exact .inl ⟨hq, by omega, (k3 _).2 (.inr rfl)⟩
      · exact .inr ⟨hq, (k3 _).2 (.inl rfl)⟩
  have hFe : ∀ e, ∃ q, e ∈ three es → D.edgesFaces[e]? = some q ∧ q.2 ≠ 0 ∧
      ((q = (f, missing) ∧ ∀ g, Has T g e → g = f) ∨ (q.1 = f ∧ q.2 ≠ f ∧ Has T q.2 e) ∨ (q.1 ≠ f ∧ Has T q.1 e)) := fun e => by
    by_cases he : e ∈ three es
    · obtain ⟨q, hq⟩ := hent e he
      exact ⟨q, fun _ => hq⟩
    · exact ⟨(0, 0), fun h => absurd h he⟩
  choose F hFE using hFe
  have hmeet : ∀ s ∈ sidesOf t, Cross.Meet (heart x) p (posOf ss s.1) (posOf ss s.2) →
      Cross.crossing x.centre p (posOf ss s.1) (posOf ss s.2) = true := by
    intro s hs hm
    rw [centre_eq, Cross.crossing_iff]
    exact ⟨hm, hC.apart f x hx (posOf ss s.1, posOf ss s.2) (by rw [hsides]; exact List.mem_map.2 ⟨s, hs, rfl⟩) hm⟩
  have hexit : ∃ s ∈ sidesOf t, Cross.Meet (heart x) p (posOf ss s.1) (posOf ss s.2) := by
    have := exit (p := p) hA q3' q1' q2' (by rw [contains_iff hA] at hout; exact hout)
    rw [← posOf_get h2, ← posOf_get h3, ← posOf_get h4] at this
    rcases this with h | h | h
    · exact ⟨(t.1, t.2.1), by simp [sidesOf], h⟩
    · exact ⟨(t.2.1, t.2.2), by simp [sidesOf], h⟩
    · exact ⟨(t.2.2, t.1), by simp [sidesOf], h⟩
  have hends_pos : ∀ e s s', Ends T e s → Ends T e s' → Cross.crossing x.centre p (posOf ss s.1) (posOf ss s.2) =
      Cross.crossing x.centre p (posOf ss s'.1) (posOf ss s'.2) := by
    intro e s s' a b
    have : s = s' ∨ s = s'.swap := by
      rcases a with a | a <;> rcases b with b | b <;> rw [a] at b <;> have b := Option.some.inj b
      · exact .inl b
      · exact .inr b
      · right; rw [← b, Prod.swap_swap]
      · left; rw [← Prod.swap_swap s, b, Prod.swap_swap]
    rcases this with rfl | rfl
    · rfl
    · exact crossing_swap _ _ _ _
  obtain ⟨e, he, hb, hl⟩ := leave_found (D := D) (c := x.centre) (p := p) (t := f)
    (fun e => Cross.crossing x.centre p (posOf ss (S e).1) (posOf ss (S e).2)) F (three es)
    (fun e he => ⟨vget_some (hFE e he).1, (hFE e he).2.1,
      cuts_eq hF (hS e he).2 (hP.corner_lt hmem (hS e he).1).1 (hP.corner_lt hmem (hS e he).1).2 _ _⟩)
    (by
      obtain ⟨s, hs, hm⟩ := hexit
      obtain ⟨e, he, hee⟩ := e2 s hs
      exact ⟨e, he, by rw [← hends_pos e s (S e) hee (hS e he).2]; exact hmeet s hs hm⟩)
  obtain ⟨k1, k2⟩ := hS e he
  have hm := ((Cross.crossing_iff _ _ _ _).1 hb).1
  rw [centre_eq] at hm
  have hpos : 0 < area2 (posOf ss (S e).1) (posOf ss (S e).2) (heart x) := by
    simp only [sidesOf, List.mem_cons, List.not_mem_nil, or_false] at k1
    rcases k1 with h | h | h <;> rw [h]
    · rw [posOf_get h2, posOf_get h3]; exact q3'
    · rw [posOf_get h3, posOf_get h4]; exact q1'
    · rw [posOf_get h4, posOf_get h2]; exact q2'
  obtain ⟨b1, b2⟩ := beyond hpos hm
  refine ⟨e, S e, ⟨es, hes, he⟩, k1, k2, lt_of_le_of_ne b1 fun h0 => hout (onSide_contains (s := (posOf ss (S e).1, posOf ss (S e).2))
    (by rw [hsides]; exact List.mem_map.2 ⟨_, k1, rfl⟩) (b2 h0)), ?_⟩
  rcases (hFE e he).2.2 with ⟨g1, g2⟩ | ⟨g1, g2, g3⟩ | ⟨g1, g2⟩
  · right
    refine ⟨g2, ?_⟩
    rw [hl, g1, if_pos rfl]
  · left
    exact ⟨_, g2, g3, by rw [hl, if_pos g1.symm]⟩
  · left
    exact ⟨_, g1, g2, by rw [hl, if_neg (Ne.symm g1)]⟩

/-! ## The end of the search -/

/-- The height of the plane of a face above a location. -/
def height (T : Tables) (ss : List Spot) (h : Nat → ℚ) (p : Pt) (f : Nat) : ℚ := plane (posOf ss) h ((T.faceNodes[f]?).getD (0, 0, 0)) p

theorem side_rotate {t : Nat × Nat × Nat} {s : Nat × Nat} (hs : s ∈ sidesOf t) (P : Nat → Pt) (h : Nat → ℚ) :
    ∃ z ∈ three t, area2 (P s.1) (P s.2) (P z) = area2 (P t.1) (P t.2.1) (P t.2.2) ∧ (∀ q, plane P h (s.1, s.2, z) q = plane P h t q) ∧
      ∀ n ∈ three t, n = s.1 ∨ n = s.2 ∨ n = z := by
  obtain ⟨i, j, k⟩ := t
  simp only [sidesOf, List.mem_cons, List.not_mem_nil, or_false] at hs
  rcases hs with rfl | rfl | rfl
  · exact ⟨k, by simp [three], rfl, fun q => rfl, by simp [three]⟩
  · exact ⟨i, by simp [three], by rw [area_rotate], fun q => by rw [plane_rotate], by simp [three]; try tauto⟩
  · exact ⟨j, by simp [three], by rw [area_rotate, area_rotate], fun q => by rw [plane_rotate, plane_rotate], by simp [three]; try tauto⟩

theorem Proper.climb {T : Tables} {ss : List Spot} (hP : Proper T ss) {h : Nat → ℚ}
    (hR : ∀ f g t d, Opposite T f g t d → plane (posOf ss) h t (posOf ss d) < h d) {p : Pt} {f g e : Nat} {t : Nat × Nat × Nat} {s : Nat × Nat}
    (hfg : g ≠ f) (hf : Has T f e) (hg : Has T g e) (ht : T.faceNodes[f]? = some t) (hs : s ∈ sidesOf t) (he : Ends T e s)
    (hp : area2 (posOf ss s.1) (posOf ss s.2) p < 0) : height T ss h p f < height T ss h p g := by
  obtain ⟨t', -, ht', -, -⟩ := Has.face hP hg
  have hs' := hP.shared f g t t' e s hfg.symm ht ht' hf hg hs he
  have hA := hP.turn_pos (List.mem_of_getElem? ht)
  have hA' := hP.turn_pos (List.mem_of_getElem? ht')
  obtain ⟨z, -, a1, a2, a3⟩ := side_rotate hs (posOf ss) h
  obtain ⟨d, b0, b1, b2, -⟩ := side_rotate hs' (posOf ss) h
  simp only [Prod.fst_swap, Prod.snd_swap] at b1 b2
  rw [← a1] at hA
  rw [← b1] at hA'
  have hd : d ∉ three t := by
    intro hd
    rcases a3 d hd with rfl | rfl | rfl
    · rw [area_second] at hA'; linarith
    · rw [area_first] at hA'; linarith
    · rw [area_swap] at hA'; linarith
  have hop := hR f g t d ⟨hfg.symm, ht, ⟨e, hf, hg⟩, t', ht', b0, hd⟩
  unfold height
  rw [ht, ht']
  simp only [Option.getD_some]
  rw [← a2] at hop
  rw [← a2, ← b2]
  exact plane_lt hA hA' hop hp

/-- The faces whose planes are higher above the location. -/
def above (T : Tables) (ss : List Spot) (h : Nat → ℚ) (p : Pt) (f : Nat) : Finset Nat :=
  (Finset.range T.faceNodes.length).filter fun g => height T ss h p f < height T ss h p g

theorem above_lt {T : Tables} {ss : List Spot} {h : Nat → ℚ} {p : Pt} {f g : Nat} (hg : g < T.faceNodes.length) (hfg : height T ss h p f < height T ss h p g) :
    (above T ss h p g).card < (above T ss h p f).card := by
  apply Finset.card_lt_card
  rw [Finset.ssubset_iff_of_subset]
  · refine ⟨g, ?_, ?_⟩
    · unfold above; rw [Finset.mem_filter]; exact ⟨Finset.mem_range.2 hg, hfg⟩
    · unfold above; rw [Finset.mem_filter]; exact fun hc => lt_irrefl _ hc.2
  · intro k hk
    unfold above at *
    rw [Finset.mem_filter] at *
    exact ⟨hk.1, lt_trans hfg hk.2⟩

theorem above_card {T : Tables} {ss : List Spot} {h : Nat → ℚ} {p : Pt} {f : Nat} : (above T ss h p f).card ≤ T.faceNodes.length := by
  have := Finset.card_filter_le (Finset.range T.faceNodes.length) fun g => height T ss h p f < height T ss h p g
  rw [Finset.card_range] at this
  exact this

theorem search_missing (D : Data) (p : Pt) (k : Nat) : search D p k missing = .ok none := by
  cases k with
  | zero => rfl
  | succ k => rw [search, if_neg (by simp)]

theorem Proper.outside {T : Tables} {ss : List Spot} (hP : Proper T ss) {p : Pt} {f e : Nat} {t : Nat × Nat × Nat} {s : Nat × Nat}
    (hf : Has T f e) (hone : ∀ g, Has T g e → g = f) (ht : T.faceNodes[f]? = some t) (hs : s ∈ sidesOf t) (he : Ends T e s)
    (hp : area2 (posOf ss s.1) (posOf ss s.2) p < 0) {g : Nat} {x : Tri} (hx : triAt T ss g = some x) : ¬ x.Contains p := by
  rintro ⟨v, r, a, b, h1, h2, h3, h4, h5, h6, -⟩
  have hh := hP.hull f t e s ht hf hone hs he
  obtain ⟨t', -, k2, k3, k4⟩ := triAt_some hx
  rw [area_mix h4 h5 h6] at hp
  have := mul_nonneg h1 (hh _ (List.mem_of_getElem? k2))
  have := mul_nonneg h2 (hh _ (List.mem_of_getElem? k3))
  have := mul_nonneg h3 (hh _ (List.mem_of_getElem? k4))
  linarith

theorem search_ok {T : Tables} {ss : List Spot} {D : Data} (hP : Proper T ss) (hF : Fits T ss D) {h : Nat → ℚ}
    (hR : ∀ f g t d, Opposite T f g t d → plane (posOf ss) h t (posOf ss d) < h d) {p : Pt} (hC : Clear T ss p) :
    ∀ (k f : Nat), f < T.faceNodes.length → (above T ss h p f).card < k →
      (∃ g x, search D p k f = .ok (some g) ∧ triAt T ss g = some x ∧ x.Contains p) ∨
        (search D p k f = .ok none ∧ ∀ g x, triAt T ss g = some x → ¬ x.Contains p)
  | 0, _, _, h0 => absurd h0 (Nat.not_lt_zero _)
  | k + 1, f, hf, hk => by
    obtain ⟨x, hx⟩ := hP.triAt_exists hf
    have hfm : f ≠ missing := by have := hP.few; omega
    rw [search, if_pos ⟨hfm, by rw [hF.len]; exact hf⟩, vget_some (by rw [hF.tris, hx]), Res.ok_bind]
    by_cases hin : x.Contains p
    · left
      rw [if_pos ((hP.inside_iff hC.toFair hx).2 hin)]
      exact ⟨f, x, rfl, hx, hin⟩
    · rw [if_neg (fun h => hin ((hP.inside_iff hC.toFair hx).1 h))]
      have hfe : f < T.faceEdges.length := by rw [hP.lengths]; exact hf
      have ht : T.faceNodes[f]? = some T.faceNodes[f] := List.getElem?_eq_getElem hf
      have hes : T.faceEdges[f]? = some T.faceEdges[f] := List.getElem?_eq_getElem hfe
      rw [hF.faceEdges, vget_some hes, Res.ok_bind]
      obtain ⟨e, s, k1, k2, k3, k4, k5⟩ := step hP hF hC hx ht hes hin
      rcases k5 with ⟨g, g1, g2, g3⟩ | ⟨g1, g2⟩
      · have hg : g < T.faceNodes.length := by
          obtain ⟨t', -, h1, -⟩ := Has.face hP g2
          exact (List.getElem?_eq_some_iff.1 h1).1
        have hup := hP.climb hR g1 k1 g2 ht k2 k3 k4
        have hlt := above_lt hg hup
        rw [g3, Res.ok_bind]
        exact search_ok hP hF hR hC k g hg (by omega)
      · right
        rw [g2, Res.ok_bind, search_missing]
        exact ⟨rfl, fun g y hy => hP.outside k1 g1 ht k2 k3 k4 hy⟩

/-! ## What is found contains the location -/

theorem leave_ok {D : Data} {c p : Pt} {t : Nat} : ∀ (es : List Nat), (∀ e ∈ es, ∃ q b, vget D.edgesFaces e = .ok q ∧ cuts D c p e = .ok b) →
    ∃ g, leave D c p t es = .ok g
  | [], _ => ⟨t, rfl⟩
  | e :: es, h => by
    obtain ⟨q, b, h1, h2⟩ := h e (by simp)
    obtain ⟨g, hg⟩ := leave_ok (t := t) es fun d hd => h d (by simp [hd])
    rw [leave, h1, Res.ok_bind, h2, Res.ok_bind]
    by_cases h0 : q.2 = 0
    · exact ⟨g, by rw [if_pos h0, hg]⟩
    · rw [if_neg h0]
      cases b
      · exact ⟨g, by rw [if_neg Bool.false_ne_true, hg]⟩
      · exact ⟨_, if_pos rfl⟩

theorem search_sound {T : Tables} {ss : List Spot} {D : Data} (hP : Proper T ss) (hF : Fits T ss D) (p : Pt) :
    ∀ (k f : Nat), ∃ r, search D p k f = .ok r ∧ ∀ g, r = some g → ∃ x, triAt T ss g = some x ∧ inPolygonNodes x.ring p = true
  | 0, _ => ⟨none, rfl, by simp⟩
  | k + 1, f => by
    rw [search]
    by_cases hf : f ≠ missing ∧ f < D.tris.length
    · have hfl : f < T.faceNodes.length := by rw [← hF.len]; exact hf.2
      obtain ⟨x, hx⟩ := hP.triAt_exists hfl
      rw [if_pos hf, vget_some (by rw [hF.tris, hx]), Res.ok_bind]
      by_cases hin : inPolygonNodes x.ring p = true
      · rw [if_pos hin]
        refine ⟨_, rfl, fun g hg => ?_⟩
        cases hg
        exact ⟨x, hx, hin⟩
      · rw [if_neg hin]
        have hes : T.faceEdges[f]? = some (T.faceEdges[f]'(by rw [hP.lengths]; exact hfl)) := List.getElem?_eq_getElem _
        rw [hF.faceEdges, vget_some hes, Res.ok_bind]
        obtain ⟨g, hg⟩ := leave_ok (D := D) (c := x.centre) (p := p) (t := f) (three (T.faceEdges[f]'(by rw [hP.lengths]; exact hfl))) (by
          intro e he
          obtain ⟨t, s, k1, k2, k3⟩ := Has.face hP ⟨_, hes, he⟩
          have hl : e < D.edgesFaces.length := by rw [hF.noted.len]; exact k3.lt
          have hc := hP.corner_lt (List.mem_of_getElem? k1) k2
          exact ⟨_, _, vget_ok hl, cuts_eq hF k3 hc.1 hc.2 _ _⟩)
        rw [hg, Res.ok_bind]
        exact search_sound hP hF p k g
    · rw [if_neg hf]
      exact ⟨none, rfl, by simp⟩

end Verif.TriInterp
