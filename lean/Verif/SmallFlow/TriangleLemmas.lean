import Verif.SmallFlow.FlowLemmas
import Mathlib.Tactic.Linarith
import Mathlib.Tactic.LinearCombination
/-!
# Lemmas: finding the small triangles
-/
namespace Verif.SmallFlow
open Verif.Mesh Verif.Faces Verif.Quality
open Verif.Polygons (Pt area2 shoelace minArea)

/-! ### Sides and neighbours -/

section
variable {m : Mesh Pt} {s : State}

/-- The number of faces of an edge tells whether it is at the boundary. -/
theorem onBoundary_ok (r : Ready m s) {e : Nat} (he : e < m.edges.length) : ∃ b, onBoundary s e = .ok b ∧ (b = true ↔ BoundaryEdge s e) := by
  obtain ⟨c, p, l, h1, h2, h3, h4, h5⟩ := r.consistent.faces e he
  refine ⟨c == 1, ?_, ?_⟩
  · unfold onBoundary
    rw [vget_eq_ok.2 h1, Res.ok_bind]
  · rw [beq_iff_eq]
    cases h3 with
    | none =>
      refine ⟨fun h => (by cases h), ?_⟩
      rintro ⟨f, hf, _⟩
      exact absurd ((h5 f).2 hf) (by simp)
    | one f =>
      refine ⟨fun _ => ⟨f, (h5 f).1 (by simp), fun g hg => ?_⟩, fun _ => rfl⟩
      simpa using (h5 g).2 hg
    | two f g =>
      refine ⟨fun h => (by cases h), ?_⟩
      rintro ⟨k, _, hk⟩
      have e1 := hk f ((h5 f).1 (by simp))
      have e2 := hk g ((h5 g).1 (by simp))
      rw [e1, e2] at h4
      simp at h4

theorem anyOnBoundary_ok (r : Ready m s) (es : List Nat) (h : ∀ e ∈ es, e < m.edges.length) :
    ∃ b, anyOnBoundary s es = .ok b ∧ (b = true ↔ ∃ e ∈ es, BoundaryEdge s e) := by
  induction es with
  | nil => exact ⟨false, rfl, by simp⟩
  | cons e es ih =>
    obtain ⟨b, h1, h2⟩ := onBoundary_ok r (h e (by simp))
    rw [anyOnBoundary, h1, Res.ok_bind]
    cases b with
    | true => exact ⟨true, rfl, by simp [h2.1 rfl]⟩
    | false =>
      obtain ⟨b', g1, g2⟩ := ih (fun x hx => h x (List.mem_cons_of_mem _ hx))
      have hno : ¬ BoundaryEdge s e := fun q => Bool.false_ne_true (h2.2 q)
      exact ⟨b', by rw [if_neg Bool.false_ne_true]; exact g1, by rw [g2]; simp [hno]⟩

theorem across_some {f e g : Nat} (h : ∀ k, Borders s k e ∧ k ≠ f ↔ k = g) : across s f e = some g := by
  unfold across
  have hp : ∀ k, k < s.facesEdges.length → ((decide (k ≠ f) && (s.facesEdges.getD k []).contains e) = true ↔ k = g) := by
    intro k hk
    rw [← h k, Bool.and_eq_true, decide_eq_true_eq, List.contains_iff_mem]
    have hg : s.facesEdges[k]? = some s.facesEdges[k] := List.getElem?_eq_getElem hk
    have hd : s.facesEdges.getD k [] = s.facesEdges[k] := by simp [hk]
    rw [hd]
    constructor
    · rintro ⟨a, b⟩; exact ⟨⟨_, hg, b⟩, a⟩
    · rintro ⟨⟨es, a, b⟩, c⟩
      rw [hg] at a
      obtain rfl := Option.some.inj a
      exact ⟨c, b⟩
  have hglt : g < s.facesEdges.length := borders_lt ((h g).2 rfl).1
  cases hf : (List.range s.facesEdges.length).find? (fun k => decide (k ≠ f) && (s.facesEdges.getD k []).contains e) with
  | none =>
    rw [List.find?_eq_none] at hf
    exact absurd ((hp g hglt).2 rfl) (hf g (List.mem_range.2 hglt))
  | some k =>
    have h1 := List.find?_some hf
    have h2 := List.mem_range.1 (List.mem_of_find?_eq_some hf)
    rw [(hp k h2).1 h1]

theorem across_none {f e : Nat} (h : ∀ k, Borders s k e → k = f) : across s f e = none := by
  unfold across
  rw [List.find?_eq_none]
  intro k hk
  rw [Bool.and_eq_true, decide_eq_true_eq, List.contains_iff_mem]
  rintro ⟨h1, h2⟩
  have hk := List.mem_range.1 hk
  have hg : s.facesEdges[k]? = some s.facesEdges[k] := List.getElem?_eq_getElem hk
  have hd : s.facesEdges.getD k [] = s.facesEdges[k] := by simp [hk]
  rw [hd] at h2
  exact h1 (h k ⟨_, hg, h2⟩)

/-- The face on the other side of an edge of face `f`. -/
theorem nextFace_ok (r : Ready m s) {f e : Nat} (he : e < m.edges.length) (hf : Borders s f e) :
    (BoundaryEdge s e ∧ across s f e = none) ∨
      (¬ BoundaryEdge s e ∧ ∃ g, across s f e = some g ∧ Borders s g e ∧ nextFace s f e = .ok g) := by
  obtain ⟨c, p, l, h1, h2, h3, h4, h5⟩ := r.consistent.faces e he
  have hl := (h5 f).2 hf
  cases h3 with
  | none => simp at hl
  | one g =>
    left
    have hg : f = g := by simpa using hl
    subst hg
    have hu : ∀ k, Borders s k e → k = f := fun k hk => by simpa using (h5 k).2 hk
    exact ⟨⟨f, hf, hu⟩, across_none hu⟩
  | two a b =>
    right
    have hab : a ≠ b := by
      rintro rfl
      simp at h4
    refine ⟨?_, ?_⟩
    · rintro ⟨k, _, hk⟩
      exact hab ((hk a ((h5 a).1 (by simp))).trans (hk b ((h5 b).1 (by simp))).symm)
    · unfold nextFace
      rw [vget_eq_ok.2 h2, Res.ok_bind]
      simp only [List.mem_cons, List.not_mem_nil, or_false] at hl
      rcases hl with rfl | rfl
      · refine ⟨b, across_some fun k => ?_, (h5 b).1 (by simp), by simp⟩
        rw [← h5 k]
        constructor
        · rintro ⟨q1, q2⟩
          simp only [List.mem_cons, List.not_mem_nil, or_false] at q1
          exact q1.resolve_left q2
        · rintro rfl
          exact ⟨by simp, hab.symm⟩
      · refine ⟨a, across_some fun k => ?_, (h5 a).1 (by simp), by simp [hab]⟩
        rw [← h5 k]
        constructor
        · rintro ⟨q1, q2⟩
          simp only [List.mem_cons, List.not_mem_nil, or_false] at q1
          exact q1.resolve_right q2
        · rintro rfl
          exact ⟨by simp, hab⟩

/-- The areas of the faces. -/
def areaList (m : Mesh Pt) (s : State) : List ℚ := s.facesNodes.map (fun ns => (areaAndMass m.nodes ns).1)

theorem areaList_get (r : Ready m s) {f : Nat} (hf : f < s.facesEdges.length) : vget (areaList m s) f = .ok (areaOf m s f) ∧ 0 < areaOf m s f := by
  obtain ⟨h1, h2, _⟩ := areas_get (other := fun _ _ => ⟨0, 0⟩) r hf
  exact ⟨h1, lt_of_lt_of_le (by unfold minArea; norm_num) h2⟩

/-- The neighbours with more than three corners over the edges `es`. -/
def bigOver (s : State) (f : Nat) (es : List Nat) : List Nat :=
  (es.filterMap (across s f)).filter (fun g => decide (3 < (s.facesNodes.getD g []).length))

theorem neighbours_ok (r : Ready m s) {f : Nat} (es : List Nat) (he : ∀ e ∈ es, e < m.edges.length ∧ Borders s f e) (acc : ℚ × Nat) :
    neighbours s (areaList m s) f es acc = .ok (acc.1 + ((bigOver s f es).map (areaOf m s)).sum, acc.2 + (bigOver s f es).length) := by
  induction es generalizing acc with
  | nil => simp [neighbours, bigOver]
  | cons e es ih =>
    have ih' := ih (fun x hx => he x (List.mem_cons_of_mem _ hx))
    obtain ⟨b, h1, h2⟩ := onBoundary_ok r (he e (by simp)).1
    rw [neighbours, h1, Res.ok_bind]
    rcases nextFace_ok r (he e (by simp)).1 (he e (by simp)).2 with ⟨g1, g2⟩ | ⟨g1, g, g2, g3, g4⟩
    · rw [h2.2 g1, if_pos rfl, ih']
      have : bigOver s f (e :: es) = bigOver s f es := by unfold bigOver; rw [List.filterMap_cons_none g2]
      rw [this]
    · have hb : b = false := by
        cases b
        · rfl
        · exact absurd (h2.1 rfl) g1
      have hlt := borders_lt g3
      have hlt' : g < s.facesNodes.length := by rw [r.consistent.lengths]; exact hlt
      have hd : s.facesNodes.getD g [] = s.facesNodes[g] := by simp [hlt']
      rw [hb, if_neg Bool.false_ne_true, g4, Res.ok_bind, vget_eq_ok.2 (List.getElem?_eq_getElem hlt'), Res.ok_bind]
      have hcons : bigOver s f (e :: es) = if 3 < s.facesNodes[g].length then g :: bigOver s f es else bigOver s f es := by
        unfold bigOver
        rw [List.filterMap_cons_some g2, List.filter_cons, hd]
        simp only [decide_eq_true_eq]
      split
      · rename_i hgt
        rw [(areaList_get r hlt).1, Res.ok_bind, ih', hcons, if_pos hgt, List.map_cons, List.sum_cons, List.length_cons]
        congr 2
        · ring
        · omega
      · rename_i hgt
        rw [ih', hcons, if_neg hgt]

theorem face_edges (r : Ready m s) {f : Nat} {ns : List Nat} (h : s.facesNodes[f]? = some ns) :
    ∃ es, s.facesEdges[f]? = some es ∧ Proper m.edges ns es ∧ ∀ e ∈ es, e < m.edges.length ∧ Borders s f e := by
  have hlt : f < s.facesEdges.length := by rw [← r.consistent.lengths]; exact (List.getElem?_eq_some_iff.1 h).1
  have hg : s.facesEdges[f]? = some s.facesEdges[f] := List.getElem?_eq_getElem hlt
  obtain ⟨hp, _⟩ := r.consistent.proper f ns _ h hg
  refine ⟨_, hg, hp, ?_⟩
  intro e he
  obtain ⟨p, _, _, h1, _⟩ := border_ends r.consistent r.valid r.nodes ⟨_, hg, he⟩
  exact ⟨(List.getElem?_eq_some_iff.1 h1).1, _, hg, he⟩

/-- The test for a small triangle. -/
theorem isSmall_ok (r : Ready m s) (fraction : ℚ) {f : Nat} {ns es : List Nat} (h : s.facesNodes[f]? = some ns) (hes : s.facesEdges[f]? = some es) :
    ∃ b, isSmall s (areaList m s) fraction f ns es = .ok b ∧ (b = true ↔ ns.length = 3 ∧ Small m s fraction f) := by
  obtain ⟨es', h1, hp, he⟩ := face_edges r h
  rw [hes] at h1
  obtain rfl := Option.some.inj h1
  have hd : s.facesEdges.getD f [] = es := by rw [List.getD_eq_getElem?_getD, hes]; rfl
  have hlt : f < s.facesEdges.length := (List.getElem?_eq_some_iff.1 hes).1
  unfold isSmall
  by_cases h3 : ns.length = 3
  · rw [if_neg (by omega), (areaList_get r hlt).1, Res.ok_bind, if_neg (by have := (areaList_get r hlt).2; linarith)]
    obtain ⟨b, g1, g2⟩ := anyOnBoundary_ok r es (fun e q => (he e q).1)
    rw [g1, Res.ok_bind]
    have hbig : bigOver s f es = bigNeighbours s f := by unfold bigOver bigNeighbours; rw [hd]
    cases b with
    | false =>
      refine ⟨false, rfl, ⟨fun q => (by cases q), ?_⟩⟩
      rintro ⟨_, ⟨e, ⟨es', q1, q2⟩, q3⟩, _, _⟩
      rw [hes] at q1
      obtain rfl := Option.some.inj q1
      exact g2.2 ⟨e, q2, q3⟩
    | true =>
      obtain ⟨e, q1, q2⟩ := g2.1 rfl
      have htake : es.take 3 = es := List.take_of_length_le (by rw [hp.len, h3])
      rw [if_neg (by simp), htake, neighbours_ok r es he, Res.ok_bind, hbig]
      simp only [zero_add]
      by_cases hk : (bigNeighbours s f).length = 0
      · rw [if_pos hk]
        refine ⟨false, rfl, ⟨fun q => (by cases q), ?_⟩⟩
        rintro ⟨_, _, q, _⟩
        exact absurd (List.length_eq_zero_iff.1 hk) q
      · rw [if_neg hk]
        refine ⟨_, rfl, ?_⟩
        rw [decide_eq_true_eq]
        have hne : bigNeighbours s f ≠ [] := fun q => hk (by rw [q]; rfl)
        have hall : ∀ g ∈ bigNeighbours s f, g < s.facesEdges.length := by
          intro g hg
          unfold bigNeighbours across at hg
          have hg := (List.mem_filter.1 hg).1
          obtain ⟨e, _, hg⟩ := List.mem_filterMap.1 hg
          exact List.mem_range.1 (List.mem_of_find?_eq_some hg)
        have hsum : 0 < ((bigNeighbours s f).map (areaOf m s)).sum := by
          revert hall hne
          generalize bigNeighbours s f = l
          intro hne hall
          have nonneg : ∀ l : List Nat, (∀ g ∈ l, g < s.facesEdges.length) → 0 ≤ (l.map (areaOf m s)).sum := by
            intro l
            induction l with
            | nil => intro _; simp
            | cons g l ih =>
              intro hl
              rw [List.map_cons, List.sum_cons]
              have := (areaList_get r (hl g (by simp))).2
              have := ih (fun x hx => hl x (List.mem_cons_of_mem _ hx))
              linarith
          cases l with
          | nil => exact absurd rfl hne
          | cons g l =>
            rw [List.map_cons, List.sum_cons]
            have := (areaList_get r (hall g (by simp))).2
            have := nonneg l (fun x hx => hall x (List.mem_cons_of_mem _ hx))
            linarith
        have hlen : (0 : ℚ) < ((bigNeighbours s f).length : ℚ) := by
          have : 0 < (bigNeighbours s f).length := Nat.pos_of_ne_zero hk
          exact_mod_cast this
        have hmean := div_pos hsum hlen
        rw [not_lt, div_le_iff₀ hmean]
        constructor
        · intro q
          exact ⟨h3, ⟨e, ⟨es, hes, q1⟩, q2⟩, hne, q⟩
        · rintro ⟨_, _, _, q⟩
          exact q
  · rw [if_pos h3]
    exact ⟨false, rfl, ⟨fun q => (by cases q), fun q => absurd q.1 h3⟩⟩

end

/-! ### The corner -/

theorem cosine2_eq {a b c : Pt} (h : area2 a b c ≠ 0) : cosine2 a b c = cosSq b c a ∧ cosine2 a b c < 1 := by
  obtain ⟨d1, d2, d3⟩ := corners_distinct h
  have g1 := gap_pos d1
  have g2 := gap_pos d2
  have e1 : (b.x - a.x) * (b.x - a.x) + (b.y - a.y) * (b.y - a.y) = gap a b := by unfold gap; ring
  have e2 : (c.x - b.x) * (c.x - b.x) + (c.y - b.y) * (c.y - b.y) = gap b c := by unfold gap; ring
  have e3 : (b.x - a.x) * (c.x - b.x) + (b.y - a.y) * (c.y - b.y) = - dotAt b c a := by unfold dotAt; ring
  have e4 : gap b a = gap a b := by unfold gap; ring
  have lag : gap a b * gap b c = dotAt b c a ^ 2 + area2 a b c ^ 2 := by unfold gap dotAt area2; ring
  have hA : 0 < area2 a b c ^ 2 := by positivity
  have hv : cosine2 a b c = dotAt b c a ^ 2 / (gap a b * gap b c) := by
    unfold cosine2
    simp only [e1, e2, e3]
    rw [if_neg (by push Not; exact ⟨g1, g2⟩)]
    congr 1
    ring
  refine ⟨?_, ?_⟩
  · rw [hv]; unfold cosSq; rw [e4, mul_comm (gap b c)]
  · rw [hv, div_lt_one (mul_pos g1 g2), lag]
    linarith

/-- The corner chosen and the edge opposite to it. -/
theorem chooseCorner_ok {m : Mesh Pt} {s : State} (r : Ready m s) {f x y z u v w : Nat} (h : s.facesNodes[f]? = some [x, y, z]) :
    ∃ best k, chooseCorner m.nodes [x, y, z] [u, v, w] =
      .ok ⟨best, (squarest m x y z).1, (squarest m x y z).2.1, (squarest m x y z).2.2, k⟩ ∧
      ((squarest m x y z = (x, z, y) ∧ k = v) ∨ (squarest m x y z = (y, x, z) ∧ k = w) ∨ (squarest m x y z = (z, y, x) ∧ k = u)) := by
  have hv := r.valid f _ h
  obtain ⟨a, ha⟩ := validNode_get (hv x (by simp))
  obtain ⟨b, hb⟩ := validNode_get (hv y (by simp))
  obtain ⟨c, hc⟩ := validNode_get (hv z (by simp))
  have hlt : f < s.facesEdges.length := by rw [← r.consistent.lengths]; exact (List.getElem?_eq_some_iff.1 h).1
  obtain ⟨_, _, _, _, hpos⟩ := areas_get (other := fun _ _ => ⟨0, 0⟩) r hlt
  have hcorn : corners m s f = [a, b, c] := by
    unfold corners
    rw [List.getD_eq_getElem?_getD, h]
    simp [position_get ha, position_get hb, position_get hc]
  rw [hcorn, shoelace_three] at hpos
  have hA : area2 a b c ≠ 0 := by intro q; rw [q] at hpos; norm_num at hpos
  obtain ⟨t1, t2⟩ := area2_turn a b c
  obtain ⟨cx, lx⟩ := cosine2_eq (a := c) (b := a) (c := b) (by rw [t2]; exact hA)
  obtain ⟨cy, ly⟩ := cosine2_eq (a := a) (b := b) (c := c) hA
  obtain ⟨cz, lz⟩ := cosine2_eq (a := b) (b := c) (c := a) (by rw [t1]; exact hA)
  have hsq : squarest m x y z = if cosine2 c a b ≤ cosine2 a b c ∧ cosine2 c a b ≤ cosine2 b c a then (x, z, y)
      else if cosine2 a b c ≤ cosine2 b c a then (y, x, z) else (z, y, x) := by
    unfold squarest
    simp only [position_get ha, position_get hb, position_get hc, cx, cy, cz]
  have s0 : ∀ k : Corner, cornerStep m.nodes [x, y, z] [u, v, w] 0 k = if cosine2 c a b < k.best then .ok ⟨cosine2 c a b, x, z, y, v⟩ else .ok k := by
    intro k
    have e0 : vget [x, y, z] 0 = .ok x := rfl
    have e1 : vget [x, y, z] 1 = .ok y := rfl
    have e2 : vget [x, y, z] 2 = .ok z := rfl
    have e3 : vget [u, v, w] 1 = .ok v := rfl
    unfold cornerStep
    simp only [if_true, show ((0 : Nat) = 2) = False by simp, if_false, Nat.zero_add]
    rw [e2, Res.ok_bind, e0, Res.ok_bind, e1, Res.ok_bind, vget_eq_ok.2 hc, Res.ok_bind, vget_eq_ok.2 ha, Res.ok_bind, vget_eq_ok.2 hb, Res.ok_bind, e3,
      Res.ok_bind]
    rfl
  have s1 : ∀ k : Corner, cornerStep m.nodes [x, y, z] [u, v, w] 1 k = if cosine2 a b c < k.best then .ok ⟨cosine2 a b c, y, x, z, w⟩ else .ok k := by
    intro k
    have e0 : vget [x, y, z] 0 = .ok x := rfl
    have e1 : vget [x, y, z] 1 = .ok y := rfl
    have e2 : vget [x, y, z] 2 = .ok z := rfl
    have e3 : vget [u, v, w] 2 = .ok w := rfl
    unfold cornerStep
    simp only [show ((1 : Nat) = 0) = False by simp, show ((1 : Nat) = 2) = False by simp, if_false, Nat.reduceAdd, Nat.sub_self]
    rw [e0, Res.ok_bind, e1, Res.ok_bind, e2, Res.ok_bind, vget_eq_ok.2 ha, Res.ok_bind, vget_eq_ok.2 hb, Res.ok_bind, vget_eq_ok.2 hc, Res.ok_bind, e3,
      Res.ok_bind]
    rfl
  have s2 : ∀ k : Corner, cornerStep m.nodes [x, y, z] [u, v, w] 2 k = if cosine2 b c a < k.best then .ok ⟨cosine2 b c a, z, y, x, u⟩ else .ok k := by
    intro k
    have e0 : vget [x, y, z] 0 = .ok x := rfl
    have e1 : vget [x, y, z] 1 = .ok y := rfl
    have e2 : vget [x, y, z] 2 = .ok z := rfl
    have e3 : vget [u, v, w] 0 = .ok u := rfl
    unfold cornerStep
    simp only [show ((2 : Nat) = 0) = False by simp, if_true, if_false, Nat.reduceSub]
    rw [e1, Res.ok_bind, e2, Res.ok_bind, e0, Res.ok_bind, vget_eq_ok.2 hb, Res.ok_bind, vget_eq_ok.2 hc, Res.ok_bind, vget_eq_ok.2 ha, Res.ok_bind, e3,
      Res.ok_bind]
    rfl
  have hrun : chooseCorner m.nodes [x, y, z] [u, v, w] = (do
      let k0 ← cornerStep m.nodes [x, y, z] [u, v, w] 0 ⟨1, missing, missing, missing, missing⟩
      let k1 ← cornerStep m.nodes [x, y, z] [u, v, w] 1 k0
      cornerStep m.nodes [x, y, z] [u, v, w] 2 k1) := by
    unfold chooseCorner
    simp only [forRange, loopN]
    rw [s0]
    rw [if_pos lx, Res.ok_bind, Res.ok_bind]
    rw [s1]
    split
    · rw [Res.ok_bind, Res.ok_bind]
      cases cornerStep m.nodes [x, y, z] [u, v, w] 2 ⟨cosine2 a b c, y, x, z, w⟩ <;> rfl
    · rw [Res.ok_bind, Res.ok_bind]
      cases cornerStep m.nodes [x, y, z] [u, v, w] 2 ⟨cosine2 c a b, x, z, y, v⟩ <;> rfl
  by_cases h1 : cosine2 a b c < cosine2 c a b
  · have r1 : chooseCorner m.nodes [x, y, z] [u, v, w] = if cosine2 b c a < cosine2 a b c then .ok ⟨cosine2 b c a, z, y, x, u⟩
        else .ok ⟨cosine2 a b c, y, x, z, w⟩ := by
      rw [hrun, s0, if_pos lx, Res.ok_bind, s1, if_pos h1, Res.ok_bind, s2]
    have n1 : ¬ (cosine2 c a b ≤ cosine2 a b c ∧ cosine2 c a b ≤ cosine2 b c a) := fun q => absurd q.1 (not_le.2 h1)
    rw [if_neg n1] at hsq
    by_cases h2 : cosine2 b c a < cosine2 a b c
    · rw [if_neg (not_le.2 h2)] at hsq
      rw [if_pos h2] at r1
      rw [r1, hsq]
      exact ⟨_, _, rfl, Or.inr (Or.inr ⟨rfl, rfl⟩)⟩
    · rw [if_pos (not_lt.1 h2)] at hsq
      rw [if_neg h2] at r1
      rw [r1, hsq]
      exact ⟨_, _, rfl, Or.inr (Or.inl ⟨rfl, rfl⟩)⟩
  · have r1 : chooseCorner m.nodes [x, y, z] [u, v, w] = if cosine2 b c a < cosine2 c a b then .ok ⟨cosine2 b c a, z, y, x, u⟩
        else .ok ⟨cosine2 c a b, x, z, y, v⟩ := by
      rw [hrun, s0, if_pos lx, Res.ok_bind, s1, if_neg h1, Res.ok_bind, s2]
    by_cases h2 : cosine2 b c a < cosine2 c a b
    · have n1 : ¬ (cosine2 c a b ≤ cosine2 a b c ∧ cosine2 c a b ≤ cosine2 b c a) := fun q => absurd q.2 (not_le.2 h2)
      rw [if_neg n1, if_neg (not_le.2 (lt_of_lt_of_le h2 (not_lt.1 h1)))] at hsq
      rw [if_pos h2] at r1
      rw [r1, hsq]
      exact ⟨_, _, rfl, Or.inr (Or.inr ⟨rfl, rfl⟩)⟩
    · have n1 : cosine2 c a b ≤ cosine2 a b c ∧ cosine2 c a b ≤ cosine2 b c a := ⟨not_lt.1 h1, not_lt.1 h2⟩
      rw [if_pos n1] at hsq
      rw [if_neg h2] at r1
      rw [r1, hsq]
      exact ⟨_, _, rfl, Or.inl ⟨rfl, rfl⟩⟩

end Verif.SmallFlow
