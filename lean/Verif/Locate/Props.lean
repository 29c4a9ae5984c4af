import Verif.Locate.Lemmas
/-!
# C47: a point is matched with the face it lies in
-/
namespace Verif.Locate
open Verif.Mesh Verif.Faces
open Verif.Polygons (Pt OnSegment sides turns ringOf inPolygonNodes area2)

variable {m0 m : Mesh Pt} {s : State} {search : Pt → Res Nat}

/-- **C47.** After the administration of a mesh with an edge, every list of points gets an answer for each point, without
access out of range: a face next to an edge whose middle is nearest to the point, or the missing value. -/
theorem every_point_answered (hn : m0.nodes.length ≤ missing) (hb : inBounds m0 = true) (hrun : doAdministrationCartesian m0 = .ok (m, s))
    (hs : SearchOk m search) (he : ∃ e c, centre m e = some c) (ps : List Pt) :
    ∃ fs, pointFaces m s search ps = .ok fs ∧ fs.length = ps.length ∧
      ∀ (i : Nat) p, ps[i]? = some p → ∃ e g, NearestEdge m p e ∧ fs[i]? = some g ∧ (g = missing ∨ Borders s g e) := by
  have hA := administrated hn hb hrun
  have key : ∀ p, ∃ e g, search p = .ok e ∧ pointFace m s p e = .ok g ∧ NearestEdge m p e ∧ (g = missing ∨ Borders s g e) := by
    intro p
    obtain ⟨e, h1, h2⟩ := hs p he
    obtain ⟨c, h3, _⟩ := id h2
    obtain ⟨g, h4, h5⟩ := pointFace_cases hA (centre_lt h3) p
    exact ⟨e, g, h1, h4, h2, h5.elim (fun h => .inr h.1) (fun h => .inl h.1)⟩
  obtain ⟨fs, h1, h2, h3⟩ := pointFaces_ok (m := m) (s := s) (search := search) (ps := ps)
    (fun p _ => by obtain ⟨e, g, h1, h2, _⟩ := key p; exact ⟨e, g, h1, h2⟩)
  refine ⟨fs, h1, h2, ?_⟩
  intro i p hp
  obtain ⟨e, g, a1, a2, a3⟩ := h3 i p hp
  obtain ⟨e', g', b1, b2, b3, b4⟩ := key p
  rw [a1] at b1
  obtain rfl := Res.ok.inj b1
  rw [a2] at b2
  obtain rfl := Res.ok.inj b2
  exact ⟨e, g, b3, a3, b4⟩

/-- **C47, partial.** A face given as answer holds the point, when the point is on none of the lines carrying the sides of
the face.  Without this condition the claim is false, `outside_matched`. -/
theorem matched_sound_partial (hn : m0.nodes.length ≤ missing) (hb : inBounds m0 = true) (hrun : doAdministrationCartesian m0 = .ok (m, s))
    (hv : NodesValid m) (hs : SearchOk m search) (he : ∃ e c, centre m e = some c) {ps : List Pt} {fs : List Nat}
    (h : pointFaces m s search ps = .ok fs) {i : Nat} {p : Pt} (hp : ps[i]? = some p) (hpv : p.isValid = true) (hpf : p.Finite) {f : Nat}
    (hf : fs[i]? = some f) (hne : f ≠ missing) (hl : OffLines m s f p) : InFace m s f p := by
  have hA := administrated hn hb hrun
  have key : ∀ p, ∃ e g, search p = .ok e ∧ pointFace m s p e = .ok g ∧ ((Borders s g e ∧ inPolygonNodes (outline m s g) p = true) ∨ g = missing) := by
    intro p
    obtain ⟨e, h1, c, h3, _⟩ := hs p he
    obtain ⟨g, h4, h5⟩ := pointFace_cases hA (centre_lt h3) p
    exact ⟨e, g, h1, h4, h5.imp id (fun h => h.1)⟩
  obtain ⟨fs', h1, h2, h3⟩ := pointFaces_ok (m := m) (s := s) (search := search) (ps := ps)
    (fun p _ => by obtain ⟨e, g, h1, h2, _⟩ := key p; exact ⟨e, g, h1, h2⟩)
  rw [h] at h1
  obtain rfl := Res.ok.inj h1
  obtain ⟨e, g, a1, a2, a3⟩ := h3 i p hp
  rw [hf] at a3
  obtain rfl := Option.some.inj a3
  obtain ⟨e', g', b1, b2, b3⟩ := key p
  rw [a1] at b1
  obtain rfl := Res.ok.inj b1
  rw [a2] at b2
  obtain rfl := Res.ok.inj b2
  rcases b3 with ⟨b4, b5⟩ | b4
  · have hlt := borders_lt hA b4
    exact ⟨hlt, inRing_of_inPolygon (ringNodes_outline hA hv hlt) hpv hpf hl b5⟩
  · exact absurd b4 hne

/-- **C47, partial.** A point in a face gets a face as answer, if an edge with the nearest middle is a side of the face the
point lies in (for whichever of the nearest edges the search finds).  If no other face holds the point, it is that face.
`o` is any base point not in line with a corner and the point. -/
theorem matched_complete_partial (hn : m0.nodes.length ≤ missing) (hb : inBounds m0 = true) (hrun : doAdministrationCartesian m0 = .ok (m, s))
    (hv : NodesValid m) (hs : SearchOk m search) (he : ∃ e c, centre m e = some c) {ps : List Pt}
    {i : Nat} {p : Pt} (hp : ps[i]? = some p) (hpv : p.isValid = true) (hpf : p.Finite) {f : Nat} (hin : InFace m s f p)
    (hl : ∀ g, g < s.facesNodes.length → OffLines m s g p)
    (o : Pt) (ho : ∀ q ∈ outline m s f, ¬ OnSegment o q p)
    (hnear : ∀ e, NearestEdge m p e → Borders s f e) :
    ∃ fs g, pointFaces m s search ps = .ok fs ∧ fs[i]? = some g ∧ InFace m s g p ∧
      ((∀ g', InFace m s g' p → g' = f) → g = f) := by
  have hA := administrated hn hb hrun
  have key : ∀ p, ∃ e g, search p = .ok e ∧ pointFace m s p e = .ok g ∧ NearestEdge m p e ∧ ((Borders s g e ∧ inPolygonNodes (outline m s g) p = true) ∨
      (g = missing ∧ ∀ f, Borders s f e → inPolygonNodes (outline m s f) p = false)) := by
    intro p
    obtain ⟨e, h1, h2⟩ := hs p he
    obtain ⟨c, h3, _⟩ := id h2
    obtain ⟨g, h4, h5⟩ := pointFace_cases hA (centre_lt h3) p
    exact ⟨e, g, h1, h4, h2, h5⟩
  obtain ⟨fs, h1, h2, h3⟩ := pointFaces_ok (m := m) (s := s) (search := search) (ps := ps)
    (fun p _ => by obtain ⟨e, g, h1, h2, _⟩ := key p; exact ⟨e, g, h1, h2⟩)
  obtain ⟨e, g, a1, a2, a3⟩ := h3 i p hp
  obtain ⟨e', g', b1, b2, b3, b4⟩ := key p
  rw [a1] at b1
  obtain rfl := Res.ok.inj b1
  rw [a2] at b2
  obtain rfl := Res.ok.inj b2
  have hfin : inPolygonNodes (outline m s f) p = true :=
    (inPolygon_iff (ringNodes_outline hA hv hin.1) hpv hpf (hl f hin.1) o ho).2 (hin.2.imp id (fun h => h o ho))
  have hg : InFace m s g p := by
    rcases b4 with ⟨b5, b6⟩ | ⟨_, b5⟩
    · have hlt := borders_lt hA b5
      exact ⟨hlt, inRing_of_inPolygon (ringNodes_outline hA hv hlt) hpv hpf (hl g hlt) b6⟩
    · rw [b5 f (hnear e b3)] at hfin
      simp at hfin
  exact ⟨fs, g, h1, a3, hg, fun h => h g hg⟩

/-- **C47.** In a grid of equal rectangles (of any width, height and outline, with holes) an edge whose middle is nearest to a
point strictly inside a rectangle is a side of it.  So there the condition of `matched_complete_partial` is met. -/
theorem uniform_nearest {a b w h : ℚ} (hu : Uniform m a b w h) {f : Nat} {i j : Int} (hc : IsCell m s a b w h f i j) {p : Pt}
    (hx : a + i * w < p.x ∧ p.x < a + (i + 1) * w) (hy : b + j * h < p.y ∧ p.y < b + (j + 1) * h) {e : Nat} (he : NearestEdge m p e) :
    Borders s f e := by
  obtain ⟨c, h1, h2⟩ := he
  have hx0 : 0 < p.x - a - i * w := by linarith [hx.1]
  have hx1 : p.x - a - i * w < w := by linarith [hx.2]
  have hy0 : 0 < p.y - b - j * h := by linarith [hy.1]
  have hy1 : p.y - b - j * h < h := by linarith [hy.2]
  have near : ∀ c' : Pt, (∃ e', centre m e' = some c') → dist2 p c ≤ dist2 p c' := fun c' ⟨e', h'⟩ => h2 e' c' h'
  rcases hu e c h1 with ⟨k, l, rfl⟩ | ⟨k, l, rfl⟩
  · have n1 := near _ (hc ⟨a + i * w, b + (j + 1 / 2) * h⟩ (.inl rfl)).1
    have n2 := near _ (hc ⟨a + (i + 1) * w, b + (j + 1 / 2) * h⟩ (.inr (.inl rfl))).1
    unfold dist2 at n1 n2
    simp only at n1 n2
    have hl' : l = j := by
      by_contra hne
      have hm := mid_nearest hy0 hy1 (d := l - j) (by omega)
      have hk := line_nearest hx0 hx1 (k - i)
      push_cast at hm hk
      rcases hk with hk | hk | hk | hk
      · have : (k : ℚ) = i := by exact_mod_cast (by omega : k = i)
        rw [this] at n1
        nlinarith
      · have : (k : ℚ) = i + 1 := by exact_mod_cast (by omega : k = i + 1)
        rw [this] at n2
        nlinarith
      · nlinarith
      · nlinarith
    subst hl'
    rcases line_nearest hx0 hx1 (k - i) with hk | hk | hk | hk
    · have : k = i := by omega
      subst this
      exact (hc _ (.inl rfl)).2 e h1
    · have : k = i + 1 := by omega
      subst this
      exact (hc _ (.inr (.inl (by push_cast; rfl)))).2 e h1
    · push_cast at hk; nlinarith
    · push_cast at hk; nlinarith
  · have n1 := near _ (hc ⟨a + (i + 1 / 2) * w, b + j * h⟩ (.inr (.inr (.inl rfl)))).1
    have n2 := near _ (hc ⟨a + (i + 1 / 2) * w, b + (j + 1) * h⟩ (.inr (.inr (.inr rfl)))).1
    unfold dist2 at n1 n2
    simp only at n1 n2
    have hk' : k = i := by
      by_contra hne
      have hm := mid_nearest hx0 hx1 (d := k - i) (by omega)
      have hl := line_nearest hy0 hy1 (l - j)
      push_cast at hm hl
      rcases hl with hl | hl | hl | hl
      · have : (l : ℚ) = j := by exact_mod_cast (by omega : l = j)
        rw [this] at n1
        nlinarith
      · have : (l : ℚ) = j + 1 := by exact_mod_cast (by omega : l = j + 1)
        rw [this] at n2
        nlinarith
      · nlinarith
      · nlinarith
    subst hk'
    rcases line_nearest hy0 hy1 (l - j) with hl | hl | hl | hl
    · have : l = j := by omega
      subst this
      exact (hc _ (.inr (.inr (.inl rfl)))).2 e h1
    · have : l = j + 1 := by omega
      subst this
      exact (hc _ (.inr (.inr (.inr (by push_cast; rfl))))).2 e h1
    · push_cast at hl; nlinarith
    · push_cast at hl; nlinarith

/-! ## A search, for the examples -/

/-- Among the edges below `k`, the first one with the nearest middle. -/
def firstNearest (m : Mesh Pt) (p : Pt) : Nat → Option (Nat × ℚ)
  | 0 => none
  | k + 1 =>
    match firstNearest m p k, centre m k with
    | some (e, d), some c => if d ≤ dist2 p c then some (e, d) else some (k, dist2 p c)
    | some r, none => some r
    | none, some c => some (k, dist2 p c)
    | none, none => none

/-- A search through all edges. -/
def searchAll (m : Mesh Pt) (p : Pt) : Res Nat :=
  match firstNearest m p m.edges.length with
  | some (e, _) => .ok e
  | none => .throw

theorem firstNearest_spec (m : Mesh Pt) (p : Pt) : ∀ k, match firstNearest m p k with
    | some (e, d) => ∃ c, centre m e = some c ∧ d = dist2 p c ∧ ∀ e' < k, ∀ c', centre m e' = some c' → d ≤ dist2 p c'
    | none => ∀ e' < k, centre m e' = none
  | 0 => by simp [firstNearest]
  | k + 1 => by
    have ih := firstNearest_spec m p k
    unfold firstNearest
    cases h1 : firstNearest m p k with
    | none =>
      rw [h1] at ih
      simp only at ih
      cases h2 : centre m k with
      | none =>
        simp only
        intro e' he
        rcases Nat.lt_succ_iff_lt_or_eq.1 he with h | rfl
        · exact ih e' h
        · exact h2
      | some c =>
        simp only
        refine ⟨c, h2, rfl, ?_⟩
        intro e' he c' hc
        rcases Nat.lt_succ_iff_lt_or_eq.1 he with h | rfl
        · rw [ih e' h] at hc; simp at hc
        · rw [h2] at hc; obtain rfl := Option.some.inj hc; exact le_refl _
    | some r =>
      obtain ⟨e, d⟩ := r
      rw [h1] at ih
      obtain ⟨c, i1, i2, i3⟩ := ih
      cases h2 : centre m k with
      | none =>
        simp only
        refine ⟨c, i1, i2, ?_⟩
        intro e' he c' hc
        rcases Nat.lt_succ_iff_lt_or_eq.1 he with h | rfl
        · exact i3 e' h c' hc
        · rw [h2] at hc; simp at hc
      | some c2 =>
        simp only
        by_cases hd : d ≤ dist2 p c2
        · rw [if_pos hd]
          refine ⟨c, i1, i2, ?_⟩
          intro e' he c' hc
          rcases Nat.lt_succ_iff_lt_or_eq.1 he with h | rfl
          · exact i3 e' h c' hc
          · rw [h2] at hc; obtain rfl := Option.some.inj hc; exact hd
        · rw [if_neg hd]
          refine ⟨c2, h2, rfl, ?_⟩
          intro e' he c' hc
          rcases Nat.lt_succ_iff_lt_or_eq.1 he with h | rfl
          · exact le_trans (le_of_lt (not_le.1 hd)) (i3 e' h c' hc)
          · rw [h2] at hc; obtain rfl := Option.some.inj hc; exact le_refl _

theorem searchAll_ok (m : Mesh Pt) : SearchOk m (searchAll m) := by
  intro p ⟨e0, c0, h0⟩
  have h := firstNearest_spec m p m.edges.length
  unfold searchAll
  cases h1 : firstNearest m p m.edges.length with
  | none =>
    rw [h1] at h
    rw [h e0 (centre_lt h0)] at h0
    simp at h0
  | some r =>
    obtain ⟨e, d⟩ := r
    rw [h1] at h
    obtain ⟨c, i1, i2, i3⟩ := h
    exact ⟨e, rfl, c, i1, fun e' c' h' => i2 ▸ i3 e' (centre_lt h') c' h'⟩

/-! ## Examples -/

/-- Two squares and a third above the first: not a full grid. -/
def corner : Mesh Pt where
  nodes := [some ⟨0, 0⟩, some ⟨2, 0⟩, some ⟨4, 0⟩, some ⟨0, 1⟩, some ⟨2, 1⟩, some ⟨4, 1⟩, some ⟨0, 2⟩, some ⟨2, 2⟩]
  edges := [(0, 1), (1, 2), (3, 4), (4, 5), (6, 7), (0, 3), (1, 4), (2, 5), (3, 6), (4, 7)]
  nodesEdges := []
  numEdges := []

/-- Whether the middles of all edges are in the given list. -/
def middlesIn (m : Mesh Pt) (l : List Pt) : Bool := (List.range m.edges.length).all (fun e => (centre m e).all (fun c => decide (c ∈ l)))

theorem middlesIn_spec {m : Mesh Pt} {l : List Pt} (h : middlesIn m l = true) {e : Nat} {c : Pt} (hc : centre m e = some c) : c ∈ l := by
  unfold middlesIn at h
  have := List.all_eq_true.1 h e (List.mem_range.2 (centre_lt hc))
  rw [hc] at this
  simpa using this

/-- Whether there is an edge with middle `c`, and all such edges are sides of face `f`. -/
def cellCheck (m : Mesh Pt) (s : State) (f : Nat) (c : Pt) : Bool :=
  (List.range m.edges.length).any (fun e => decide (centre m e = some c)) &&
    (List.range m.edges.length).all (fun e => decide (centre m e = some c → e ∈ s.facesEdges.getD f []))

theorem cellCheck_spec {m : Mesh Pt} {s : State} {f : Nat} {c : Pt} (hf : f < s.facesEdges.length) (h : cellCheck m s f c = true) :
    (∃ e, centre m e = some c) ∧ ∀ e, centre m e = some c → Borders s f e := by
  unfold cellCheck at h
  rw [Bool.and_eq_true] at h
  obtain ⟨h1, h2⟩ := h
  obtain ⟨e, _, he⟩ := List.any_eq_true.1 h1
  refine ⟨⟨e, by simpa using he⟩, ?_⟩
  intro e' he'
  have := List.all_eq_true.1 h2 e' (List.mem_range.2 (centre_lt he'))
  simp only [decide_eq_true_eq] at this
  refine ⟨s.facesEdges[f], List.getElem?_eq_getElem hf, ?_⟩
  have h3 := this he'
  rwa [List.getD_eq_getElem?_getD, List.getElem?_eq_getElem hf] at h3

theorem corner_uniform : Uniform (runOf corner).1 0 0 2 1 := by
  intro e c hc
  have hm := middlesIn_spec (l := [⟨1, 0⟩, ⟨3, 0⟩, ⟨1, 1⟩, ⟨3, 1⟩, ⟨1, 2⟩, ⟨0, 1 / 2⟩, ⟨2, 1 / 2⟩, ⟨4, 1 / 2⟩, ⟨0, 3 / 2⟩, ⟨2, 3 / 2⟩])
    (by decide +kernel) hc
  simp only [List.mem_cons, List.not_mem_nil, or_false] at hm
  rcases hm with rfl | rfl | rfl | rfl | rfl | rfl | rfl | rfl | rfl | rfl
  · exact .inr ⟨0, 0, by norm_num⟩
  · exact .inr ⟨1, 0, by norm_num⟩
  · exact .inr ⟨0, 1, by norm_num⟩
  · exact .inr ⟨1, 1, by norm_num⟩
  · exact .inr ⟨0, 2, by norm_num⟩
  · exact .inl ⟨0, 0, by norm_num⟩
  · exact .inl ⟨1, 0, by norm_num⟩
  · exact .inl ⟨2, 0, by norm_num⟩
  · exact .inl ⟨0, 1, by norm_num⟩
  · exact .inl ⟨1, 1, by norm_num⟩

theorem corner_cell : IsCell (runOf corner).1 (runOf corner).2 0 0 2 1 1 1 0 := by
  intro c hc
  apply cellCheck_spec (by decide +kernel)
  rcases hc with rfl | rfl | rfl | rfl <;> norm_num <;> decide +kernel

/-- All conditions of the theorems are met by the point `(5/2, 1/4)` in the second square. -/
example : corner.nodes.length ≤ missing ∧ inBounds corner = true ∧
    doAdministrationCartesian corner = .ok ((runOf corner).1, (runOf corner).2) ∧ NodesValid (runOf corner).1 ∧
    SearchOk (runOf corner).1 (searchAll (runOf corner).1) ∧ (∃ e c, centre (runOf corner).1 e = some c) ∧
    InFace (runOf corner).1 (runOf corner).2 1 ⟨5 / 2, 1 / 4⟩ ∧
    (∀ g, g < (runOf corner).2.facesNodes.length → OffLines (runOf corner).1 (runOf corner).2 g ⟨5 / 2, 1 / 4⟩) ∧
    (∀ q ∈ outline (runOf corner).1 (runOf corner).2 1, ¬ OnSegment ⟨-5, 7⟩ q ⟨5 / 2, 1 / 4⟩) ∧
    (∀ e, NearestEdge (runOf corner).1 ⟨5 / 2, 1 / 4⟩ e → Borders (runOf corner).2 1 e) ∧
    pointFaces (runOf corner).1 (runOf corner).2 (searchAll (runOf corner).1) [⟨5 / 2, 1 / 4⟩, ⟨7, 7⟩, ⟨1, 3 / 2⟩] = .ok [1, missing, 2] := by
  have hr : Polygons.RingNodes (outline (runOf corner).1 (runOf corner).2 1) := by decide +kernel
  refine ⟨by decide, by decide, runOf_eq (by decide) (by decide), ?_, searchAll_ok _, ⟨0, ⟨1, 0⟩, by decide +kernel⟩, ⟨by decide +kernel, ?_⟩, ?_, ?_, ?_,
    by decide +kernel⟩
  · intro q hq
    have : ∀ r ∈ (runOf corner).1.nodes, r.all (fun q => q.isValid) = true := by decide +kernel
    simpa using this _ hq
  · exact inRing_of_inPolygon hr (by decide +kernel) (by decide +kernel) (by decide +kernel) (by decide +kernel)
  · unfold OffLines
    decide +kernel
  · have : ∀ q ∈ outline (runOf corner).1 (runOf corner).2 1, area2 ⟨-5, 7⟩ q ⟨5 / 2, 1 / 4⟩ ≠ 0 := by decide +kernel
    exact fun q hq => Polygons.not_onSegment_of_area (this q hq)
  · intro e he
    exact uniform_nearest corner_uniform corner_cell ⟨by norm_num, by norm_num⟩ ⟨by norm_num, by norm_num⟩ he

/-- Whether edge `e` has a nearer middle than all others. -/
def onlyNearest (m : Mesh Pt) (p : Pt) (e : Nat) : Bool :=
  match centre m e with
  | some c => (List.range m.edges.length).all (fun e' => decide (e' = e) || (centre m e').all (fun c' => decide (dist2 p c < dist2 p c')))
  | none => false

theorem onlyNearest_spec {m : Mesh Pt} {p : Pt} {e : Nat} (h : onlyNearest m p e = true) {e' : Nat} (he : NearestEdge m p e') : e' = e := by
  unfold onlyNearest at h
  obtain ⟨c', h1, h2⟩ := he
  cases hc : centre m e with
  | none => rw [hc] at h; simp at h
  | some c =>
    rw [hc] at h
    have h3 := List.all_eq_true.1 h e' (List.mem_range.2 (centre_lt h1))
    by_contra hne
    rw [h1] at h3
    simp only [hne, decide_false, Bool.false_or, Option.all_some, decide_eq_true_eq] at h3
    exact absurd (h2 e c hc) (not_le.2 h3)

/-- A low rectangle below a high one. -/
def lowHigh : Mesh Pt where
  nodes := [some ⟨0, 0⟩, some ⟨10, 0⟩, some ⟨10, 1⟩, some ⟨0, 1⟩, some ⟨10, 11⟩, some ⟨0, 11⟩]
  edges := [(0, 1), (1, 2), (2, 3), (3, 0), (2, 4), (4, 5), (5, 3)]
  nodesEdges := []
  numEdges := []

/-- **C47 fails.** A point inside a face, not on its boundary and in no other face, is reported to lie in no face, whichever
nearest edge is found: the nearest middle is that of a side of the neighbouring face. -/
theorem inside_not_matched : ∃ (m0 m : Mesh Pt) (s : State) (p : Pt) (f : Nat), doAdministrationCartesian m0 = .ok (m, s) ∧
    InFace m s f p ∧ (∀ g ∈ sides (outline m s f), ¬ OnSegment g.1 g.2 p) ∧
    ∀ search, SearchOk m search → pointFaces m s search [p] = .ok [missing] := by
  refine ⟨lowHigh, (runOf lowHigh).1, (runOf lowHigh).2, ⟨1 / 2, 3 / 2⟩, 1, runOf_eq (by decide) (by decide), ⟨by decide +kernel, ?_⟩, ?_, ?_⟩
  · exact inRing_of_inPolygon (by decide +kernel) (by decide +kernel) (by decide +kernel) (by decide +kernel) (by decide +kernel)
  · have : ∀ g ∈ sides (outline (runOf lowHigh).1 (runOf lowHigh).2 1), area2 g.1 g.2 ⟨1 / 2, 3 / 2⟩ ≠ 0 := by decide +kernel
    exact fun g hg => Polygons.not_onSegment_of_area (this g hg)
  · intro search hs
    obtain ⟨e, h1, h2⟩ := hs ⟨1 / 2, 3 / 2⟩ ⟨0, ⟨5, 0⟩, by decide +kernel⟩
    obtain rfl := onlyNearest_spec (e := 3) (by decide +kernel) h2
    simp only [pointFaces, h1, Res.ok_bind]
    decide +kernel

/-- An obtuse triangle. -/
def obtuse : Mesh Pt where
  nodes := [some ⟨0, 0⟩, some ⟨4, 1⟩, some ⟨10, 10⟩]
  edges := [(0, 1), (1, 2), (2, 0)]
  nodesEdges := []
  numEdges := []

/-- **C47 fails.** A point outside the only face of a mesh is reported to lie in it: it is on the line through a side, beyond
its end, and in the rectangle around the triangle. -/
theorem outside_matched : ∃ (m0 m : Mesh Pt) (s : State) (p : Pt) (f : Nat), doAdministrationCartesian m0 = .ok (m, s) ∧
    f < s.facesNodes.length ∧ ¬ InFace m s f p ∧ ∀ search, SearchOk m search → pointFaces m s search [p] = .ok [f] := by
  refine ⟨obtuse, (runOf obtuse).1, (runOf obtuse).2, ⟨8, 2⟩, 0, runOf_eq (by decide) (by decide), by decide +kernel, ?_, ?_⟩
  · rintro ⟨-, h⟩
    have ho : outline (runOf obtuse).1 (runOf obtuse).2 0 = [⟨0, 0⟩, ⟨4, 1⟩, ⟨10, 10⟩, ⟨0, 0⟩] := by decide +kernel
    rw [ho] at h
    rcases h with ⟨g, hg, t, h0, h1, hx, hy⟩ | h
    · have hs : sides [⟨0, 0⟩, ⟨4, 1⟩, ⟨10, 10⟩, ⟨0, 0⟩] = [((⟨0, 0⟩ : Pt), (⟨4, 1⟩ : Pt)), (⟨4, 1⟩, ⟨10, 10⟩), (⟨10, 10⟩, ⟨0, 0⟩)] := rfl
      rw [hs] at hg
      simp only [List.mem_cons, List.not_mem_nil, or_false] at hg
      rcases hg with rfl | rfl | rfl <;> simp only at hx hy <;> linarith
    · have ha : ∀ q ∈ [(⟨0, 0⟩ : Pt), ⟨4, 1⟩, ⟨10, 10⟩, ⟨0, 0⟩], area2 ⟨20, 3⟩ q ⟨8, 2⟩ ≠ 0 := by decide +kernel
      exact h ⟨20, 3⟩ (fun q hq => Polygons.not_onSegment_of_area (ha q hq)) (by decide +kernel)
  · intro search hs
    obtain ⟨e, h1, c, h2, _⟩ := hs ⟨8, 2⟩ ⟨0, ⟨2, 1 / 2⟩, by decide +kernel⟩
    have hlt := centre_lt h2
    have hl : (runOf obtuse).1.edges.length = 3 := by decide +kernel
    rw [hl] at hlt
    have hall : ∀ e < 3, pointFace (runOf obtuse).1 (runOf obtuse).2 ⟨8, 2⟩ e = .ok 0 := by decide +kernel
    simp only [pointFaces, h1, hall e hlt, Res.ok_bind]

end Verif.Locate
