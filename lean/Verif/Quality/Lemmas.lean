import Verif.Quality.TriangleLemmas
import Verif.Faces.Props
import Verif.Polygons.AreaProps
/-!
# Lemmas: the values at the edges
-/
namespace Verif.Quality
open Verif.Mesh Verif.Faces
open Verif.Polygons (Pt area2 shoelace minArea)

/-! ## Loops -/

theorem fill_ok {α : Type} {f : Nat → Res α} : ∀ {k j : Nat}, (∀ i, i < k → ∃ v, f (j + i) = .ok v) →
    ∃ l, fill f k j = .ok l ∧ l.length = k ∧ ∀ i v, i < k → f (j + i) = .ok v → l[i]? = some v
  | 0, j, _ => ⟨[], rfl, rfl, fun i v h => absurd h (Nat.not_lt_zero _)⟩
  | k + 1, j, h => by
    obtain ⟨v, hv⟩ := h 0 (by omega)
    obtain ⟨l, h1, h2, h3⟩ := fill_ok (f := f) (k := k) (j := j + 1) (fun i hi => by
      obtain ⟨w, hw⟩ := h (i + 1) (by omega)
      exact ⟨w, by rw [← hw]; congr 1; omega⟩)
    rw [Nat.add_zero] at hv
    refine ⟨v :: l, ?_, by simp [h2], ?_⟩
    · rw [fill, hv, Res.ok_bind, h1]; rfl
    · intro i w hi hw
      cases i with
      | zero =>
        rw [Nat.add_zero, hv] at hw
        obtain rfl := Res.ok.inj hw
        rfl
      | succ i =>
        rw [List.getElem?_cons_succ]
        exact h3 i w (by omega) (by rw [← hw]; congr 1; omega)

theorem fill_ub {α : Type} {f : Nat → Res α} : ∀ {k j : Nat} (i : Nat), i < k → (∀ i', i' < i → ∃ v, f (j + i') = .ok v) → f (j + i) = .ub →
    fill f k j = .ub
  | 0, _, i, h, _, _ => absurd h (Nat.not_lt_zero _)
  | k + 1, j, 0, _, _, hu => by
    rw [Nat.add_zero] at hu
    rw [fill, hu]; rfl
  | k + 1, j, i + 1, h, ho, hu => by
    obtain ⟨v, hv⟩ := ho 0 (by omega)
    rw [Nat.add_zero] at hv
    rw [fill, hv, Res.ok_bind, fill_ub i (by omega) (fun i' hi' => by
      obtain ⟨w, hw⟩ := ho (i' + 1) (by omega)
      exact ⟨w, by rw [← hw]; congr 1; omega⟩) (by rw [← hu]; congr 1; omega)]
    rfl

/-! ## The cosine -/

theorem innerProduct_none {a b c d : Pt} (h : a = b ∨ c = d) : innerProduct a b c d = none := by
  unfold innerProduct
  simp only []
  rw [if_pos]
  rcases h with rfl | rfl
  · left; simp
  · right; simp

theorem innerProduct_some {a b c d : Pt} (h1 : a ≠ b) (h2 : c ≠ d) :
    ∃ v, innerProduct a b c d = some v ∧ AbsCosine |v| a b c d := by
  have g1 := gap_pos h1
  have g2 := gap_pos h2
  have e1 : (b.x - a.x) * (b.x - a.x) + (b.y - a.y) * (b.y - a.y) = gap a b := by unfold gap; ring
  have e2 : (d.x - c.x) * (d.x - c.x) + (d.y - c.y) * (d.y - c.y) = gap c d := by unfold gap; ring
  unfold innerProduct
  simp only []
  rw [e1, e2, if_neg (by push Not; exact ⟨g1, g2⟩)]
  refine ⟨_, rfl, ?_⟩
  have hdot : (b.x - a.x) * (d.x - c.x) + (b.y - a.y) * (d.y - c.y) = dot a b c d := rfl
  rw [hdot]
  have hG : (0 : ℝ) < ((gap a b * gap c d : ℚ) : ℝ) := by exact_mod_cast mul_pos g1 g2
  have hs := Real.sqrt_pos.2 hG
  have hss := Real.sq_sqrt hG.le
  generalize √((gap a b * gap c d : ℚ) : ℝ) = w at *
  have cs : (dot a b c d) ^ 2 ≤ gap a b * gap c d := by
    unfold dot gap
    nlinarith [sq_nonneg ((b.x - a.x) * (d.y - c.y) - (b.y - a.y) * (d.x - c.x))]
  have csr : ((dot a b c d : ℚ) : ℝ) ^ 2 ≤ w ^ 2 := by
    rw [hss]; exact_mod_cast cs
  have habs := abs_le_of_sq_le_sq' csr hs.le
  have l1 : ((dot a b c d : ℚ) : ℝ) / w ≤ 1 := (div_le_one hs).2 habs.2
  have l2 : -1 ≤ ((dot a b c d : ℚ) : ℝ) / w := by rw [le_div_iff₀ hs]; linarith [habs.1]
  rw [min_eq_left l1, max_eq_left l2]
  refine ⟨abs_nonneg _, abs_le.2 ⟨l2, l1⟩, ?_⟩
  rw [sq_abs, div_pow, hss]
  push_cast
  have hG' : ((gap a b : ℚ) : ℝ) * ((gap c d : ℚ) : ℝ) ≠ 0 := by
    have : ((gap a b * gap c d : ℚ) : ℝ) ≠ 0 := hG.ne'
    push_cast at this
    exact this
  field_simp

/-! ## Faces of an edge -/

theorem borders_lt {s : State} {f e : Nat} (h : Borders s f e) : f < s.facesEdges.length := by
  obtain ⟨es, h1, _⟩ := h
  exact (List.getElem?_eq_some_iff.1 h1).1

/-- What the tables say about an edge. -/
theorem edge_faces {edges : List Edge} {cw : List Nat → Bool} {s : State} (hc : Consistent edges cw s) (hF : s.facesNodes.length ≤ missing) {e : Nat}
    (he : e < edges.length) : ∃ k p, s.numFaces[e]? = some k ∧ s.edgesFaces[e]? = some p ∧
      ((p.1 ≠ missing ∧ p.2 ≠ missing ∧ k = 2 ∧ p.1 ≠ p.2 ∧ ∀ f, Borders s f e ↔ f = p.1 ∨ f = p.2) ∨
        (p.2 = missing ∧ ∀ f g, Borders s f e → Borders s g e → f = g)) := by
  obtain ⟨k, p, l, h1, h2, h3, h4, h5⟩ := hc.faces e he
  refine ⟨k, p, h1, h2, ?_⟩
  cases h3 with
  | none => right; exact ⟨rfl, fun f g hf => absurd ((h5 f).2 hf) (by simp)⟩
  | one f =>
    right
    refine ⟨rfl, fun a b ha hb => ?_⟩
    rw [List.mem_singleton.1 ((h5 a).2 ha), List.mem_singleton.1 ((h5 b).2 hb)]
  | two f g =>
    left
    have hl := hc.lengths
    have b1 := borders_lt ((h5 f).1 (by simp))
    have b2 := borders_lt ((h5 g).1 (by simp))
    refine ⟨by simp only []; omega, by simp only []; omega, rfl, by simpa using h4, fun x => ?_⟩
    rw [← h5 x]; simp

/-- An edge with a face has two valid nodes. -/
theorem border_ends {P : Type} {m : Mesh P} {cw : List Nat → Bool} {s : State} (hc : Consistent m.edges cw s)
    (hv : ∀ (f : Nat) ns, s.facesNodes[f]? = some ns → ∀ n ∈ ns, validNode m.nodes n = true) (hn : m.nodes.length ≤ missing) {f e : Nat}
    (hb : Borders s f e) : ∃ p a b, m.edges[e]? = some p ∧ m.nodes[p.1]? = some (some a) ∧ m.nodes[p.2]? = some (some b) ∧
      p.1 ≠ missing ∧ p.2 ≠ missing ∧ seg m.nodes p = some (a, b) := by
  obtain ⟨es, h1, h2⟩ := hb
  have hlt : f < s.facesNodes.length := by rw [hc.lengths]; exact (List.getElem?_eq_some_iff.1 h1).1
  obtain ⟨hp, _⟩ := hc.proper f _ es (List.getElem?_eq_getElem hlt) h1
  obtain ⟨i, hi, rfl⟩ := List.getElem_of_mem h2
  obtain ⟨x, y, e, p, g1, g2, g3, g4, g5⟩ := hp.sides i (by rw [← hp.len]; exact hi)
  rw [List.getElem?_eq_getElem hi] at g3
  obtain rfl := Option.some.inj g3
  have vx := hv f _ (List.getElem?_eq_getElem hlt) x (List.mem_of_getElem? g1)
  have vy := hv f _ (List.getElem?_eq_getElem hlt) y (List.mem_of_getElem? g2)
  have val : ∀ n, validNode m.nodes n = true → ∃ a, m.nodes[n]? = some (some a) ∧ n ≠ missing := by
    intro n hn'
    unfold validNode at hn'
    rw [Option.isSome_iff_exists] at hn'
    obtain ⟨a, ha⟩ := hn'
    rw [Option.join_eq_some_iff] at ha
    have := (List.getElem?_eq_some_iff.1 ha).1
    exact ⟨a, ha, by omega⟩
  obtain ⟨a, ha, ma⟩ := val x vx
  obtain ⟨b, hb, mb⟩ := val y vy
  rcases g5 with rfl | rfl
  · exact ⟨(x, y), a, b, g4, ha, hb, ma, mb, by simp [seg, ha, hb]⟩
  · exact ⟨(y, x), b, a, g4, hb, ha, mb, ma, by simp [seg, ha, hb]⟩

/-- What holds after the administration. -/
structure Ready (m : Mesh Pt) (s : State) : Prop where
  consistent : Consistent m.edges (clockwise m.nodes) s
  valid : ∀ (f : Nat) ns, s.facesNodes[f]? = some ns → ∀ n ∈ ns, validNode m.nodes n = true
  nodes : m.nodes.length ≤ missing
  faces : s.facesNodes.length ≤ missing

theorem ready_of_run {m m1 : Mesh Pt} {s : State} (hn : m.nodes.length ≤ missing) (hb : inBounds m = true)
    (hrun : doAdministrationCartesian m = .ok (m1, s)) (hF : s.facesNodes.length ≤ missing) : Ready m1 s := by
  obtain ⟨m0, m1', s', h0, h1, _, _, h2, h3, h4, _⟩ := cartesian_run m hn hb
  rw [hrun] at h2
  obtain ⟨rfl, rfl⟩ := Prod.mk.inj (Res.ok.inj h2)
  refine ⟨h3, h4, ?_, hF⟩
  obtain ⟨m0', g1, g2⟩ := setUnconnectedInvalid_ok hn hb
  rw [h0] at g1
  obtain rfl := Res.ok.inj g1
  rw [h1, g2.1]
  simpa [connectedNodes] using hn

theorem validNode_get {P : Type} {nodes : List (Option P)} {n : Nat} (h : validNode nodes n = true) : ∃ a, nodes[n]? = some (some a) := by
  unfold validNode at h
  rw [Option.isSome_iff_exists] at h
  obtain ⟨a, ha⟩ := h
  rw [Option.join_eq_some_iff] at ha
  exact ⟨a, ha⟩

theorem centres_get {other : List Pt → List Nat → Pt} {m : Mesh Pt} {cw : List Nat → Bool} {s : State} (hc : Consistent m.edges cw s) {f : Nat}
    (hf : f < s.facesEdges.length) : vget (tables other m s).centres f = .ok (centreOf other m s f) := by
  have hf' : f < s.facesNodes.length := by rw [hc.lengths]; exact hf
  rw [vget_eq_ok]
  unfold tables centreOf
  simp only [List.getElem?_map]
  have : (s.facesNodes.zip s.facesEdges)[f]? = some (s.facesNodes[f], s.facesEdges[f]) := by
    rw [List.getElem?_eq_getElem (by simp; omega)]
    simp
  rw [this]
  simp [hf, hf']

theorem areaAndMass_eq {nodes : List (Option Pt)} {ns : List Nat} (h3 : 3 ≤ ns.length) (hv : ∀ n ∈ ns, n < nodes.length)
    (hs : 0 < shoelace (ns.map (position nodes))) : (areaAndMass nodes ns).1 = max (shoelace (ns.map (position nodes))) minArea ∧
      (minArea ≤ shoelace (ns.map (position nodes)) → (areaAndMass nodes ns).2 = Polygons.centroid (ns.map (position nodes))) := by
  have hg := gatherNodes_map (nodes := nodes.map (fun p => p.getD ⟨-999, -999⟩)) (ns := ns) (by simpa using hv)
  have hm : ns.map (fun n => (nodes.map (fun p => p.getD ⟨-999, -999⟩)).getD n ⟨-999, -999⟩) = ns.map (position nodes) := by
    apply List.map_congr_left
    intro n hn
    unfold position
    have hlt := hv n hn
    simp [List.getElem?_eq_getElem hlt]
  rw [hm] at hg
  have e : Polygons.faceAreaIndexed (nodes.map (fun p => p.getD ⟨-999, -999⟩)) ns false =
      .ok (Polygons.areaFinish (Polygons.referencePoint (ns.map (position nodes))) (Polygons.areaSums (Polygons.referencePoint (ns.map (position nodes))) (ns.map (position nodes)))) := by
    unfold Polygons.faceAreaIndexed
    rw [if_neg (by omega), hg]; rfl
  have hma : (0 : ℚ) < minArea := by unfold minArea; norm_num
  unfold areaAndMass
  rw [e]
  generalize Polygons.referencePoint (ns.map (position nodes)) = rp
  constructor
  · show (Polygons.areaFinish rp (Polygons.areaSums rp (ns.map (position nodes)))).1 = _
    unfold Polygons.areaFinish
    simp only [Polygons.areaSums_area]
    rw [abs_of_pos hs]
    split_ifs with h
    · rw [abs_of_pos hma, max_eq_right h.le]
    · rw [abs_of_pos hs, max_eq_left (not_lt.1 h)]
  · intro hle
    show (Polygons.areaFinish rp (Polygons.areaSums rp (ns.map (position nodes)))).2.1 = _
    rw [Polygons.areaFinish_eq _ _ (by rw [abs_of_pos hs]; exact hle)]

theorem areas_get {other : List Pt → List Nat → Pt} {m : Mesh Pt} {s : State} (r : Ready m s) {f : Nat} (hf : f < s.facesEdges.length) :
    vget (tables other m s).areas f = .ok (areaOf m s f) ∧ minArea ≤ areaOf m s f ∧ vget (tables other m s).masses f =
      .ok (massOf m s f) ∧ (minArea ≤ shoelace (corners m s f) → massOf m s f = Polygons.centroid (corners m s f)) ∧
      0 < shoelace (corners m s f) := by
  have hf' : f < s.facesNodes.length := by rw [r.consistent.lengths]; exact hf
  have hg : s.facesNodes[f]? = some s.facesNodes[f] := List.getElem?_eq_getElem hf'
  have hd : s.facesNodes.getD f [] = s.facesNodes[f] := by simp [hf']
  obtain ⟨hp, hcw⟩ := r.consistent.proper f _ _ hg (List.getElem?_eq_getElem hf)
  have hv : ∀ n ∈ s.facesNodes[f], n < m.nodes.length := by
    intro n hn
    obtain ⟨a, ha⟩ := validNode_get (r.valid f _ hg n hn)
    exact (List.getElem?_eq_some_iff.1 ha).1
  have hpos := (clockwise_iff hp.atLeast hv).1 hcw
  obtain ⟨h1, h2⟩ := areaAndMass_eq hp.atLeast hv hpos
  unfold areaOf massOf corners
  rw [hd]
  refine ⟨?_, le_max_right _ _, ?_, h2, hpos⟩
  · rw [vget_eq_ok, ← h1]
    simp [tables, hf']
  · rw [vget_eq_ok]
    simp [tables, hf']

/-! ## One round of the loops -/

/-- An edge with two faces. -/
theorem two_faces {m : Mesh Pt} {s : State} (r : Ready m s) {e f g : Nat} (he : e < m.edges.length) (hne : f ≠ g) (hf : Borders s f e)
    (hg : Borders s g e) : ∃ p a b q, m.edges[e]? = some p ∧ s.edgesFaces[e]? = some q ∧ s.numFaces[e]? = some 2 ∧ twoFaces p q = true ∧
      m.nodes[p.1]? = some (some a) ∧ m.nodes[p.2]? = some (some b) ∧ seg m.nodes p = some (a, b) ∧ (q = (f, g) ∨ q = (g, f)) ∧
      p.1 ≠ missing ∧ p.2 ≠ missing := by
  obtain ⟨k, q, h1, h2, h3⟩ := edge_faces r.consistent r.faces he
  obtain ⟨p, a, b, e1, e2, e3, e4, e5, e6⟩ := border_ends r.consistent r.valid r.nodes hf
  rcases h3 with ⟨q1, q2, rfl, q3, q4⟩ | ⟨_, q2⟩
  · refine ⟨p, a, b, q, e1, h2, h1, ?_, e2, e3, e6, ?_, e4, e5⟩
    · simp [twoFaces, e4, e5, q1, q2]
    · have := (q4 f).1 hf
      have := (q4 g).1 hg
      rcases q with ⟨x, y⟩
      simp only [] at *
      rcases (q4 f).1 hf with rfl | rfl <;> rcases (q4 g).1 hg with rfl | rfl
      · exact absurd rfl hne
      · exact Or.inl rfl
      · exact Or.inr rfl
      · exact absurd rfl hne
  · exact absurd (q2 f g hf hg) hne

/-- An edge without two faces. -/
theorem not_two_faces {m : Mesh Pt} {s : State} (r : Ready m s) {e : Nat} (he : e < m.edges.length)
    (h : ∀ f g, Borders s f e → Borders s g e → f = g) : ∃ p q, m.edges[e]? = some p ∧ s.edgesFaces[e]? = some q ∧ twoFaces p q = false := by
  obtain ⟨k, q, h1, h2, h3⟩ := edge_faces r.consistent r.faces he
  refine ⟨m.edges[e], q, List.getElem?_eq_getElem he, h2, ?_⟩
  rcases h3 with ⟨q1, q2, rfl, q3, q4⟩ | ⟨q1, _⟩
  · exact absurd (h q.1 q.2 ((q4 _).2 (Or.inl rfl)) ((q4 _).2 (Or.inr rfl))) q3
  · simp [twoFaces, q1]

theorem edgeOrthogonality_two {other : List Pt → List Nat → Pt} {m : Mesh Pt} {s : State} (r : Ready m s) {e f g : Nat} (he : e < m.edges.length)
    (hne : f ≠ g) (hf : Borders s f e) (hg : Borders s g e) : ∃ p a b c d, m.edges[e]? = some p ∧ seg m.nodes p = some (a, b) ∧
      edgeOrthogonality (tables other m s) e = .ok ((innerProduct a b c d).map (|·|)) ∧
      ((c = centreOf other m s f ∧ d = centreOf other m s g) ∨ (c = centreOf other m s g ∧ d = centreOf other m s f)) := by
  obtain ⟨p, a, b, q, h1, h2, h3, h4, h5, h6, h7, h8, _⟩ := two_faces r he hne hf hg
  have c1 := centres_get (other := other) r.consistent (borders_lt hf)
  have c2 := centres_get (other := other) r.consistent (borders_lt hg)
  have v1 : vget (tables other m s).edges e = .ok p := vget_eq_ok.2 h1
  have v2 : vget (tables other m s).edgesFaces e = .ok q := vget_eq_ok.2 h2
  have v3 : vget (tables other m s).numFaces e = .ok 2 := vget_eq_ok.2 h3
  have v4 : vget (tables other m s).nodes p.1 = .ok (some a) := vget_eq_ok.2 h5
  have v5 : vget (tables other m s).nodes p.2 = .ok (some b) := vget_eq_ok.2 h6
  rcases h8 with rfl | rfl
  · refine ⟨p, a, b, _, _, h1, h7, ?_, Or.inl ⟨rfl, rfl⟩⟩
    unfold edgeOrthogonality
    rw [v1, Res.ok_bind, v2, Res.ok_bind, if_pos h4, v3, Res.ok_bind, if_neg (by decide), v4, Res.ok_bind, v5, Res.ok_bind, c1, Res.ok_bind, c2]
    rfl
  · refine ⟨p, a, b, _, _, h1, h7, ?_, Or.inr ⟨rfl, rfl⟩⟩
    unfold edgeOrthogonality
    rw [v1, Res.ok_bind, v2, Res.ok_bind, if_pos h4, v3, Res.ok_bind, if_neg (by decide), v4, Res.ok_bind, v5, Res.ok_bind, c2, Res.ok_bind, c1]
    rfl

theorem edgeOrthogonality_missing {other : List Pt → List Nat → Pt} {m : Mesh Pt} {s : State} (r : Ready m s) {e : Nat} (he : e < m.edges.length)
    (h : ∀ f g, Borders s f e → Borders s g e → f = g) : edgeOrthogonality (tables other m s) e = .ok none := by
  obtain ⟨p, q, h1, h2, h3⟩ := not_two_faces r he h
  have v1 : vget (tables other m s).edges e = .ok p := vget_eq_ok.2 h1
  have v2 : vget (tables other m s).edgesFaces e = .ok q := vget_eq_ok.2 h2
  unfold edgeOrthogonality
  rw [v1, Res.ok_bind, v2, Res.ok_bind, if_neg (by rw [h3]; decide)]

theorem edgeSmoothness_two {other : List Pt → List Nat → Pt} {m : Mesh Pt} {s : State} (r : Ready m s) {e f g : Nat} (he : e < m.edges.length)
    (hne : f ≠ g) (hf : Borders s f e) (hg : Borders s g e) :
    edgeSmoothness (tables other m s) e = .ok (some (max (areaOf m s f) (areaOf m s g) / min (areaOf m s f) (areaOf m s g))) := by
  obtain ⟨p, a, b, q, h1, h2, h3, h4, h5, h6, h7, h8, _⟩ := two_faces r he hne hf hg
  obtain ⟨c1, l1, _⟩ := areas_get (other := other) r (borders_lt hf)
  obtain ⟨c2, l2, _⟩ := areas_get (other := other) r (borders_lt hg)
  have v1 : vget (tables other m s).edges e = .ok p := vget_eq_ok.2 h1
  have v2 : vget (tables other m s).edgesFaces e = .ok q := vget_eq_ok.2 h2
  have v3 : vget (tables other m s).numFaces e = .ok 2 := vget_eq_ok.2 h3
  have hm : minimumCellArea < minArea := by unfold minimumCellArea minArea; norm_num
  have key : ∀ x y : ℚ, minArea ≤ x → minArea ≤ y → ratio x y = some (max x y / min x y) := by
    intro x y hx hy
    have m0 : (0 : ℚ) < minArea := by unfold minArea; norm_num
    have x0 : 0 < x := lt_of_lt_of_le m0 hx
    have y0 : 0 < y := lt_of_lt_of_le m0 hy
    unfold ratio
    rw [if_pos ⟨lt_of_lt_of_le hm hx, lt_of_lt_of_le hm hy⟩]
    congr 1
    by_cases hlt : y < x
    · rw [if_pos ((div_lt_one x0).2 hlt), max_eq_left hlt.le, min_eq_right hlt.le, one_div_div]
    · rw [if_neg (by rw [div_lt_one x0]; exact hlt), max_eq_right (not_lt.1 hlt), min_eq_left (not_lt.1 hlt)]
  rcases h8 with rfl | rfl
  · unfold edgeSmoothness
    rw [v1, Res.ok_bind, v2, Res.ok_bind, if_pos h4, v3, Res.ok_bind, if_neg (by decide), c1, Res.ok_bind, c2, Res.ok_bind, key _ _ l1 l2]
  · unfold edgeSmoothness
    rw [v1, Res.ok_bind, v2, Res.ok_bind, if_pos h4, v3, Res.ok_bind, if_neg (by decide), c2, Res.ok_bind, c1, Res.ok_bind, key _ _ l2 l1, max_comm, min_comm]

theorem edgeSmoothness_missing {other : List Pt → List Nat → Pt} {m : Mesh Pt} {s : State} (r : Ready m s) {e : Nat} (he : e < m.edges.length)
    (h : ∀ f g, Borders s f e → Borders s g e → f = g) : edgeSmoothness (tables other m s) e = .ok none := by
  obtain ⟨p, q, h1, h2, h3⟩ := not_two_faces r he h
  have v1 : vget (tables other m s).edges e = .ok p := vget_eq_ok.2 h1
  have v2 : vget (tables other m s).edgesFaces e = .ok q := vget_eq_ok.2 h2
  unfold edgeSmoothness
  rw [v1, Res.ok_bind, v2, Res.ok_bind, if_neg (by rw [h3]; decide)]

/-! ## Lists of faces and edges -/

theorem collect {α : Type} {step : Nat → List α → Res (List α)} {sel : Nat → Option α} {n : Nat}
    (h : ∀ i r, i < n → step i r = .ok (r ++ (sel i).toList)) : forRange 0 n step [] = .ok ((List.range n).filterMap sel) := by
  have := forRange_eq (f := step) (lo := 0) (hi := n) (fun i => (List.range i).filterMap sel) (Nat.zero_le _) (fun i _ hi => by
    rw [h i _ hi, List.range_succ, List.filterMap_append]
    cases hs : sel i <;> simp [hs])
  simpa using this

theorem position_get {nodes : List (Option Pt)} {n : Nat} {a : Pt} (h : nodes[n]? = some (some a)) : position nodes n = a := by
  unfold position
  rw [List.getElem?_eq_some_iff] at h
  obtain ⟨h1, h2⟩ := h
  simp [h1, h2]

/-- The test of lengths is a test of angles. -/
theorem isObtuse_iff (p q r : Pt) : isObtuse (some p) (some q) (some r) = true ↔ Obtuse p q r := by
  unfold isObtuse Obtuse squared dotAt
  simp only [Bool.or_eq_true, decide_eq_true_eq]
  constructor
  · rintro ((h | h) | h)
    · right; right; nlinarith
    · right; left; nlinarith
    · left; nlinarith
  · rintro (h | h | h)
    · right; nlinarith
    · left; right; nlinarith
    · left; left; nlinarith

/-- What one round adds. -/
noncomputable def obtuseSel (m : Mesh Pt) (s : State) (f : Nat) : Option Pt :=
  open Classical in if ObtuseFace m s f then some (massOf m s f) else none

theorem obtuseStep_eq {other : List Pt → List Nat → Pt} {m : Mesh Pt} {s : State} (r : Ready m s) {f : Nat} (l : List Pt)
    (hf : f < s.facesNodes.length) : obtuseStep (tables other m s) f l = .ok (l ++ (obtuseSel m s f).toList) := by
  have hf' : f < s.facesEdges.length := by rw [← r.consistent.lengths]; exact hf
  obtain ⟨_, _, hm, _⟩ := areas_get (other := other) r hf'
  have hg : s.facesNodes[f]? = some s.facesNodes[f] := List.getElem?_eq_getElem hf
  have hd : s.facesNodes.getD f [] = s.facesNodes[f] := by simp [hf]
  have hval := r.valid f _ hg
  have v1 : vget (tables other m s).facesNodes f = .ok s.facesNodes[f] := vget_eq_ok.2 hg
  unfold obtuseStep
  rw [v1, Res.ok_bind]
  unfold obtuseSel ObtuseFace corners
  rw [hd]
  generalize s.facesNodes[f] = ns at *
  by_cases h3 : ns.length = 3
  · obtain ⟨i, j, k, rfl⟩ := List.length_eq_three.1 h3
    rw [if_pos (by simp)]
    obtain ⟨a, ha⟩ := validNode_get (hval i (by simp))
    obtain ⟨b, hb⟩ := validNode_get (hval j (by simp))
    obtain ⟨c, hc⟩ := validNode_get (hval k (by simp))
    have va : vget (tables other m s).nodes i = .ok (some a) := vget_eq_ok.2 ha
    have vb : vget (tables other m s).nodes j = .ok (some b) := vget_eq_ok.2 hb
    have vc : vget (tables other m s).nodes k = .ok (some c) := vget_eq_ok.2 hc
    have w0 : vget [i, j, k] 0 = .ok i := rfl
    have w1 : vget [i, j, k] 1 = .ok j := rfl
    have w2 : vget [i, j, k] 2 = .ok k := rfl
    rw [w0, Res.ok_bind, w1, Res.ok_bind, w2, Res.ok_bind, va, Res.ok_bind, vb, Res.ok_bind, vc, Res.ok_bind]
    have key : (∃ p q r : Pt, [i, j, k].map (position m.nodes) = [p, q, r] ∧ Obtuse p q r) ↔ isObtuse (some a) (some b) (some c) = true := by
      rw [isObtuse_iff]
      simp only [List.map_cons, List.map_nil, position_get ha, position_get hb, position_get hc]
      constructor
      · rintro ⟨p, q, r, h, ho⟩
        simp only [List.cons.injEq, and_true] at h
        obtain ⟨rfl, rfl, rfl⟩ := h
        exact ho
      · exact fun h => ⟨_, _, _, rfl, h⟩
    by_cases ho : isObtuse (some a) (some b) (some c) = true
    · rw [if_pos ho, hm, Res.ok_bind, if_pos (key.2 ho)]; rfl
    · rw [if_neg ho, if_neg (fun h => ho (key.1 h))]
      simp
  · rw [if_neg (by simpa using h3), if_neg]
    · simp
    · rintro ⟨p, q, r, h, _⟩
      apply h3
      have := congrArg List.length h
      simpa using this

/-- What one round adds. -/
noncomputable def flowSel (other : List Pt → List Nat → Pt) (m : Mesh Pt) (s : State) (threshold : ℚ) (e : Nat) : Option Nat :=
  open Classical in if ShortFlow other m s threshold e then some e else none

theorem distance_some (c d : Pt) : distance (some c) (some d) = √((gap c d : ℚ) : ℝ) := by
  unfold distance gap
  simp only []
  congr 2
  ring

theorem gap_comm (c d : Pt) : gap c d = gap d c := by unfold gap; ring

theorem flowStep_eq {other : List Pt → List Nat → Pt} {m : Mesh Pt} {s : State} (r : Ready m s) (threshold : ℚ) {e : Nat} (l : List Nat)
    (he : e < m.edges.length) : flowStep (tables other m s) threshold e l = .ok (l ++ (flowSel other m s threshold e).toList) := by
  obtain ⟨k, q, h1, h2, h3⟩ := edge_faces r.consistent r.faces he
  have v2 : vget (tables other m s).edgesFaces e = .ok q := vget_eq_ok.2 h2
  unfold flowStep flowSel
  rw [v2, Res.ok_bind]
  rcases h3 with ⟨q1, q2, rfl, q3, q4⟩ | ⟨q1, q2⟩
  · have b1 := (q4 q.1).2 (Or.inl rfl)
    have b2 := (q4 q.2).2 (Or.inr rfl)
    rw [if_pos (by simp [q1, q2]), centres_get r.consistent (borders_lt b1), Res.ok_bind, centres_get r.consistent (borders_lt b2), Res.ok_bind,
      (areas_get r (borders_lt b1)).1, Res.ok_bind, (areas_get r (borders_lt b2)).1, Res.ok_bind]
    have key : isShort threshold (centreOf other m s q.1) (centreOf other m s q.2) (areaOf m s q.1) (areaOf m s q.2) = true ↔
        ShortFlow other m s threshold e := by
      unfold isShort ShortFlow
      rw [decide_eq_true_eq, distance_some]
      constructor
      · intro h
        exact ⟨q.1, q.2, q3, b1, b2, by linarith [h]⟩
      · rintro ⟨f, g, hne, hf, hg, h⟩
        rcases (q4 f).1 hf with rfl | rfl <;> rcases (q4 g).1 hg with rfl | rfl
        · exact absurd rfl hne
        · linarith [h]
        · rw [gap_comm] at h; linarith [h]
        · exact absurd rfl hne
    by_cases hs : ShortFlow other m s threshold e
    · rw [if_pos (key.2 hs), if_pos hs]; rfl
    · rw [if_neg (fun h => hs (key.1 h)), if_neg hs]; simp
  · rw [if_neg (by simp [q1]), if_neg]
    · simp
    · rintro ⟨f, g, hne, hf, hg, _⟩
      exact hne (q2 f g hf hg)

theorem flowEdgesCenters_eq {other : List Pt → List Nat → Pt} {m : Mesh Pt} {s : State} (r : Ready m s) : ∀ (l : List Nat),
    (∀ e ∈ l, e < m.edges.length ∧ ∃ f g, f ≠ g ∧ Borders s f e ∧ Borders s g e) →
    ∃ ps, flowEdgesCenters (tables other m s) l = .ok ps ∧ List.Forall₂ (fun e p => ∃ f g, f ≠ g ∧ Borders s f e ∧ Borders s g e ∧
      p.x = ((centreOf other m s f).x + (centreOf other m s g).x) / 2 ∧ p.y = ((centreOf other m s f).y + (centreOf other m s g).y) / 2) l ps
  | [], _ => ⟨[], rfl, List.Forall₂.nil⟩
  | e :: l, h => by
    obtain ⟨he, f, g, hne, hf, hg⟩ := h e (by simp)
    obtain ⟨p, a, b, q, h1, h2, h3, h4, h5, h6, h7, h8, _⟩ := two_faces r he hne hf hg
    obtain ⟨ps, i1, i2⟩ := flowEdgesCenters_eq r l (fun e he => h e (by simp [he]))
    have v2 : vget (tables other m s).edgesFaces e = .ok q := vget_eq_ok.2 h2
    have c1 := centres_get (other := other) r.consistent (borders_lt hf)
    have c2 := centres_get (other := other) r.consistent (borders_lt hg)
    rcases h8 with rfl | rfl
    · refine ⟨_, by rw [flowEdgesCenters, v2, Res.ok_bind, c1, Res.ok_bind, c2, Res.ok_bind, i1]; rfl, List.Forall₂.cons ?_ i2⟩
      exact ⟨f, g, hne, hf, hg, by simp only []; ring, by simp only []; ring⟩
    · refine ⟨_, by rw [flowEdgesCenters, v2, Res.ok_bind, c2, Res.ok_bind, c1, Res.ok_bind, i1]; rfl, List.Forall₂.cons ?_ i2⟩
      exact ⟨g, f, hne.symm, hg, hf, by simp only []; ring, by simp only []; ring⟩

/-! ## Lengths -/

/-- After the administration an edge joins two valid nodes or is deleted. -/
theorem run_edges {m m1 : Mesh Pt} {s : State} (hn : m.nodes.length ≤ missing) (hb : inBounds m = true)
    (hrun : doAdministrationCartesian m = .ok (m1, s)) : m1.edges.length = m.edges.length ∧ ∀ e, e < m1.edges.length →
      ∃ p, m1.edges[e]? = some p ∧ ((∃ a b, seg m1.nodes p = some (a, b) ∧ m1.nodes[p.1]? = some (some a) ∧ m1.nodes[p.2]? = some (some b) ∧
        p.1 ≠ missing ∧ p.2 ≠ missing) ∨ p = noEdge) := by
  obtain ⟨m0, m1', s', h0, h1, h2, _, h3, _⟩ := cartesian_run m hn hb
  rw [hrun] at h3
  obtain ⟨rfl, rfl⟩ := Prod.mk.inj (Res.ok.inj h3)
  obtain ⟨m0', g1, g2, g3, g4⟩ := setUnconnectedInvalid_ok hn hb
  rw [h0] at g1
  obtain rfl := Res.ok.inj g1
  refine ⟨by rw [h2, g3], fun e he => ⟨_, List.getElem?_eq_getElem he, ?_⟩⟩
  have he0 : e < m0.edges.length := by rw [← h2]; exact he
  have hem : e < m.edges.length := by rw [← g3]; exact he0
  have e1 : edgeAt m0 e = m1.edges[e] := by
    unfold edgeAt
    simp [h2, he0]
  have hk := g4 e
  rw [e1] at hk
  by_cases hs : (seg m.nodes (edgeAt m e)).isSome = true
  · rw [if_pos hs] at hk
    left
    have hmem : edgeAt m e ∈ m.edges := by unfold edgeAt; simp [hem]
    rw [hk, h1, g2, seg_connectedNodes hn hmem]
    have hsc := seg_connectedNodes hn hmem
    obtain ⟨⟨a, b⟩, hab⟩ := Option.isSome_iff_exists.1 hs
    refine ⟨a, b, hab, ?_⟩
    rw [← hsc] at hab
    have hl : (connectedNodes m).length ≤ missing := by rw [connectedNodes_length]; exact hn
    generalize connectedNodes m = ns at *
    generalize edgeAt m e = p at *
    unfold seg at hab
    cases ha : ns[p.1]? with
    | none => simp [ha] at hab
    | some x => cases hb' : ns[p.2]? with
      | none => simp [ha, hb'] at hab
      | some y =>
        cases x with
        | none => simp [ha, hb'] at hab
        | some x => cases y with
          | none => simp [ha, hb'] at hab
          | some y =>
            simp [ha, hb'] at hab
            have l1 := (List.getElem?_eq_some_iff.1 ha).1
            have l2 := (List.getElem?_eq_some_iff.1 hb').1
            exact ⟨by rw [hab.1], by rw [hab.2], by omega, by omega⟩
  · right
    rw [hk, if_neg hs]

theorem edgeLength_eq {other : List Pt → List Nat → Pt} {m : Mesh Pt} {s : State} {old : List (Option ℝ)} {e : Nat} {p : Edge} {a b : Pt}
    (h : m.edges[e]? = some p) (ha : m.nodes[p.1]? = some (some a)) (hb : m.nodes[p.2]? = some (some b)) (n1 : p.1 ≠ missing) (n2 : p.2 ≠ missing) :
    edgeLength (tables other m s) old e = .ok (some (√((gap a b : ℚ) : ℝ))) := by
  have v1 : vget (tables other m s).edges e = .ok p := vget_eq_ok.2 h
  have v4 : vget (tables other m s).nodes p.1 = .ok (some a) := vget_eq_ok.2 ha
  have v5 : vget (tables other m s).nodes p.2 = .ok (some b) := vget_eq_ok.2 hb
  unfold edgeLength
  rw [v1, Res.ok_bind, if_pos (by simp [n1, n2]), v4, Res.ok_bind, v5, Res.ok_bind, distance_some]

theorem edgeLength_deleted {other : List Pt → List Nat → Pt} {m : Mesh Pt} {s : State} {old : List (Option ℝ)} {e : Nat}
    (h : m.edges[e]? = some noEdge) : edgeLength (tables other m s) old e = .ok (old[e]?.join) := by
  have v1 : vget (tables other m s).edges e = .ok noEdge := vget_eq_ok.2 h
  unfold edgeLength
  rw [v1, Res.ok_bind, if_neg (by simp [noEdge])]

/-- Reading a filled vector. -/
theorem fill_vget {α : Type} (r : List α) {n : Nat} (h : n ≤ r.length) : fill (vget r) n 0 = .ok (r.take n) := by
  obtain ⟨l, h1, h2, h3⟩ := fill_ok (f := vget r) (k := n) (j := 0) (fun i hi => ⟨r[i]'(by omega), by rw [Nat.zero_add]; exact vget_eq_ok.2 (List.getElem?_eq_getElem _)⟩)
  rw [h1]
  congr 1
  apply List.ext_getElem?
  intro i
  by_cases hi : i < n
  · rw [List.getElem?_take_of_lt hi, h3 i (r[i]'(by omega)) hi (by rw [Nat.zero_add]; exact vget_eq_ok.2 (List.getElem?_eq_getElem _)), List.getElem?_eq_getElem]
  · rw [List.getElem?_eq_none (by omega), List.getElem?_eq_none (by simp; omega)]

end Verif.Quality
