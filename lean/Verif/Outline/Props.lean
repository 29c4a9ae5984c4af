import Verif.Outline.Lemmas
import Verif.Delete.Props
/-!
# C52: the boundary polygons of a 2D mesh
-/
namespace Verif.Outline
open Verif.Mesh Verif.Faces
open Verif.Polygons (Pt)
variable {P : Type}

/-- **C52.** In a mesh whose faces and edges agree, an even number of boundary edges meets in every node. -/
theorem boundary_edges_even {edges : List Edge} {cw : List Nat → Bool} {s : State} (h : Consistent edges cw s) (n : Nat) :
    Even ((List.range edges.length).filter fun e => endsAt edges n e && decide (s.numFaces[e]? = some 1)).length := by
  have := even_boundary h n
  have e1 : ((Finset.range edges.length).filter fun e => endsAt edges n e = true ∧ s.numFaces[e]? = some 1) =
      ((List.range edges.length).filter fun e => endsAt edges n e && decide (s.numFaces[e]? = some 1)).toFinset := by
    ext e
    simp
  rw [e1, List.toFinset_card_of_nodup (List.nodup_range.filter _)] at this
  exact this

theorem onBoundary_ends {m : Mesh P} (w : WF m) (so : Delete.Sound m) {cw : List Nat → Bool} {s : State} (hc : Consistent m.edges cw s)
    (hv : ∀ (f : Nat) ns, s.facesNodes[f]? = some ns → ∀ n ∈ ns, validNode m.nodes n = true) {e : Nat} (h : s.numFaces[e]? = some 1) :
    e < m.edges.length ∧ m.edges[e]? = some (edgeAt m e) ∧ edgeAt m e ≠ noEdge ∧
      ∃ x y, m.nodes[(edgeAt m e).1]? = some (some x) ∧ m.nodes[(edgeAt m e).2]? = some (some y) := by
  obtain ⟨f, hf, _⟩ := (onBoundary_iff hc).1 h
  obtain ⟨h1, h2⟩ := Delete.borders_edge hc hv w.nodesFit hf
  refine ⟨h1, by simp [edgeAt, h1], h2, ?_⟩
  exact Delete.seg_ends (so.drawn e h2)

/-- The boundary edges with both ends inside. -/
def selected (inside : P → Bool) (m : Mesh P) (nf : List Nat) : List Nat :=
  (List.range m.edges.length).filter fun e => decide (nf[e]? = some 1) &&
    match seg m.nodes (edgeAt m e) with
    | some (x, y) => inside x && inside y
    | none => false

theorem selected_nodup (inside : P → Bool) (m : Mesh P) (nf : List Nat) : (selected inside m nf).Nodup := List.nodup_range.filter _

theorem selected_iff (inside : P → Bool) {m : Mesh P} {nf : List Nat} {e : Nat} :
    e ∈ selected inside m nf ↔ e < m.edges.length ∧ nf[e]? = some 1 ∧ EndsInside inside m e := by
  unfold selected EndsInside
  simp only [List.mem_filter, List.mem_range, Bool.and_eq_true, decide_eq_true_eq]
  refine and_congr_right fun he => and_congr_right fun _ => ?_
  constructor
  · intro h
    split at h
    · rename_i x y hs
      obtain ⟨a, b, h1, h2⟩ := Delete.seg_ends (by rw [hs]; rfl)
      rw [Delete.seg_of_ends h1 h2] at hs
      obtain ⟨rfl, rfl⟩ := Prod.mk.inj (Option.some.inj hs)
      rw [Bool.and_eq_true] at h
      exact ⟨_, _, a, b, by simp [edgeAt, he], h1, h2, h.1, h.2⟩
    · cases h
  · rintro ⟨a, b, x, y, h1, h2, h3, h4, h5⟩
    have : edgeAt m e = (a, b) := by simp [edgeAt, h1]
    rw [this, Delete.seg_of_ends h2 h3]
    simp [h4, h5]

theorem net_of {m : Mesh P} (inside : P → Bool) (w : WF m) (si : Simple m) (so : Delete.Sound m) {cw : List Nat → Bool} {s : State}
    (hc : Consistent m.edges cw s) (hv : ∀ (f : Nat) ns, s.facesNodes[f]? = some ns → ∀ n ∈ ns, validNode m.nodes n = true)
    (hin : ∀ (e a b : Nat) x y, OnBoundary s e → m.edges[e]? = some (a, b) → m.nodes[a]? = some (some x) → m.nodes[b]? = some (some y) →
      inside x = inside y) : Net inside m s.numFaces (selected inside m s.numFaces) := by
  refine ⟨List.nodup_range.filter _, hc.numFaces, ?_, ?_, ?_, ?_, ?_⟩
  · intro e he
    exact ((selected_iff inside).1 he).2.1
  · intro e h1
    obtain ⟨h2, h3, h4, x, y, h5, h6⟩ := onBoundary_ends w so hc hv h1
    have hxy := hin e _ _ x y ((onBoundary_iff hc).1 h1) h3 h5 h6
    refine ⟨_, _, x, y, h3, si.noLoop e h4, h5, h6, hxy, ?_⟩
    rw [selected_iff]
    constructor
    · rintro ⟨_, _, a, b, x', y', q1, q2, _, q4, _⟩
      rw [h3] at q1
      have := Option.some.inj q1
      rw [this] at h5
      rw [h5] at q2
      rw [Option.some.inj (Option.some.inj q2)]; exact q4
    · intro h7
      exact ⟨h2, h1, _, _, x, y, h3, h5, h6, h7, by rw [← hxy]; exact h7⟩
  · intro n x hx
    have hn : n < m.nodes.length := (List.getElem?_eq_some_iff.1 hx).1
    have hn1 : n < m.nodesEdges.length := by rw [w.lists]; exact hn
    have hl : listAt m n = m.nodesEdges[n] := by simp [listAt, hn1]
    refine ⟨listAt m n, ?_, fun e he => (w.listed n e he).1, ?_⟩
    · unfold listedEdges
      rw [w.counts, (vget_eq_ok.2 (by simp [hn1]) : vget (m.nodesEdges.map List.length) n = .ok m.nodesEdges[n].length), Res.ok_bind, vget_ok hn1, Res.ok_bind, hl,
        if_neg (by omega), List.take_length]
    · intro e h1
      obtain ⟨h2, h3, h4, _⟩ := onBoundary_ends w so hc hv h1
      rw [endsAt_iff h3]
      constructor
      · intro he
        exact ((w.listed n e he).2.resolve_left h4)
      · exact w.complete e n h4
  · intro n
    by_cases hin' : ∃ e ∈ selected inside m s.numFaces, endsAt m.edges n e = true
    · obtain ⟨e0, he0, hn0⟩ := hin'
      have hev := boundary_edges_even hc n
      have : (selected inside m s.numFaces).countP (endsAt m.edges n) =
          ((List.range m.edges.length).filter fun e => endsAt m.edges n e && decide (s.numFaces[e]? = some 1)).length := by
        rw [List.countP_eq_length_filter]
        refine (List.perm_of_nodup_nodup_toFinset_eq ((selected_nodup inside m s.numFaces).filter _) (List.nodup_range.filter _) ?_).length_eq
        have at_n : ∀ e, endsAt m.edges n e = true → s.numFaces[e]? = some 1 → ∃ x, m.nodes[n]? = some (some x) ∧
            (EndsInside inside m e ↔ inside x = true) := by
          intro e hen h1
          obtain ⟨_, h3, h4, x, y, h5, h6⟩ := onBoundary_ends w so hc hv h1
          have hxy := hin e _ _ x y ((onBoundary_iff hc).1 h1) h3 h5 h6
          have hEI : EndsInside inside m e ↔ inside x = true := by
            constructor
            · rintro ⟨a, b, x', y', q1, q2, _, q4, _⟩
              rw [h3] at q1
              rw [Option.some.inj q1] at h5
              rw [h5] at q2
              rw [Option.some.inj (Option.some.inj q2)]; exact q4
            · exact fun h7 => ⟨_, _, x, y, h3, h5, h6, h7, by rw [← hxy]; exact h7⟩
          rcases (endsAt_iff h3).1 hen with h | h
          · exact ⟨x, by rw [← h]; exact h5, hEI⟩
          · exact ⟨y, by rw [← h]; exact h6, by rw [hEI, hxy]⟩
        obtain ⟨_, b2, b3⟩ := (selected_iff inside).1 he0
        obtain ⟨x, x1, x2⟩ := at_n e0 hn0 b2
        have hx : inside x = true := x2.1 b3
        ext e
        rw [List.mem_toFinset, List.mem_toFinset, List.mem_filter, selected_iff, List.mem_filter, List.mem_range, Bool.and_eq_true, decide_eq_true_eq]
        constructor
        · rintro ⟨⟨q1, q2, _⟩, q4⟩
          exact ⟨q1, q4, q2⟩
        · rintro ⟨q1, q2, q3⟩
          obtain ⟨x', x1', x2'⟩ := at_n e q2 q3
          rw [x1] at x1'
          obtain rfl := Option.some.inj (Option.some.inj x1')
          exact ⟨⟨q1, q3, x2'.2 hx⟩, q2⟩
      rw [this]
      exact Nat.even_iff.1 hev
    · have : (selected inside m s.numFaces).countP (endsAt m.edges n) = 0 := by
        rw [List.countP_eq_zero]
        intro e he h
        exact hin' ⟨e, he, h⟩
      rw [this]
  · intro e e' a b p p' hne h1 hp hp' hj hj'
    obtain ⟨_, h3, h4, _⟩ := onBoundary_ends w so hc hv h1
    rw [h3] at hp
    obtain rfl := Option.some.inj hp
    have : edgeAt m e' = p' := by simp [edgeAt, hp']
    refine si.noDup e e' hne h4 ?_
    rw [this]
    unfold joins
    unfold Joins at hj hj'
    rcases hj with hj | hj <;> rcases hj' with hj' | hj' <;> simp [hj, hj']

theorem no_nodes_net (inside : P → Bool) {m : Mesh P} {cw : List Nat → Bool} {s : State} (hc : Consistent m.edges cw s)
    (hv : ∀ (f : Nat) ns, s.facesNodes[f]? = some ns → ∀ n ∈ ns, validNode m.nodes n = true)
    (hn : ∀ n, validNode m.nodes n = false) : (∀ e, ¬ OnBoundary s e) ∧ Net inside m s.numFaces [] := by
  have h0 : ∀ e, ¬ OnBoundary s e := by
    rintro e ⟨f, ⟨es, h1, h2⟩, _⟩
    have hf : f < s.facesNodes.length := by rw [hc.lengths]; exact (List.getElem?_eq_some_iff.1 h1).1
    obtain ⟨pr, _⟩ := hc.proper f _ es (List.getElem?_eq_getElem hf) h1
    have h3 := pr.atLeast
    have := hv f _ (List.getElem?_eq_getElem hf) _ (List.getElem_mem (show 0 < s.facesNodes[f].length by omega))
    rw [hn] at this
    cases this
  refine ⟨h0, by simp, hc.numFaces, by simp, ?_, ?_, by simp, ?_⟩
  · intro e h; exact absurd ((onBoundary_iff hc).1 h) (h0 e)
  · intro n x hx
    have := hn n
    simp [validNode, hx] at this
  · intro e e' a b p p' _ h; exact absurd ((onBoundary_iff hc).1 h) (h0 e)

/-- **C52.** The boundary polygons inside a polygon that cuts no boundary edge: for any test of points, every
projection and every order of the edges around the nodes, the call ends without fault; the polygons are closed, have at least three sides, and
each boundary edge inside is a side of exactly one of them, once; they have no other sides.  At most as many rounds are needed for each walk as
there are edges, and one more. -/
theorem boundary_polygons_exact (inside : P → Bool) (order : Nat → List Nat → List Nat) (hperm : ∀ n l, (order n l).Perm l)
    (cw : List (Option P) → List Nat → Bool) (m : Mesh P) (hm : Manageable m) :
    ∃ m1 s, doAdministration order cw m = .ok (m1, s) ∧ Consistent m1.edges (cw m1.nodes) s ∧
      ((∀ (e a b : Nat) x y, OnBoundary s e → m1.edges[e]? = some (a, b) → m1.nodes[a]? = some (some x) → m1.nodes[b]? = some (some y) →
          inside x = inside y) →
        ∃ rings, (∀ k, m.edges.length < k → boundaryPolygons inside order cw k m = .ok (some (drawn m1 rings), m1)) ∧
          Outlines m1 (fun e => OnBoundary s e ∧ EndsInside inside m1 e) rings) := by
  obtain ⟨m1, s, a1, a2, a3, a4, _⟩ := doAdministration_ok hperm cw hm.nodesFit (inBounds_of hm.bounds)
  refine ⟨m1, s, a2, a3, fun hin => ?_⟩
  have finish : ∀ B, Net inside m1 s.numFaces B → B.length ≤ m.edges.length → (∀ e, e ∈ B ↔ OnBoundary s e ∧ EndsInside inside m1 e) →
      ∃ rings, (∀ k, m.edges.length < k → boundaryPolygons inside order cw k m = .ok (some (drawn m1 rings), m1)) ∧
          Outlines m1 (fun e => OnBoundary s e ∧ EndsInside inside m1 e) rings := by
    intro B hN hle hB
    obtain ⟨rings, r1, r2⟩ := polylines_ok hN
    refine ⟨rings, ?_, r2.closed, r2.once, fun e => by rw [r2.all, hB]⟩
    intro k hk
    unfold boundaryPolygons
    rw [a2, Res.ok_bind]
    simp only []
    rw [r1 k (by omega), Res.ok_bind]
  obtain ⟨m', b1, b2, b3, _⟩ := Regions.administrate_content order hm.nodesFit (inBounds_of hm.bounds)
  rw [a1] at b1
  obtain rfl := Res.ok.inj b1
  by_cases hemp : m.nodes = [] ∨ m.edges = []
  · have hnode : ∀ n, validNode m1.nodes n = false := by
      intro n
      rw [b2]
      rcases hemp with h | h
      · have : (connectedNodes m).length = 0 := by rw [connectedNodes_length, h]; rfl
        simp [validNode, List.eq_nil_of_length_eq_zero this]
      · have : connected m n = false := by
          by_contra hne
          rw [Bool.not_eq_false] at hne
          obtain ⟨e, he, _⟩ := (connected_iff hm.nodesFit n).1 hne
          rw [h] at he
          cases he
        unfold validNode
        rw [connectedNodes_get, this]
        rfl
    obtain ⟨h0, hN⟩ := no_nodes_net inside a3 a4 hnode
    refine finish _ hN (by simp) ?_
    intro e
    constructor
    · intro h; cases h
    · intro h; exact absurd h.1 (h0 e)
  · have hn : m.nodes ≠ [] := fun h => hemp (Or.inl h)
    have he : m.edges ≠ [] := fun h => hemp (Or.inr h)
    obtain ⟨w, si, so⟩ := Delete.administrated hm hn he hperm a1
    refine finish _ (net_of inside w si so a3 a4 hin) ?_ ?_
    · refine (List.length_filter_le _ _).trans ?_
      rw [List.length_range, b3]
    · intro e
      rw [selected_iff, onBoundary_iff a3]
      constructor
      · exact fun h => h.2
      · exact fun h => ⟨(onBoundary_ends w so a3 a4 ((onBoundary_iff a3).2 h.1)).1, h⟩

/-- **C52.** The boundary polygons of a whole mesh, as the interface returns them: for every mesh that can be administrated, every
projection and every order of the edges around the nodes, the call ends without fault; the polygons are closed, have at least three sides, and
the edges with exactly one face are the sides of the polygons, each once. -/
theorem mesh_boundaries_exact (order : Nat → List Nat → List Nat) (hperm : ∀ n l, (order n l).Perm l)
    (cw : List (Option P) → List Nat → Bool) (m : Mesh P) (hm : Manageable m) :
    ∃ m1 s rings, doAdministration order cw m = .ok (m1, s) ∧
      (∀ k, m.edges.length < k → meshBoundaries order cw k m = .ok (some (drawn m1 rings), m1)) ∧ Outlines m1 (OnBoundary s) rings := by
  obtain ⟨m1, s, a1, a2, a3⟩ := boundary_polygons_exact (fun _ => true) order hperm cw m hm
  obtain ⟨rings, b1, b2⟩ := a3 (fun _ _ _ _ _ _ _ _ _ => rfl)
  refine ⟨m1, s, rings, a1, b1, b2.closed, b2.once, fun e => ?_⟩
  rw [b2.all]
  constructor
  · exact fun h => h.1
  · intro h
    refine ⟨h, ?_⟩
    obtain ⟨m', s', c1, c2, c3, c4, _⟩ := doAdministration_ok hperm cw hm.nodesFit (inBounds_of hm.bounds)
    rw [a1] at c2
    obtain ⟨rfl, rfl⟩ := Prod.mk.inj (Res.ok.inj c2)
    obtain ⟨f, ⟨es, h1, h2⟩, _⟩ := h
    have hf : f < s.facesNodes.length := by rw [c3.lengths]; exact (List.getElem?_eq_some_iff.1 h1).1
    obtain ⟨pr, _⟩ := c3.proper f _ es (List.getElem?_eq_getElem hf) h1
    obtain ⟨i, hi, rfl⟩ := List.getElem_of_mem h2
    obtain ⟨a, b, e', p, s1, s2, s3, s4, s5⟩ := pr.sides i (by rw [← pr.len]; exact hi)
    rw [List.getElem?_eq_getElem hi] at s3
    obtain rfl := Option.some.inj s3
    have valid : ∀ n, n ∈ s.facesNodes[f] → ∃ x, m1.nodes[n]? = some (some x) := by
      intro n hn
      have := c4 f _ (List.getElem?_eq_getElem hf) n hn
      unfold validNode at this
      cases h3 : m1.nodes[n]? with
      | none => rw [h3] at this; cases this
      | some v =>
        cases v with
        | none => rw [h3] at this; cases this
        | some x => exact ⟨x, rfl⟩
    obtain ⟨x, hx⟩ := valid a (List.mem_of_getElem? s1)
    obtain ⟨y, hy⟩ := valid b (List.mem_of_getElem? s2)
    rcases s5 with rfl | rfl
    · exact ⟨a, b, x, y, s4, hx, hy, rfl, rfl⟩
    · exact ⟨b, a, y, x, s4, hy, hx, rfl, rfl⟩

/-! ## Examples -/

/-- Two triangles `0 1 2` and `0 3 4` with a common corner, and a square `5 6 7 8` cut into two triangles. -/
def islands : Mesh Pt where
  nodes := [some ⟨0, 0⟩, some ⟨2, 0⟩, some ⟨0, 2⟩, some ⟨-2, 0⟩, some ⟨0, -2⟩, some ⟨5, 0⟩, some ⟨7, 0⟩, some ⟨7, 2⟩, some ⟨5, 2⟩]
  edges := [(0, 1), (6, 8), (2, 1), (0, 2), (0, 4), (3, 4), (3, 0), (5, 6), (7, 6), (7, 8), (8, 5)]
  nodesEdges := []
  numEdges := []

theorem islands_manageable : Manageable islands :=
  Delete.manageable_of (by decide) (by decide) (by decide +kernel) (by decide +kernel) (by decide +kernel) (by decide +kernel)

/-- The numbers of the nodes at which the points lie. -/
def numbers (m : Mesh Pt) (r : Res (Option (List (Option Pt)) × Mesh Pt)) : Option (List (Option Nat)) :=
  match r with
  | .ok (some l, _) => some (l.map fun x => match x with | none => none | some p => m.nodes.idxOf? (some p))
  | _ => none

/-- The boundary of the two triangles is one polygon that passes the common corner on its way; the
square has its own. -/
theorem touching_parts_joined : numbers islands (meshBoundaries (Delete.around islands) clockwise 12 islands) =
    some [some 0, some 1, some 2, some 0, some 3, some 4, some 0, none, some 5, some 6, some 7, some 8, some 5] := by decide +kernel

/-- The theorem applied to the example. -/
example : ∃ m1 s rings, doAdministration (Delete.around islands) clockwise islands = .ok (m1, s) ∧
    (∀ k, 11 < k → meshBoundaries (Delete.around islands) clockwise k islands = .ok (some (drawn m1 rings), m1)) ∧ Outlines m1 (OnBoundary s) rings :=
  mesh_boundaries_exact _ (Delete.around_perm islands) clockwise islands islands_manageable

/-- A polygon around the square only: no boundary edge is cut, and the boundary of the square is found. -/
example : numbers islands (boundaryPolygons (fun p => decide (4 < p.x)) (Delete.around islands) clockwise 12 islands) =
    some [some 5, some 6, some 7, some 8, some 5] := by decide +kernel

/-! ## A polygon that cuts the boundary -/

/-- A square. -/
def square : Mesh Pt where
  nodes := [some ⟨0, 0⟩, some ⟨1, 0⟩, some ⟨1, 1⟩, some ⟨0, 1⟩]
  edges := [(0, 1), (1, 2), (2, 3), (3, 0)]
  nodesEdges := []
  numEdges := []

/-- With a polygon around one corner of a square, the two boundary edges at the corner are not put one after the other: the
polyline returned goes from the corner to its first neighbour and from there along the diagonal to the other one. -/
theorem cut_boundary_jumps : Manageable square ∧
    numbers square (boundaryPolygons (fun p => decide (p.x + p.y < 1 / 2)) (Delete.around square) clockwise 5 square) = some [some 0, some 1, some 3] ∧
      (1, 3) ∉ square.edges ∧ (3, 1) ∉ square.edges :=
  ⟨Delete.manageable_of (by decide) (by decide) (by decide +kernel) (by decide +kernel) (by decide +kernel) (by decide +kernel),
    by decide +kernel, by decide, by decide⟩

/-- A hexagon, one face. -/
def hexagon : Mesh Pt where
  nodes := [some ⟨0, 0⟩, some ⟨2, 0⟩, some ⟨3, 1⟩, some ⟨2, 2⟩, some ⟨0, 2⟩, some ⟨-1, 1⟩]
  edges := [(4, 5), (5, 0), (0, 1), (1, 2), (2, 3), (3, 4)]
  nodesEdges := []
  numEdges := []

/-- With a polygon around two nodes of a hexagon, the loop that is to reverse the first tail uses the number of a node as a place in the list of
points and accesses it out of range. -/
theorem cut_boundary_out_of_range : Manageable hexagon ∧
    boundaryPolygons (fun p => decide (p.x ≤ 0 ∧ 1 ≤ p.y)) (Delete.around hexagon) clockwise 7 hexagon = .ub :=
  ⟨Delete.manageable_of (by decide) (by decide) (by decide +kernel) (by decide +kernel) (by decide +kernel) (by decide +kernel),
    by decide +kernel⟩

/-- Where both places exist, one round of that loop exchanges the two points and leaves the others. -/
theorem swap_back_exchanges {α : Type} (first tail n : Nat) (points : List α) (a b : α) (ha : points[n]? = some a)
    (hb : points[tail - n + first]? = some b) :
    ∃ l, swapBack first tail n points = .ok l ∧ l[n]? = some b ∧ l[tail - n + first]? = some a ∧ l.length = points.length ∧
      ∀ i, i ≠ n → i ≠ tail - n + first → l[i]? = points[i]? := by
  have hn : n < points.length := (List.getElem?_eq_some_iff.1 ha).1
  have hj : tail - n + first < points.length := (List.getElem?_eq_some_iff.1 hb).1
  refine ⟨(points.set n b).set (tail - n + first) a, ?_, ?_, ?_, by simp, ?_⟩
  · unfold swapBack
    rw [vget_eq_ok.2 ha, Res.ok_bind, vget_eq_ok.2 hb, Res.ok_bind, vset_ok _ hn, Res.ok_bind, vset_ok _ (by simpa using hj)]
  · rw [List.getElem?_set, List.getElem?_set]
    by_cases h : tail - n + first = n
    · rw [if_pos h, if_pos (by simpa [h] using hn)]
      rw [h, ha] at hb
      exact hb
    · rw [if_neg h, if_pos rfl, if_pos hn]
  · rw [List.getElem?_set, if_pos rfl, if_pos (by simpa using hj)]
  · intro i h1 h2
    rw [List.getElem?_set_ne (Ne.symm h2), List.getElem?_set_ne (Ne.symm h1)]

/-- In a list of five points, with the first tail ending at place 4 and node number 1, the round for place 3 exchanges the places 3 and 2. -/
example : swapBack 1 4 3 [10, 11, 12, 13, 14] = .ok [10, 11, 13, 12, 14] := by decide

end Verif.Outline
