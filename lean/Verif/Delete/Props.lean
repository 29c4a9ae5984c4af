import Verif.Delete.FaceLemmas
import Verif.Delete.HangingLemmas
import Verif.Cross.Props
import Verif.Mesh.Props
/-!
# C50, C51: deleting the part of a mesh inside a polygon, and hanging edges
-/
namespace Verif.Delete
open Verif.Mesh Verif.Faces Verif.Regions
open Verif.Polygons (Pt)
variable {P : Type}

/-! ## Example -/

/-- A triangle `0 1 2` in the middle and three more on its sides. -/
def star : Mesh Pt where
  nodes := [some ⟨0, 0⟩, some ⟨4, 0⟩, some ⟨2, 4⟩, some ⟨2, -4⟩, some ⟨6, 4⟩, some ⟨-2, 4⟩]
  edges := [(0, 1), (1, 2), (2, 0), (0, 3), (3, 1), (1, 4), (4, 2), (2, 5), (5, 0)]
  nodesEdges := [[0, 2, 3, 8], [0, 1, 4, 5], [1, 2, 6, 7], [3, 4], [5, 6], [7, 8]]
  numEdges := [4, 4, 4, 2, 2, 2]

/-- The order of the edges around the nodes, and the test of the direction, in the Cartesian projection. -/
def around (m : Mesh Pt) : Nat → List Nat → List Nat := ccwOrder m.nodes m.edges

theorem around_perm (m : Mesh Pt) (n : Nat) (l : List Nat) : (around m n l).Perm l := ccwOrder_perm m.nodes m.edges n l

/-- A check of `Manageable`. -/
theorem manageable_of {m : Mesh P} (h1 : m.nodes.length ≤ missing) (h2 : m.edges.length ≤ missing)
    (h3 : ∀ e ∈ m.edges, e.1 = missing ∨ e.2 = missing ∨ (e.1 < m.nodes.length ∧ e.2 < m.nodes.length))
    (h4 : ∀ i, i < m.edges.length → (seg m.nodes (edgeAt m i)).isSome → (edgeAt m i).1 ≠ (edgeAt m i).2)
    (h5 : ∀ i, i < m.edges.length → ∀ j, j < m.edges.length → i ≠ j → ¬ (edgeAt m j = ((edgeAt m i).1, (edgeAt m i).2) ∨ edgeAt m j = ((edgeAt m i).2, (edgeAt m i).1)))
    (h6 : ∀ n, n < m.nodes.length → ((List.range m.edges.length).countP (fun i => (seg m.nodes (edgeAt m i)).isSome &&
      (decide ((edgeAt m i).1 = n) || decide ((edgeAt m i).2 = n)))) ≤ 16) : Manageable m := by
  have hlt : ∀ i, (seg m.nodes (edgeAt m i)).isSome → i < m.edges.length := by
    intro i hi
    apply edgeAt_lt
    intro hno
    rw [hno, seg_noEdge h1] at hi
    cases hi
  refine ⟨h1, h2, h3, fun i hi => h4 i (hlt i hi) hi, ?_, h6⟩
  intro i j hij hi hj
  exact h5 i (hlt i hi) j (hlt j hj) hij

theorem star_manageable : Manageable star :=
  manageable_of (by decide) (by decide) (by decide) (by decide +kernel) (by decide +kernel) (by decide +kernel)

/-! ## C50: the part that is deleted -/

/-- What the administration leaves. -/
theorem administrated {m : Mesh P} (hm : Manageable m) (hn : m.nodes ≠ []) (he : m.edges ≠ []) {order : Nat → List Nat → List Nat}
    (hperm : ∀ n l, (order n l).Perm l) {m1 : Mesh P} (h : administrate order m = .ok m1) : WF m1 ∧ Simple m1 ∧ Sound m1 := by
  obtain ⟨m', h1, a⟩ := administrate_ok hm hn he order hperm
  rw [h] at h1
  obtain rfl := Res.ok.inj h1
  refine ⟨a.wf hm, a.simple hm, (a.wf hm).nodesFit, (a.wf hm).edgesFit, ?_⟩
  intro e hne
  have h2 := a.edges e
  split at h2
  · rename_i hs
    rw [h2]
    obtain ⟨x, y, h3, h4⟩ := seg_ends hs
    have hlt : e < m.edges.length := by rw [← a.edgesLen]; exact edgeAt_lt hne
    have hmem : edgeAt m e ∈ m.edges := by simp [edgeAt, hlt]
    have c1 : connected m (edgeAt m e).1 = true := (connected_iff hm.nodesFit _).2 ⟨_, hmem, hs, Or.inl rfl⟩
    have c2 : connected m (edgeAt m e).2 = true := (connected_iff hm.nodesFit _).2 ⟨_, hmem, hs, Or.inr rfl⟩
    have n1 := a.nodes (edgeAt m e).1
    have n2 := a.nodes (edgeAt m e).2
    rw [if_pos c1, h3] at n1
    rw [if_pos c2, h4] at n2
    simp only [seg, n1, n2]
    rfl
  · exact absurd h2 hne

/-- **C50.** Deletion of the part of a mesh selected by a polygon, for any test of points, any list of crossed faces, both
options, inverted or not, every projection and every order of the edges around the nodes.  A mesh without faces is
administrated and the call fails.  Otherwise the edges left are exactly the sides of the faces that are not selected, the nodes left are
exactly their ends, numbers do not change, and the actions returned undo and redo the deletion. -/
theorem deletion_exact (inside : P → Bool) (crossed : Mesh P → State → List Bool) (c : Choice) (invert : Bool)
    (order order' : Nat → List Nat → List Nat) (hperm : ∀ n l, (order n l).Perm l) (cw : List (Option P) → List Nat → Bool)
    (m : Mesh P) (hm : Manageable m) (hn : m.nodes ≠ [])
    (hx : ∀ m1 s, doAdministration order cw m = .ok (m1, s) → (crossed m1 s).length = s.facesEdges.length) :
    ∃ m1 s, doAdministration order cw m = .ok (m1, s) ∧
      (s.facesEdges = [] → deleteMesh inside crossed c invert order order' cw m = .ok (none, m1)) ∧
      (s.facesEdges ≠ [] → ∃ as m', deleteMesh inside crossed c invert order order' cw m = .ok (some as, m') ∧
        Reduced m1 m' (OfKeptFace (Selected inside (crossed m1 s) c invert m1 s) s) ∧
        ∃ bs m2, Undo.restoreAll (meshSem P) (committed as) (.ok m') = (bs, .ok m2) ∧ content m2 = content m1 ∧
          ∃ cs m3, Undo.commitAll (meshSem P) bs (.ok m2) = (cs, .ok m3) ∧ content m3 = content m') := by
  obtain ⟨m1, s, a1, a2, a3, a4, _⟩ := doAdministration_ok hperm cw hm.nodesFit (inBounds_of hm.bounds)
  refine ⟨m1, s, a2, ?_, ?_⟩
  · intro hs
    unfold deleteMesh
    rw [if_neg (by simpa using hn), a2, Res.ok_bind]
    simp only [hs, List.length_nil, if_true]
  · intro hs
    have he : m.edges ≠ [] := by
      rintro h0
      have := Cross.faces_le_edges a3
      obtain ⟨m', b1, _, b3, _⟩ := administrate_content order hm.nodesFit (inBounds_of hm.bounds)
      rw [a1] at b1
      obtain rfl := Res.ok.inj b1
      rw [b3, h0] at this
      exact hs (List.eq_nil_of_length_eq_zero (by simpa using this))
    obtain ⟨w, si, so⟩ := administrated hm hn he hperm a1
    obtain ⟨included, i1, i2⟩ := keepEdge_ok a3 a4 inside (crossed m1 s) (hx m1 s a2) c invert
    classical
    obtain ⟨l, r, q, l1, r1, q1, g, red⟩ := loops_ok w si so (keep := fun e => decide (OfKeptFace (Selected inside (crossed m1 s) c invert m1 s) s e)) i2
      (by
        intro e hk
        obtain ⟨f, hf, _⟩ := of_decide_eq_true hk
        exact (borders_edge a3 a4 w.nodesFit hf).2)
      (nodeFlags inside invert m1.nodes) (by simp [nodeFlags]) order'
    have hrun : deleteMesh inside crossed c invert order order' cw m = .ok (some (r.1 ++ q.1), q.2) := by
      unfold deleteMesh
      rw [if_neg (by simpa using hn), a2, Res.ok_bind]
      have : s.facesEdges.length ≠ 0 := by simpa using hs
      simp only [this, if_false]
      unfold deletePart
      rw [i1, Res.ok_bind, l1, Res.ok_bind, r1, Res.ok_bind, q1, Res.ok_bind, Res.ok_bind]
    refine ⟨_, _, hrun, ?_, g.undo_redo ?_⟩
    · have : (fun e => decide (OfKeptFace (Selected inside (crossed m1 s) c invert m1 s) s e) = true) =
          OfKeptFace (Selected inside (crossed m1 s) c invert m1 s) s := by
        funext e; exact decide_eq_true_eq
      rw [← this]
      exact red
    · rw [w.counts, List.length_map, w.lists]

/-- The example meets the conditions: with a polygon around node 3, the triangle there is deleted when crossed faces are. -/
example : Manageable star ∧ star.nodes ≠ [] ∧
    (match deleteMesh (fun p : Pt => decide (p.y < 0)) (fun _ s => s.facesNodes.map (fun ns => ns.contains 3)) .insideAndIntersected false
        (around star) (around star) clockwise star with
      | .ok (some as, m') => (as.length, m'.nodes.map Option.isSome, m'.edges)
      | _ => (0, [], [])) =
      (8, [true, true, true, false, true, true], [(0, 1), (1, 2), (2, 0), noEdge, noEdge, (1, 4), (4, 2), (2, 5), (5, 0)]) :=
  ⟨star_manageable, by decide, by decide +kernel⟩

/-- **C50.** Every face that is not selected keeps all its edges and nodes. -/
theorem other_faces_kept {m1 m' : Mesh P} {cw : List Nat → Bool} {s : State} (hc : Consistent m1.edges cw s) {sel : Nat → Prop}
    (h : Reduced m1 m' (OfKeptFace sel s)) {f : Nat} {ns es : List Nat} (hns : s.facesNodes[f]? = some ns) (hes : s.facesEdges[f]? = some es)
    (hf : ¬ sel f) : (∀ e ∈ es, edgeAt m' e = edgeAt m1 e) ∧ ∀ n ∈ ns, m'.nodes[n]? = m1.nodes[n]? := by
  refine ⟨fun e he => h.kept e ⟨f, ⟨es, hes, he⟩, hf⟩, ?_⟩
  intro n hmem
  obtain ⟨pr, _⟩ := hc.proper f ns es hns hes
  obtain ⟨i, hi, hin⟩ := List.getElem_of_mem hmem
  obtain ⟨a, b, e, p, s1, _, s3, s4, s5⟩ := pr.sides i hi
  have ha : a = n := by
    rw [List.getElem?_eq_getElem hi, hin] at s1
    exact (Option.some.inj s1).symm
  have hp : edgeAt m1 e = p := by simp [edgeAt, s4]
  refine h.nodes n ⟨e, ⟨f, ⟨es, hes, List.mem_of_getElem? s3⟩, hf⟩, ?_⟩
  rw [hp]
  rcases s5 with rfl | rfl
  · exact Or.inl ha
  · exact Or.inr ha

/-- When all nodes are used and all edges drawn, the administration changes nothing, so that undo restores the mesh handed in. -/
theorem administration_changes_nothing {m m1 : Mesh P} (hm : Manageable m) (hn : m.nodes ≠ []) (he : m.edges ≠ [])
    (hu : ∀ (n : Nat) p, m.nodes[n]? = some (some p) → Used m n) (hd : ∀ e, edgeAt m e ≠ noEdge → (seg m.nodes (edgeAt m e)).isSome)
    {order : Nat → List Nat → List Nat} (hperm : ∀ n l, (order n l).Perm l) (h : administrate order m = .ok m1) : content m1 = content m := by
  obtain ⟨m', h1, a⟩ := administrate_ok hm hn he order hperm
  rw [h] at h1
  obtain rfl := Res.ok.inj h1
  unfold content
  congr 1
  · funext n
    rw [a.nodes n]
    split
    · rfl
    · rename_i hc
      cases hv : m.nodes[n]? with
      | none => rfl
      | some v =>
        cases v with
        | none => rfl
        | some p => exact absurd ((connected_iff hm.nodesFit n).2 (hu n p hv)) hc
  · funext e
    rw [a.edges e]
    split
    · rfl
    · rename_i hs
      by_cases hno : edgeAt m e = noEdge
      · exact hno.symm
      · exact absurd (hd e hno) hs

example : (∀ (n : Nat) p, star.nodes[n]? = some (some p) → Used star n) ∧ ∀ e, edgeAt star e ≠ noEdge → (seg star.nodes (edgeAt star e)).isSome := by
  constructor
  · intro n p h
    have hlt : n < 6 := (List.getElem?_eq_some_iff.1 h).1
    have : ∀ n, n < 6 → Used star n := by unfold Used; decide +kernel
    exact this n hlt
  · intro e he
    have : ∀ e, e < 9 → (seg star.nodes (edgeAt star e)).isSome := by decide +kernel
    exact this e (edgeAt_lt he)

/-! ### What is not so -/

/-- An edge that is a side of no face is deleted, whatever the polygon. -/
theorem loose_edge_deleted {m1 m' : Mesh P} {s : State} {sel : Nat → Prop} (h : Reduced m1 m' (OfKeptFace sel s)) {e : Nat}
    (he : ¬ ∃ f, Borders s f e) : edgeAt m' e = noEdge :=
  h.gone e (fun ⟨f, hf, _⟩ => he ⟨f, hf⟩)

/-- A selected face stays in place when each of its sides belongs to another face that is not selected. -/
theorem enclosed_face_stays {m1 m' : Mesh P} {s : State} {sel : Nat → Prop} (h : Reduced m1 m' (OfKeptFace sel s)) {f : Nat} {es : List Nat}
    (_ : s.facesEdges[f]? = some es) (_ : sel f) (ho : ∀ e ∈ es, ∃ g, Borders s g e ∧ ¬ sel g) :
    ∀ e ∈ es, edgeAt m' e = edgeAt m1 e :=
  fun e he => h.kept e (ho e he)

/-- So deleting what is inside a polygon around the triangle in the middle deletes nothing. -/
theorem enclosed_face_witness :
    (match deleteMesh (fun p : Pt => decide (-1 ≤ p.y ∧ p.y ≤ 4 ∧ 0 ≤ p.x ∧ p.x ≤ 4)) (fun _ s => s.facesNodes.map (fun _ => false)) .insideNotIntersected false
        (around star) (around star) clockwise star with
      | .ok (some _, m') => (m'.nodes, m'.edges)
      | _ => ([], [])) = (star.nodes, star.edges) ∧
    (match doAdministration (around star) clockwise star with
      | .ok (_, s) => s.facesNodes
      | _ => []) = [[0, 1, 2], [0, 2, 5], [0, 3, 1], [1, 4, 2]] := by
  decide +kernel

/-- A triangle, a loose edge beside it and a node on its own. -/
def litter : Mesh Pt where
  nodes := [some ⟨0, 0⟩, some ⟨2, 0⟩, some ⟨0, 2⟩, some ⟨4, 0⟩, some ⟨9, 9⟩]
  edges := [(0, 1), (1, 2), (2, 0), (1, 3)]
  nodesEdges := [[0, 2], [0, 1, 3], [1, 2], [3], []]
  numEdges := [2, 3, 2, 1, 0]

theorem litter_manageable : Manageable litter :=
  manageable_of (by decide) (by decide) (by decide) (by decide +kernel) (by decide +kernel) (by decide +kernel)

/-- A polygon that contains nothing of the mesh: the loose edge, its end and the single node are deleted all the same, and undo brings
back the edge but not the single node. -/
theorem undo_loses_single_node :
    (match deleteMesh (fun _ => false) (fun _ s => s.facesNodes.map (fun _ => false)) .insideNotIntersected false (around litter) (around litter) clockwise litter with
      | .ok (some as, m') => (m'.nodes, m'.edges, match (Undo.restoreAll (meshSem Pt) (committed as) (.ok m')).2 with
          | .ok m2 => (m2.nodes, m2.edges)
          | _ => ([], []))
      | _ => ([], [], [], [])) =
      ([some ⟨0, 0⟩, some ⟨2, 0⟩, some ⟨0, 2⟩, none, none], [(0, 1), (1, 2), (2, 0), noEdge],
        [some ⟨0, 0⟩, some ⟨2, 0⟩, some ⟨0, 2⟩, some ⟨4, 0⟩, none], litter.edges) := by
  decide +kernel

/-- Two nodes with an edge, and a node on its own. -/
def line : Mesh Pt where
  nodes := [some ⟨0, 0⟩, some ⟨2, 0⟩, some ⟨9, 9⟩]
  edges := [(0, 1)]
  nodesEdges := [[0], [0], []]
  numEdges := [1, 1, 0]

/-- A call that fails because there are no faces has deleted the single node, without undo action. -/
theorem failing_call_deletes_node :
    (match deleteMesh (fun _ => false) (fun _ _ => []) .insideNotIntersected false (around line) (around line) clockwise line with
      | .ok (none, m') => m'.nodes
      | _ => []) = [some ⟨0, 0⟩, some ⟨2, 0⟩, none] := by
  decide +kernel

/-- A triangle with one side given three times, and another triangle. -/
def repeated : Mesh Pt where
  nodes := [some ⟨0, 0⟩, some ⟨2, 0⟩, some ⟨0, 2⟩, some ⟨5, 0⟩, some ⟨7, 0⟩, some ⟨5, 2⟩]
  edges := [(0, 1), (1, 2), (2, 0), (0, 1), (0, 1), (3, 4), (4, 5), (5, 3)]
  nodesEdges := []
  numEdges := []

/-- With repeated edges (so the mesh is not `Manageable`) a face that is not selected is destroyed: the polygon contains nothing,
and the first triangle goes. -/
theorem repeated_edges_destroy :
    (match deleteMesh (fun _ => false) (fun _ s => s.facesNodes.map (fun _ => false)) .insideNotIntersected false (around repeated) (around repeated) clockwise repeated with
      | .ok (some _, m') => (m'.nodes.map Option.isSome, m'.edges)
      | _ => ([], [])) =
      ([false, false, false, true, true, true], [noEdge, noEdge, noEdge, noEdge, noEdge, (3, 4), (4, 5), (5, 3)]) := by
  decide +kernel

/-! ### By circumcentres -/

/-- **C50.** Deletion by circumcentres: the edges left are exactly those with a face whose centre is not selected, and those without face
whose middle is not selected; the nodes left are their ends.  Undo restores the mesh handed in. -/
theorem deletion_by_centres_exact (centre : Mesh P → State → Nat → Bool) (middle : P → P → Bool) (invert : Bool)
    (order order' : Nat → List Nat → List Nat) (hperm : ∀ n l, (order n l).Perm l) (cw : List (Option P) → List Nat → Bool)
    (m : Mesh P) (hm : Manageable m) (hcount : m.numEdges.length = m.nodes.length) :
    ∃ m1 s as m', doAdministration order cw m = .ok (m1, s) ∧ deleteMeshFaces centre middle invert order order' cw m = .ok (as, m') ∧
      Reduced m1 m' (KeptByCentre (centre m1 s) middle invert m1 s) ∧
      ∃ bs m2, Undo.restoreAll (meshSem P) (committed as) (.ok m') = (bs, .ok m2) ∧ content m2 = content m ∧
        ∃ cs m3, Undo.commitAll (meshSem P) bs (.ok m2) = (cs, .ok m3) ∧ content m3 = content m' := by
  obtain ⟨m1, s, a1, a2, a3, a4, a5⟩ := doAdministration_ok hperm cw hm.nodesFit (inBounds_of hm.bounds)
  have hu : ∃ as0, administrateU order m = .ok (as0, m1) ∧ Good m as0 m1 := by
    rcases administrateU_spec order m with ⟨_, c2⟩ | ⟨as0, m'', c1, c2, c3⟩
    · rw [a1] at c2; cases c2
    · rw [a1] at c2
      obtain rfl := Res.ok.inj c2
      exact ⟨as0, c1, c3⟩
  obtain ⟨as0, u1, u2⟩ := hu
  obtain ⟨m', b1, b2, b3, b4⟩ := administrate_content order hm.nodesFit (inBounds_of hm.bounds)
  rw [a1] at b1
  obtain rfl := Res.ok.inj b1
  have hl : m1.nodes.length = m.nodes.length := by rw [b2, connectedNodes_length]
  have so : Sound m1 := by
    refine ⟨by rw [hl]; exact hm.nodesFit, by rw [b3]; exact hm.edgesFit, ?_⟩
    intro e hne
    have h2 := b4 e
    split at h2
    · rename_i hs
      have hlt : e < m.edges.length := by rw [← b3]; exact edgeAt_lt hne
      have hmem : edgeAt m e ∈ m.edges := by simp [edgeAt, hlt]
      rw [h2, b2, seg_connectedNodes hm.nodesFit hmem]
      exact hs
    · exact absurd h2 hne
  have hf : s.facesEdges.length ≤ missing := Nat.le_trans (Cross.faces_le_edges a3) so.edgesFit
  obtain ⟨r, q, r1, q1, g, red⟩ := centres_ok a3 so hf (fun f e h => (borders_edge a3 a4 so.nodesFit h).2) (centre m1 s) middle invert u2 order'
  have hrun : deleteMeshFaces centre middle invert order order' cw m = .ok (r.1 ++ q.1, q.2) := by
    unfold deleteMeshFaces
    rw [u1, Res.ok_bind, a5, Res.ok_bind, r1, Res.ok_bind, q1, Res.ok_bind]
  exact ⟨m1, s, _, _, a2, hrun, red, g.undo_redo hcount⟩

/-- The example: the triangle at node 3 and its neighbour in the middle, by their numbers. -/
example : Manageable star ∧ star.numEdges.length = star.nodes.length ∧
    (match deleteMeshFaces (fun _ _ f => f == 0 || f == 2) (fun _ _ => false) false (around star) (around star) clockwise star with
      | .ok (_, m') => (m'.nodes.map Option.isSome, m'.edges)
      | _ => ([], [])) =
      ([true, true, true, false, true, true], [noEdge, (1, 2), (2, 0), noEdge, noEdge, (1, 4), (4, 2), (2, 5), (5, 0)]) :=
  ⟨star_manageable, by decide, by decide +kernel⟩

/-- Here undo brings back the single node. -/
example : (match deleteMeshFaces (fun _ _ _ => false) (fun _ _ => false) false (around litter) (around litter) clockwise litter with
      | .ok (as, m') => (m'.nodes, m'.edges, match (Undo.restoreAll (meshSem Pt) (committed as) (.ok m')).2 with
          | .ok m2 => (m2.nodes, m2.edges)
          | _ => ([], []))
      | _ => ([], [], [], [])) =
      ([some ⟨0, 0⟩, some ⟨2, 0⟩, some ⟨0, 2⟩, some ⟨4, 0⟩, none], litter.edges, litter.nodes, litter.edges) := by
  decide +kernel

/-! ### A polygon in the Cartesian projection -/

/-- The faces crossed by the rings of a polygon, `Mesh2D.cpp:1695-1697`. -/
def crossedBy (polys : List (List Pt)) (m1 : Mesh Pt) (s : State) : List Bool :=
  match Cross.rings (8 * m1.edges.length + 1) 0 (polys.map (fun p => (Cross.dataOf m1 s p, Cross.byPlace m1.nodes m1.edges p)))
      (Cross.noResult m1.edges.length s.facesEdges.length) with
  | .ok (some res) => res.faces.map (fun l => !l.isEmpty)
  | _ => List.replicate s.facesEdges.length false

/-- A side of the face meets one of the polylines. -/
def CrossedFace (polys : List (List Pt)) (m1 : Mesh Pt) (s : State) (f : Nat) : Prop :=
  ∃ e i, ∃ poly ∈ polys, Borders s f e ∧ Cross.Met m1.nodes m1.edges poly i e

/-- **C50.** In the Cartesian projection, for any test of points, when every edge the polygon meets has a face: the edges left are exactly
the sides of the faces not selected, where a face counts as crossed precisely when one of its sides has a point in common with the
boundary of the polygon and is not nearly parallel to it there. -/
theorem polygon_deletion_partial (inside : Pt → Bool) (polys : List (List Pt)) (c : Choice) (invert : Bool) (m : Mesh Pt) (hm : Manageable m) (hn : m.nodes ≠ []) :
    ∃ m1 s order, doAdministrationCartesian m = .ok (m1, s) ∧ doAdministration order clockwise m = .ok (m1, s) ∧
      (s.facesEdges ≠ [] → (∀ poly ∈ polys, ∀ i e, Cross.Met m1.nodes m1.edges poly i e → ∃ f, Borders s f e) → ∀ order',
        ∃ as m', deleteMesh inside (crossedBy polys) c invert order order' clockwise m = .ok (some as, m') ∧
          Reduced m1 m' (OfKeptFace (fun f => if invert then ¬ Picked c (Within inside m1 s f) (CrossedFace polys m1 s f)
            else Picked c (Within inside m1 s f) (CrossedFace polys m1 s f)) s) ∧
          ∃ bs m2, Undo.restoreAll (meshSem Pt) (committed as) (.ok m') = (bs, .ok m2) ∧ content m2 = content m1 ∧
            ∃ cs m3, Undo.commitAll (meshSem Pt) bs (.ok m2) = (cs, .ok m3) ∧ content m3 = content m') := by
  have hb := inBounds_of hm.bounds
  obtain ⟨m0, m1, s, h0, h1, h2, h3, h4, h5, h6, _⟩ := cartesian_run m hm.nodesFit hb
  obtain ⟨m0', h0', _, hl, _⟩ := setUnconnectedInvalid_ok hm.nodesFit hb
  rw [h0] at h0'
  obtain rfl := Res.ok.inj h0'
  have he1 : m1.edges.length ≤ missing := by rw [h2, hl]; exact hm.edgesFit
  have hrun : doAdministration (ccwOrder m0.nodes m0.edges) clockwise m = .ok (m1, s) := by
    have : doAdministrationCartesian m = doAdministration (ccwOrder m0.nodes m0.edges) clockwise m := by
      unfold doAdministrationCartesian
      rw [h0]; rfl
    rw [← this]; exact h4
  refine ⟨m1, s, ccwOrder m0.nodes m0.edges, h4, hrun, ?_⟩
  intro hs hmet order'
  have hC : ∀ poly e, Cross.Crossed (Cross.dataOf m1 s poly) e ↔ ∃ i, Cross.Met m1.nodes m1.edges poly i e := by
    intro poly e
    constructor
    · rintro ⟨i, _, h⟩; exact ⟨i, (Cross.hit_iff i e).1 h⟩
    · rintro ⟨i, h⟩
      refine ⟨i, ?_, (Cross.hit_iff i e).2 h⟩
      obtain ⟨p, q, a, b, hp, _⟩ := h
      show i < poly.length - 1
      unfold Cross.piece at hp
      split at hp
      · rename_i _ _ _ h5
        have := (List.getElem?_eq_some_iff.1 h5).1
        omega
      · simp at hp
  obtain ⟨res, r1, r2⟩ := Cross.rings_ok (E := m1.edges.length) (F := s.facesEdges)
    (polys.map (fun p => (Cross.dataOf m1 s p, Cross.byPlace m1.nodes m1.edges p))) [] _ (by
      intro w hw
      obtain ⟨poly, hp, rfl⟩ := List.mem_map.1 hw
      refine ⟨Cross.fits_of_consistent h5 he1 rfl rfl (fun _ _ h => Cross.near_of_hit h), ?_, h5.edgesFaces, rfl, ?_⟩
      · intro e _ hc
        obtain ⟨i, h⟩ := (hC poly e).1 hc
        exact hmet poly hp i e h
      · intro st l
        exact List.perm_insertionSort _ _) (Cross.found_start _ _)
  have hcross : crossedBy polys m1 s = res.faces.map (fun l => !l.isEmpty) := by
    have e1 : Cross.rings (8 * m1.edges.length + 1) 0 (polys.map (fun p => (Cross.dataOf m1 s p, Cross.byPlace m1.nodes m1.edges p)))
        (Cross.noResult m1.edges.length s.facesEdges.length) = .ok (some res) := r1 _ (Nat.le_refl _)
    unfold crossedBy
    rw [e1]
  obtain ⟨m1', s', a1, _, a3⟩ := deletion_exact inside (crossedBy polys) c invert (ccwOrder m0.nodes m0.edges) order' (ccwOrder_perm _ _) clockwise m hm hn
    (by
      intro m1' s' h
      rw [hrun] at h
      obtain ⟨rfl, rfl⟩ := Prod.mk.inj (Res.ok.inj h)
      rw [hcross, List.length_map, r2.facesLen])
  rw [hrun] at a1
  obtain ⟨rfl, rfl⟩ := Prod.mk.inj (Res.ok.inj a1)
  obtain ⟨as, m', b1, b2, b3⟩ := a3 hs
  refine ⟨as, m', b1, ?_, b3⟩
  have hiff : ∀ f, f < s.facesEdges.length → ((crossedBy polys m1 s)[f]? = some true ↔ CrossedFace polys m1 s f) := by
    intro f hf
    have hf' : f < res.faces.length := by rw [r2.facesLen]; exact hf
    rw [hcross, List.getElem?_map, List.getElem?_eq_getElem hf']
    have := r2.faces f _ (List.getElem?_eq_getElem hf')
    simp only [List.nil_append, List.map_map] at this
    have e1 : (Option.map (fun l : List Nat => !l.isEmpty) (some res.faces[f]) = some true) ↔ res.faces[f] ≠ [] := by simp
    rw [e1, this]
    unfold CrossedFace
    constructor
    · rintro ⟨e, he, w, hw, hc⟩
      obtain ⟨poly, hp, rfl⟩ := List.mem_map.1 hw
      obtain ⟨i, hi⟩ := (hC poly e).1 hc
      exact ⟨e, i, poly, hp, he, hi⟩
    · rintro ⟨e, i, poly, hp, he, hi⟩
      exact ⟨e, he, _, List.mem_map.2 ⟨poly, hp, rfl⟩, (hC poly e).2 ⟨i, hi⟩⟩
  have hkeep : OfKeptFace (Selected inside (crossedBy polys m1 s) c invert m1 s) s = OfKeptFace (fun f => if invert then ¬ Picked c (Within inside m1 s f) (CrossedFace polys m1 s f)
      else Picked c (Within inside m1 s f) (CrossedFace polys m1 s f)) s := by
    funext e
    apply propext
    unfold OfKeptFace
    constructor
    · rintro ⟨f, hf, hsel⟩
      refine ⟨f, hf, ?_⟩
      unfold Selected at hsel
      rw [propext (hiff f (borders_lt hf))] at hsel
      exact hsel
    · rintro ⟨f, hf, hsel⟩
      refine ⟨f, hf, ?_⟩
      unfold Selected
      rw [propext (hiff f (borders_lt hf))]
      exact hsel
  rw [← hkeep]
  exact b2

/-- A square around node 3 of the example crosses the two sides there. -/
example : (match deleteMesh (fun p : Pt => decide (p.y < -2)) (crossedBy [[⟨0, -5⟩, ⟨5, -5⟩, ⟨5, -2⟩, ⟨0, -2⟩, ⟨0, -5⟩]]) .insideAndIntersected false
        (around star) (around star) clockwise star with
      | .ok (some _, m') => (m'.nodes.map Option.isSome, m'.edges)
      | _ => ([], [])) =
      ([true, true, true, false, true, true], [(0, 1), (1, 2), (2, 0), noEdge, noEdge, (1, 4), (4, 2), (2, 5), (5, 0)]) := by
  decide +kernel

/-! ## C51: hanging edges -/

/-- **C51.** Directly after the administration the hanging edges reported are exactly the edges with an end no other edge comes to, in
increasing order. -/
theorem hanging_edges_exact (m : Mesh P) (w : WF m) (hf : ∀ n i, i ∈ listAt m n → edgeAt m i ≠ noEdge) :
    ∃ l, hangingEdges m = .ok l ∧ l.Pairwise (· < ·) ∧ ∀ e, e ∈ l ↔ Hangs m e := by
  classical
  refine ⟨_, hangingLoop_ok w hf _ (by simp), List.Pairwise.filter _ List.pairwise_lt_range, ?_⟩
  intro e
  rw [List.mem_filter, List.mem_range, decide_eq_true_eq]
  constructor
  · exact fun h => h.2
  · exact fun h => ⟨edgeAt_lt h.1, h⟩

/-- The administration makes its conditions true. -/
theorem administration_lists_edges {m m1 : Mesh P} (hm : Manageable m) (hn : m.nodes ≠ []) (he : m.edges ≠ []) {order : Nat → List Nat → List Nat}
    (hperm : ∀ n l, (order n l).Perm l) (h : administrate order m = .ok m1) : WF m1 ∧ ∀ n i, i ∈ listAt m1 n → edgeAt m1 i ≠ noEdge := by
  obtain ⟨m', h1, a⟩ := administrate_ok hm hn he order hperm
  rw [h] at h1
  obtain rfl := Res.ok.inj h1
  refine ⟨a.wf hm, ?_⟩
  intro n i hi
  have hs := ((a.mem n i).1 hi).1
  rw [a.edges i, if_pos hs]
  intro hno
  rw [hno, seg_noEdge hm.nodesFit] at hs
  cases hs

/-- **C51.** Deleting the hanging edges deletes exactly these, moves no node, and can be undone and redone. -/
theorem delete_hanging_exact (m : Mesh P) (w : WF m) (hf : ∀ n i, i ∈ listAt m n → edgeAt m i ≠ noEdge) :
    ∃ as m', deleteHangingEdges m = .ok (as, m') ∧ m'.nodes = m.nodes ∧ m'.edges.length = m.edges.length ∧
      (∀ e, Hangs m e → edgeAt m' e = noEdge) ∧ (∀ e, ¬ Hangs m e → edgeAt m' e = edgeAt m e) ∧
      ∃ bs m1, Undo.restoreAll (meshSem P) (committed as) (.ok m') = (bs, .ok m1) ∧ content m1 = content m ∧
        ∃ cs m2, Undo.commitAll (meshSem P) bs (.ok m1) = (cs, .ok m2) ∧ content m2 = content m' := by
  obtain ⟨l, h1, _, h2⟩ := hanging_edges_exact m w hf
  obtain ⟨as, m', d1, d2, d3⟩ := deleteEdgesU_ok l (fun e he => edgeAt_lt ((h2 e).1 he).1) w.edgesFit
  refine ⟨as, m', ?_, d3.nodes, d3.len, fun e he => d3.gone e ((h2 e).2 he), fun e he => d3.kept e (fun h => he ((h2 e).1 h)),
    d2.undo_redo (by rw [w.counts, List.length_map, w.lists])⟩
  unfold deleteHangingEdges
  rw [h1, Res.ok_bind, d1]

/-- No face loses a side: an edge of a closed polygon of the mesh does not hang. -/
theorem sides_do_not_hang {m : Mesh P} {ns es : List Nat} (hp : Proper m.edges ns es) (hv : ∀ n ∈ ns, n ≠ missing) : ∀ e ∈ es, ¬ Hangs m e := by
  have h3 := hp.atLeast
  have hlen := hp.len
  -- a side touches its two ends
  have side : ∀ i (hi : i < ns.length), edgeAt m (es[i]'(by omega)) ≠ noEdge ∧ ∀ n, touches (edgeAt m (es[i]'(by omega))) n ↔
      n = ns[i] ∨ n = ns[(i + 1) % ns.length]'(Nat.mod_lt _ (by omega)) := by
    intro i hi
    obtain ⟨a, b, e, p, s1, s2, s3, s4, s5⟩ := hp.sides i hi
    rw [List.getElem?_eq_getElem hi] at s1
    rw [List.getElem?_eq_getElem (Nat.mod_lt _ (by omega))] at s2
    rw [List.getElem?_eq_getElem (by omega)] at s3
    rw [Option.some.inj s1, Option.some.inj s2, Option.some.inj s3]
    have e1 : edgeAt m e = p := by simp [edgeAt, s4]
    have ha : a ≠ missing := hv a (by rw [← Option.some.inj s1]; exact List.getElem_mem _)
    have hb : b ≠ missing := hv b (by rw [← Option.some.inj s2]; exact List.getElem_mem _)
    rw [e1]
    unfold touches
    rcases s5 with rfl | rfl
    · refine ⟨?_, fun n => ?_⟩
      · intro h; exact ha (congrArg Prod.fst h)
      · simp only [eq_comm]
    · refine ⟨?_, fun n => ?_⟩
      · intro h; exact hb (congrArg Prod.fst h)
      · simp only [eq_comm]; exact Or.comm
  rintro e he ⟨_, n, hn, hall⟩
  obtain ⟨i, hi, rfl⟩ := List.getElem_of_mem he
  have hi' : i < ns.length := by omega
  -- another side at the same end
  obtain ⟨k, hk, hki, hkn⟩ : ∃ k, ∃ hk : k < ns.length, k ≠ i ∧ touches (edgeAt m (es[k]'(by omega))) n := by
    rcases ((side i hi').2 n).1 hn with h | h
    · by_cases h0 : i = 0
      · subst h0
        refine ⟨ns.length - 1, by omega, by omega, ((side _ (by omega)).2 n).2 (Or.inr ?_)⟩
        rw [h]
        congr 1
        rw [show ns.length - 1 + 1 = ns.length by omega, Nat.mod_self]
      · refine ⟨i - 1, by omega, by omega, ((side _ (by omega)).2 n).2 (Or.inr ?_)⟩
        rw [h]
        congr 1
        rw [show i - 1 + 1 = i by omega, Nat.mod_eq_of_lt hi']
    · refine ⟨(i + 1) % ns.length, Nat.mod_lt _ (by omega), ?_, ((side _ (Nat.mod_lt _ (by omega))).2 n).2 (Or.inl h)⟩
      by_cases hl : i + 1 = ns.length
      · rw [hl, Nat.mod_self]; omega
      · rw [Nat.mod_eq_of_lt (by omega)]; omega
  have := hall _ (side k hk).1 hkn
  exact hki ((hp.edgesDistinct.getElem_inj_iff).1 this)

/-- A triangle with a tail of two edges. -/
def kite : Mesh Pt where
  nodes := [some ⟨0, 0⟩, some ⟨2, 0⟩, some ⟨0, 2⟩, some ⟨4, 0⟩, some ⟨6, 0⟩]
  edges := [(0, 1), (1, 2), (2, 0), (1, 3), (3, 4)]
  nodesEdges := [[0, 2], [0, 3, 1], [1, 2], [3, 4], [4]]
  numEdges := [2, 3, 2, 2, 1]

theorem kite_wf : WF kite ∧ ∀ n i, i ∈ listAt kite n → edgeAt kite i ≠ noEdge := by
  have hm : Manageable kite := manageable_of (by decide) (by decide) (by decide) (by decide +kernel) (by decide +kernel) (by decide +kernel)
  exact administration_lists_edges hm (by decide) (by decide) (order := around kite) (around_perm kite) (by decide +kernel)

/-- One call takes off the last edge of the tail only; the other one hangs now. -/
theorem hanging_edges_remain : ∃ (as : List (Act Pt)) (m' : Mesh Pt), deleteHangingEdges kite = .ok (as, m') ∧ m'.edges = [(0, 1), (1, 2), (2, 0), (1, 3), noEdge] ∧
    Hangs m' 3 := by
  refine ⟨[.deleteEdge 4 (3, 4)], { kite with edges := [(0, 1), (1, 2), (2, 0), (1, 3), noEdge] }, by decide +kernel, rfl, by decide, 3, Or.inr rfl, ?_⟩
  intro j hj ht
  have hlt := edgeAt_lt hj
  have : ∀ j, j < 5 → touches (edgeAt ({ kite with edges := [(0, 1), (1, 2), (2, 0), (1, 3), noEdge] } : Mesh Pt) j) 3 → j = 3 := by
    unfold touches; decide
  exact this j hlt ht

/-- A second call without administration in between finds nothing more: the counts are those of before. -/
theorem second_call_finds_nothing : hangingEdges ({ kite with edges := [(0, 1), (1, 2), (2, 0), (1, 3), noEdge] } : Mesh Pt) = .ok [] := by
  decide +kernel

end Verif.Delete
