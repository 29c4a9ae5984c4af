import Verif.Faces.GivenLemmas
import Verif.Faces.PropsLemmas
import Verif.Faces.Props
/-!
# Theorems: faces handed in with a mesh

C45.
-/
namespace Verif.Faces
open Verif.Mesh Verif.Polygons
variable {P : Type}

/-- Nothing to remove: the mesh stays as it is. -/
theorem deleteInvalid_same {m : Mesh P} (hm : Manageable m) (hE : ∀ e ∈ m.edges, (seg m.nodes e).isSome) (hN : ∀ i, i < m.nodes.length → Used m i) :
    connectedNodes m = m.nodes ∧ deleteInvalid m = .ok m := by
  have hc : ∀ i, i < m.nodes.length → connected m i = true := fun i hi => (connected_iff hm.nodesFit i).2 (hN i hi)
  have h1 : connectedNodes m = m.nodes := by
    apply List.ext_getElem
    · exact connectedNodes_length m
    · intro i h1 h2
      simp [connectedNodes, hc i h2]
  have h2 : numInvalidEdges m = 0 := by
    unfold numInvalidEdges
    rw [List.countP_eq_zero]
    intro e he
    rw [validEdge_iff_seg hm.nodesFit, hE e he]
    simp
  have h3 : numInvalidNodes m = 0 := by
    unfold numInvalidNodes
    rw [List.countP_eq_zero, h1]
    intro v hv
    obtain ⟨i, hi, rfl⟩ := List.mem_iff_getElem.1 hv
    obtain ⟨e, he, hs, ht⟩ := hN i hi
    have hn : ∀ (n : Nat), (m.nodes[n]?.join).isSome → ∀ h : n < m.nodes.length, m.nodes[n].isSome := by
      intro n h h'
      rw [List.getElem?_eq_getElem h'] at h
      exact h
    have : (m.nodes[i]?.join).isSome := by
      unfold seg at hs
      cases h1 : m.nodes[e.1]?.join with
      | none => rw [h1] at hs; simp at hs
      | some a =>
        cases h2 : m.nodes[e.2]?.join with
        | none => rw [h1, h2] at hs; simp at hs
        | some b => rcases ht with rfl | rfl <;> simp [h1, h2]
    have := hn i this hi
    simp [this]
  refine ⟨h1, ?_⟩
  unfold deleteInvalid
  rw [inBounds_of hm.bounds]
  simp only [Bool.not_true, Bool.false_eq_true, if_false, h2, h3, h1, and_self, if_true]

/-- **C45, partial.** Let every node of the mesh be an end of an edge and all edges be valid; let the faces handed in be polygons of edges
of the mesh without further edges between their nodes, and no edge be a side of more than two of them.  Then the mesh is
accepted without access out of range, and has exactly these faces, in the same order; the edges of each are its sides, from
the first node on one way around or the other; and the faces listed at each edge are those it is a side of.

Missing: the way around (`given_edges_reversed`), meshes with nodes without edges (`given_faces_shifted`), polygons with other
edges between their nodes (`given_face_with_chord`), more than two faces at an edge (`given_third_face`). -/
theorem given_faces_kept_partial (order : List (Option P) → List Edge → Nat → List Nat → List Nat) (hperm : ∀ a b n l, (order a b n l).Perm l)
    (m : Mesh P) (hm : Manageable m) (hE : ∀ e ∈ m.edges, (seg m.nodes e).isSome) (hN : ∀ i, i < m.nodes.length → Used m i)
    (faces sides : List (List Nat)) (hlen : faces.length = sides.length)
    (hring : ∀ (f : Nat) ns es, faces[f]? = some ns → sides[f]? = some es → Ring m.edges ns es ∧ NoChord m.edges ns es) (h2 : AtMostTwo sides) :
    ∃ m1 s, meshWithFaces order m faces = .ok (m1, s) ∧ m1.nodes = m.nodes ∧ m1.edges = m.edges ∧ s.facesNodes = faces ∧
      s.facesEdges.length = faces.length ∧
      (∀ (f : Nat) es', s.facesEdges[f]? = some es' → ∃ es, sides[f]? = some es ∧ (es' = es ∨ es' = es.reverse)) ∧
      (∀ e, e < m.edges.length → ∃ c p l, s.numFaces[e]? = some c ∧ s.edgesFaces[e]? = some p ∧ Places c p l ∧ l.Nodup ∧
        ∀ f, f ∈ l ↔ Borders s f e) := by
  obtain ⟨hcn, hdel⟩ := deleteInvalid_same hm hE hN
  have hval : ∀ e ∈ m.edges, validNode m.nodes e.1 = true ∧ validNode m.nodes e.2 = true := by
    intro e he
    have hs := hE e he
    unfold seg at hs
    unfold validNode
    cases h1 : m.nodes[e.1]?.join with
    | none => rw [h1] at hs; simp at hs
    | some a =>
      cases h2 : m.nodes[e.2]?.join with
      | none => rw [h1, h2] at hs; simp at hs
      | some b => simp
  have hnodes : ∀ (f : Nat) ns es, faces[f]? = some ns → sides[f]? = some es → ∀ n ∈ ns, n < m.nodes.length := by
    intro f ns es h3 h4 n hn
    obtain ⟨hr, _⟩ := hring f ns es h3 h4
    obtain ⟨j, hj, rfl⟩ := List.mem_iff_getElem.1 hn
    obtain ⟨c, d, e', p', r1, r2, r3, r4, r5⟩ := hr.sides j hj
    rw [List.getElem?_eq_getElem hj] at r1
    obtain rfl := Option.some.inj r1
    have := hval p' (List.mem_of_getElem? r4)
    rcases r5 with h5 | h5 <;> rw [h5] at this
    · exact validNode_lt this.1
    · exact validNode_lt this.2
  -- the administration
  obtain ⟨m1, a1, a2, a3, a4⟩ : ∃ m1, administrate (order m.nodes m.edges) m = .ok m1 ∧ m1.nodes = m.nodes ∧ m1.edges = m.edges ∧
      (∀ n, n < m.nodes.length → ∃ l, m1.nodesEdges[n]? = some l ∧ (∀ e ∈ l, ∃ p, m.edges[e]? = some p ∧ (p.1 = n ∨ p.2 = n)) ∧
        ∀ (e : Nat) p, m.edges[e]? = some p → (p.1 = n ∨ p.2 = n) → e ∈ l) := by
    obtain ⟨m1, b1, b2, ⟨m0, b3, b4, b5⟩, _⟩ := administrate_listed (hperm m.nodes m.edges) hm.nodesFit (inBounds_of hm.bounds)
    obtain ⟨m0', c1, c2, c3, c4⟩ := setUnconnectedInvalid_ok hm.nodesFit (inBounds_of hm.bounds)
    rw [b3] at c1
    obtain rfl := Res.ok.inj c1
    have e1 : m1.nodes = m.nodes := by rw [b4, c2, hcn]
    have e2 : m1.edges = m.edges := by
      rw [b5]
      apply List.ext_getElem c3
      intro i h1 h2
      have := c4 i
      have q1 : edgeAt m0 i = m0.edges[i] := by simp [edgeAt, h1]
      have q2 : edgeAt m i = m.edges[i] := by simp [edgeAt, h2]
      rw [q1, q2, if_pos (hE _ (List.getElem_mem h2))] at this
      exact this
    refine ⟨m1, b1, e1, e2, ?_⟩
    intro n hn
    have hnn : m.nodes ≠ [] := by intro h; rw [h] at hn; simp at hn
    have hee : m.edges ≠ [] := by
      obtain ⟨e, he, _⟩ := hN n hn
      intro h; rw [h] at he; simp at he
    obtain ⟨m1', d1, d2⟩ := administrate_ok hm hnn hee (order m.nodes m.edges) (hperm m.nodes m.edges)
    rw [b1] at d1
    obtain rfl := Res.ok.inj d1
    have hlt : n < m1.nodesEdges.length := by rw [d2.lists]; exact hn
    refine ⟨m1.nodesEdges[n], List.getElem?_eq_getElem hlt, ?_, ?_⟩
    · intro e he
      have hl : listAt m1 n = m1.nodesEdges[n] := by simp [listAt, hlt]
      rw [← hl, d2.mem] at he
      have helt : e < m.edges.length := by
        by_contra hc
        have : edgeAt m e = noEdge := by simp [edgeAt, List.getElem?_eq_none (not_lt.1 hc)]
        rw [this, seg_noEdge hm.nodesFit] at he
        simp at he
      refine ⟨m.edges[e], List.getElem?_eq_getElem helt, ?_⟩
      have : edgeAt m e = m.edges[e] := by simp [edgeAt, helt]
      rw [← this]
      exact he.2
    · intro e p hp ht
      have hl : listAt m1 n = m1.nodesEdges[n] := by simp [listAt, hlt]
      have : edgeAt m e = p := by simp [edgeAt, hp]
      rw [← hl, d2.mem, this]
      exact ⟨hE p (List.mem_of_getElem? hp), ht⟩
  obtain ⟨s, s1, s2⟩ := findGivenFaces_ok (adj := m1.nodesEdges) hlen h2 (fun f ns es h3 h4 =>
    ⟨(hring f ns es h3 h4).1, (hring f ns es h3 h4).2, fun n hn => a4 n (hnodes f ns es h3 h4 n hn)⟩)
  have s3 := useFaces_ok (N := m.nodes.length) hlen s2 (fun f ns es h3 h4 => ⟨(hring f ns es h3 h4).1, hnodes f ns es h3 h4⟩)
  refine ⟨m1, s, ?_, a2, a3, s2.nodes, s2.length, s2.sidesOf, ?_⟩
  · unfold meshWithFaces
    rw [hdel, Res.ok_bind, a1, Res.ok_bind, a3, s1, Res.ok_bind, a2, s3, Res.ok_bind]
  · intro e he
    obtain ⟨c, p, q1, q2, q3⟩ := s2.places e he
    refine ⟨c, p, _, q1, q2, q3, List.nodup_range.filter _, ?_⟩
    intro f
    unfold facesWith Borders
    rw [List.mem_filter, List.mem_range, decide_eq_true_eq]
    constructor
    · rintro ⟨h3, h4⟩
      have h5 : f < s.facesEdges.length := by rw [s2.length]; exact h3
      refine ⟨_, List.getElem?_eq_getElem h5, ?_⟩
      obtain ⟨es, e1, e2⟩ := s2.sidesOf f _ (List.getElem?_eq_getElem h5)
      rw [List.getD_eq_getElem?_getD, e1, Option.getD_some] at h4
      rcases e2 with h | h <;> rw [h]
      · exact h4
      · exact List.mem_reverse.2 h4
    · rintro ⟨es', h3, h4⟩
      obtain ⟨es, e1, e2⟩ := s2.sidesOf f _ h3
      refine ⟨by rw [← s2.length]; exact (List.getElem?_eq_some_iff.1 h3).1, ?_⟩
      rw [List.getD_eq_getElem?_getD, e1, Option.getD_some]
      rcases e2 with h | h <;> rw [h] at h4
      · exact h4
      · exact List.mem_reverse.1 h4

theorem ring_of_check {edges : List Edge} {ns es : List Nat} (h : properCheck edges ns es = true) : Ring edges ns es := by
  have := proper_of_check h
  exact ⟨this.atLeast, this.len, this.nodesDistinct, this.sides⟩

def chordCheck (edges : List Edge) (ns es : List Nat) : Bool :=
  (List.range edges.length).all (fun e => decide ((edges.getD e noEdge).1 ∈ ns → (edges.getD e noEdge).2 ∈ ns → e ∈ es))

theorem noChord_of_check {edges : List Edge} {ns es : List Nat} (h : chordCheck edges ns es = true) : NoChord edges ns es := by
  intro e p hp
  have he := (List.getElem?_eq_some_iff.1 hp).1
  have := List.all_eq_true.1 h e (List.mem_range.2 he)
  simp only [List.getD_eq_getElem?_getD, hp, Option.getD_some, decide_eq_true_eq] at this
  exact this

theorem rings_of_check {edges : List Edge} {faces sides : List (List Nat)}
    (h : ∀ f < faces.length, properCheck edges (faces.getD f []) (sides.getD f []) = true ∧ chordCheck edges (faces.getD f []) (sides.getD f []) = true) :
    ∀ (f : Nat) ns es, faces[f]? = some ns → sides[f]? = some es → Ring edges ns es ∧ NoChord edges ns es := by
  intro f ns es h1 h2
  have := h f (List.getElem?_eq_some_iff.1 h1).1
  simp only [List.getD_eq_getElem?_getD, h1, h2, Option.getD_some] at this
  exact ⟨ring_of_check this.1, noChord_of_check this.2⟩

theorem atMostTwo_of_check {sides : List (List Nat)} (h : ∀ es ∈ sides, ∀ e ∈ es, (sides.filter (fun es => decide (e ∈ es))).length ≤ 2) :
    AtMostTwo sides := by
  intro e
  by_cases hx : ∃ es ∈ sides, e ∈ es
  · obtain ⟨es, h1, h2⟩ := hx
    exact h es h1 e h2
  · have : sides.filter (fun es => decide (e ∈ es)) = [] := by
      rw [List.filter_eq_nil_iff]
      intro es hes hc
      exact hx ⟨es, hes, of_decide_eq_true hc⟩
    rw [this]; simp

instance {m : Mesh P} (i : Nat) : Decidable (Used m i) := by unfold Used; infer_instance

/-- The hypotheses hold for the square cut along a diagonal with its two triangles. -/
example : Manageable halves ∧ (∀ e ∈ halves.edges, (seg halves.nodes e).isSome) ∧ (∀ i, i < halves.nodes.length → Used halves i) ∧
    (∀ (f : Nat) ns es, [[0, 1, 2], [0, 2, 3]][f]? = some ns → [[0, 1, 4], [4, 2, 3]][f]? = some es → Ring halves.edges ns es ∧ NoChord halves.edges ns es) ∧
    AtMostTwo [[0, 1, 4], [4, 2, 3]] :=
  ⟨manageable_of_check (by decide +kernel), by decide +kernel, by decide +kernel, rings_of_check (by decide +kernel), atMostTwo_of_check (by decide +kernel)⟩

/-- **C45.** The arrays handed in are read as the faces they describe, and if the mesh is accepted, the same arrays are handed out. -/
theorem given_faces_read_back (order : List (Option P) → List Edge → Nat → List Nat → List Nat) (m : Mesh P) (faces : List (List Nat)) :
    facesFromArrays faces.flatten (faces.map List.length) 0 = .ok faces ∧
    ∀ m1 s, meshWithFaces order m faces = .ok (m1, s) →
      ∃ e, faceArrays s.facesNodes s.facesEdges = .ok (faces.map List.length, faces.flatten, e) := by
  constructor
  · have := facesFromArrays_eq [] faces []
    simpa using this
  · intro m1 s h
    unfold meshWithFaces at h
    obtain ⟨m0, _, h⟩ := Res.bind_eq_ok.1 h
    obtain ⟨m2, _, h⟩ := Res.bind_eq_ok.1 h
    obtain ⟨s', h1, h⟩ := Res.bind_eq_ok.1 h
    obtain ⟨u, h2, h⟩ := Res.bind_eq_ok.1 h
    obtain ⟨rfl, rfl⟩ := Prod.mk.inj (Res.ok.inj h)
    obtain ⟨a, b⟩ := givenLoop_faces h1
    have a : s'.facesNodes = faces := a
    have b : s'.facesEdges.length = faces.length := by simpa [initial] using b
    rw [a]
    refine faceArrays_ok b.symm ?_
    intro f ns es h3 h4
    have hf := (List.getElem?_eq_some_iff.1 h3).1
    unfold useFaces forRange at h2
    rw [a] at h2
    have := loopN_unit h2 f (Nat.zero_le _) (by omega)
    unfold useFace at this
    rw [a, vget_eq_ok.2 h3, Res.ok_bind, vget_eq_ok.2 h4, Res.ok_bind] at this
    split at this
    · cases this
    · next hc => omega

example : ∃ m1 s, meshWithFaces ccwOrder halves [[0, 1, 2], [0, 2, 3]] = .ok (m1, s) := by
  obtain ⟨m1, s, h, _⟩ := given_faces_kept_partial ccwOrder ccwOrder_perm halves (manageable_of_check (by decide +kernel)) (by decide +kernel) (by decide +kernel)
    [[0, 1, 2], [0, 2, 3]] [[0, 1, 4], [4, 2, 3]] rfl (rings_of_check (by decide +kernel)) (atMostTwo_of_check (by decide +kernel))
  exact ⟨m1, s, h⟩

/-! ## What goes wrong -/

/-- The outcome for an example. -/
def givenRun (m : Mesh Pt) (faces : List (List Nat)) : Mesh Pt × State :=
  match meshWithFaces ccwOrder m faces with
  | .ok r => r
  | _ => (m, initial 0)

def isOk {α : Type} : Res α → Bool
  | .ok _ => true
  | _ => false

theorem givenRun_eq {m : Mesh Pt} {faces : List (List Nat)} (h : isOk (meshWithFaces ccwOrder m faces) = true) :
    meshWithFaces ccwOrder m faces = .ok ((givenRun m faces).1, (givenRun m faces).2) := by
  unfold givenRun
  cases hr : meshWithFaces ccwOrder m faces with
  | ok r => rfl
  | throw => rw [hr] at h; cases h
  | ub => rw [hr] at h; cases h

/-- A triangle. -/
def triangle : Mesh Pt where
  nodes := [some ⟨0, 0⟩, some ⟨2, 0⟩, some ⟨0, 2⟩]
  edges := [(0, 2), (0, 1), (1, 2)]
  nodesEdges := []
  numEdges := []

/-- **C45 is false in general.**  The edges of a face need not be in the order of its nodes: the walk takes the first edge listed at the
first node, whichever side that is (`Mesh2D.cpp:563-580`).  The circumcentre is then computed with the numbers of faces of the
wrong sides (`Mesh2D.cpp:649-654`). -/
theorem given_edges_reversed : ∃ (m m1 : Mesh Pt) (s : State) (ns es : List Nat), Manageable m ∧ (∀ e ∈ m.edges, (seg m.nodes e).isSome) ∧
    (∀ i, i < m.nodes.length → Used m i) ∧ Ring m.edges ns es ∧ NoChord m.edges ns es ∧
    meshWithFaces ccwOrder m [ns] = .ok (m1, s) ∧ s.facesNodes = [ns] ∧ s.facesEdges = [es.reverse] ∧ ¬ Side m1.edges ns es.reverse 0 := by
  refine ⟨triangle, _, _, [0, 1, 2], [1, 2, 0], manageable_of_check (by decide +kernel), by decide +kernel, by decide +kernel,
    ring_of_check (by decide +kernel), noChord_of_check (by decide +kernel), givenRun_eq (by decide +kernel), by decide +kernel, by decide +kernel, ?_⟩
  rintro ⟨a, b, e, p, h1, h2, h3, h4, h5⟩
  obtain rfl := Option.some.inj h1
  obtain rfl := Option.some.inj h2
  obtain rfl := Option.some.inj h3
  have : (givenRun triangle [[0, 1, 2]]).1.edges = [(0, 2), (0, 1), (1, 2)] := by decide +kernel
  rw [this] at h4
  obtain rfl := Option.some.inj h4
  rcases h5 with h | h <;> exact absurd h (by decide)

/-- A node without edges, followed by a strip of two triangles. -/
def strip : Mesh Pt where
  nodes := [some ⟨9, 9⟩, some ⟨0, 0⟩, some ⟨2, 0⟩, some ⟨1, 2⟩, some ⟨3, 2⟩]
  edges := [(1, 2), (2, 3), (3, 1), (2, 4), (4, 3)]
  nodesEdges := []
  numEdges := []

/-- **C45 is false in general.**  Nodes without edges are removed and the edges renumbered before the faces are read, but the faces are
not renumbered (`Mesh.cpp:65`, `Mesh2D.cpp:66-68`): the face handed in is one triangle, the face of the mesh is another. -/
theorem given_faces_shifted : ∃ (m m1 : Mesh Pt) (s : State) (ns es : List Nat), Manageable m ∧ (∀ e ∈ m.edges, (seg m.nodes e).isSome) ∧
    Ring m.edges ns es ∧ NoChord m.edges ns es ∧ meshWithFaces ccwOrder m [ns] = .ok (m1, s) ∧ s.facesNodes = [ns] ∧
    ns.map (position m1.nodes) ≠ ns.map (position m.nodes) := by
  exact ⟨strip, _, _, [1, 2, 3], [0, 1, 2], manageable_of_check (by decide +kernel), by decide +kernel,
    ring_of_check (by decide +kernel), noChord_of_check (by decide +kernel), givenRun_eq (by decide +kernel), by decide +kernel, by decide +kernel⟩

/-- With all faces of the example handed in, nodes out of range are read. -/
theorem given_faces_shifted_ub : meshWithFaces ccwOrder strip [[1, 2, 3], [2, 4, 3]] = .ub := by decide +kernel

/-- A quadrilateral with an inward corner, and the triangle that fills it. -/
def dart : Mesh Pt where
  nodes := [some ⟨0, 0⟩, some ⟨2, 1⟩, some ⟨4, 0⟩, some ⟨2, 4⟩]
  edges := [(0, 2), (0, 1), (1, 2), (2, 3), (3, 0)]
  nodesEdges := []
  numEdges := []

/-- **C45 is false in general.**  If an edge that is not a side joins two nodes of a face, the walk may take it (`Mesh2D.cpp:568-570`): a
quadrilateral next to a triangle gets three edges, and the fourth is read out of range (`Mesh2D.cpp:638`).  Without the faces
handed in, the search finds both of them. -/
theorem given_face_with_chord : ∃ (m : Mesh Pt) (faces sides : List (List Nat)), Manageable m ∧ (∀ e ∈ m.edges, (seg m.nodes e).isSome) ∧
    (∀ i, i < m.nodes.length → Used m i) ∧ faces.length = sides.length ∧
    (∀ (f : Nat) ns es, faces[f]? = some ns → sides[f]? = some es → Ring m.edges ns es) ∧ AtMostTwo sides ∧
    meshWithFaces ccwOrder m faces = .ub ∧ (runOf m).2.facesNodes.length = 2 := by
  refine ⟨dart, [[0, 1, 2, 3], [0, 2, 1]], [[1, 2, 3, 4], [0, 2, 1]], manageable_of_check (by decide +kernel), by decide +kernel, by decide +kernel, rfl, ?_,
    atMostTwo_of_check (by decide +kernel), by decide +kernel, by decide +kernel⟩
  intro f ns es h1 h2
  have := (by decide +kernel : ∀ f < 2, properCheck dart.edges ([[0, 1, 2, 3], [0, 2, 1]].getD f []) ([[1, 2, 3, 4], [0, 2, 1]].getD f []) = true) f
    (List.getElem?_eq_some_iff.1 h1).1
  simp only [List.getD_eq_getElem?_getD, h1, h2, Option.getD_some] at this
  exact ring_of_check this

/-- Three triangles on one edge. -/
def book : Mesh Pt where
  nodes := [some ⟨0, 0⟩, some ⟨2, 0⟩, some ⟨1, 2⟩, some ⟨1, 3⟩, some ⟨1, 4⟩]
  edges := [(0, 1), (1, 2), (2, 0), (1, 3), (3, 0), (1, 4), (4, 0)]
  nodesEdges := []
  numEdges := []

/-- **C45 is false in general.**  A third face at an edge is not refused: the test is for more than two faces already there (`Mesh2D.cpp:594`), so the
third one is written behind the array of two (`Mesh2D.cpp:598`). -/
theorem given_third_face : ∃ (m : Mesh Pt) (faces sides : List (List Nat)), Manageable m ∧ (∀ e ∈ m.edges, (seg m.nodes e).isSome) ∧
    (∀ i, i < m.nodes.length → Used m i) ∧ faces.length = sides.length ∧
    (∀ (f : Nat) ns es, faces[f]? = some ns → sides[f]? = some es → Ring m.edges ns es ∧ NoChord m.edges ns es) ∧
    meshWithFaces ccwOrder m faces = .ub := by
  exact ⟨book, [[0, 1, 2], [0, 1, 3], [0, 1, 4]], [[0, 1, 2], [0, 3, 4], [0, 5, 6]], manageable_of_check (by decide +kernel), by decide +kernel, by decide +kernel, rfl,
    rings_of_check (by decide +kernel), by decide +kernel⟩

end Verif.Faces
