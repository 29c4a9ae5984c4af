import Verif.Faces.PropsLemmas
import Mathlib.Data.List.Perm.Subperm
/-!
# Theorems: faces of a mesh

C14 (faces are proper and agree with the edges), C44 (every cell of the mesh is found).
-/
namespace Verif.Faces
open Verif.Mesh Verif.Polygons
variable {P : Type}

/-! ## Deciding the hypotheses for examples -/

def properCheck (edges : List Edge) (ns es : List Nat) : Bool :=
  decide (3 ≤ ns.length ∧ ns.length ≤ 6 ∧ es.length = ns.length ∧ ns.Nodup ∧ es.Nodup) &&
  (List.range ns.length).all (fun i =>
    match ns[i]?, ns[(i + 1) % ns.length]?, es[i]? with
    | some a, some b, some e => decide (edges[e]? = some (a, b) ∨ edges[e]? = some (b, a))
    | _, _, _ => false)

theorem proper_of_check {edges : List Edge} {ns es : List Nat} (h : properCheck edges ns es = true) : Proper edges ns es := by
  unfold properCheck at h
  rw [Bool.and_eq_true, decide_eq_true_eq, List.all_eq_true] at h
  obtain ⟨⟨h1, h2, h3, h4, h5⟩, h6⟩ := h
  refine ⟨h1, h2, h3, h4, h5, ?_⟩
  intro i hi
  have := h6 i (List.mem_range.2 hi)
  split at this
  · next a b e e1 e2 e3 =>
    rcases of_decide_eq_true this with h | h
    · exact ⟨a, b, e, _, e1, e2, e3, h, Or.inl rfl⟩
    · exact ⟨a, b, e, _, e1, e2, e3, h, Or.inr rfl⟩
  · cases this

instance (a b x : Pt) : Decidable (InSector a b x) := by unfold InSector; infer_instance
instance (a b : Pt) : Decidable (SameDirection a b) := by unfold SameDirection; infer_instance

def around (m : Mesh Pt) (n : Nat) : List Nat := (List.range m.edges.length).filter (fun e => decide (touches (edgeAt m e) n))

theorem mem_around {m : Mesh Pt} {n e : Nat} (hn : n < missing) : e ∈ around m n ↔ touches (edgeAt m e) n := by
  unfold around
  rw [List.mem_filter, decide_eq_true_eq, List.mem_range]
  refine ⟨fun h => h.2, fun ht => ⟨?_, ht⟩⟩
  by_contra hc
  have : edgeAt m e = noEdge := by simp [edgeAt, List.getElem?_eq_none (not_lt.1 hc)]
  rw [this] at ht
  unfold touches noEdge at ht
  simp only at ht
  omega

def cornerCheck (m : Mesh Pt) (ns es : List Nat) (i : Nat) : Bool :=
  let a := ns.getD ((i + 1) % ns.length) 0
  let e := es.getD i 0
  let e' := es.getD ((i + 1) % ns.length) 0
  (around m a).all (fun x => decide (x ≠ e → x ≠ e' → ¬ InSector (along m a e') (along m a e) (along m a x)))

theorem corner_of_check {m : Mesh Pt} {ns es : List Nat} {i : Nat} (hn : ∀ n ∈ ns, n < missing) :
    cornerCheck m ns es i = true → EmptyCorner m ns es i := by
  intro h a e e' ha he he' x ht h5 h6
  unfold cornerCheck at h
  simp only [List.getD_eq_getElem?_getD, ha, he, he', Option.getD_some, List.all_eq_true, decide_eq_true_eq] at h
  exact h x ((mem_around (hn a (List.mem_of_getElem? ha))).2 ht) h5 h6

theorem check_of_corner {m : Mesh Pt} {ns es : List Nat} {i : Nat} (hp : Proper m.edges ns es) (hi : i < ns.length) (hn : ∀ n ∈ ns, n < missing)
    (h : EmptyCorner m ns es i) : cornerCheck m ns es i = true := by
  have hj : (i + 1) % ns.length < ns.length := Nat.mod_lt _ (by omega)
  have ha : ns[(i + 1) % ns.length]? = some ns[(i + 1) % ns.length] := List.getElem?_eq_getElem hj
  have he : es[i]? = some (es[i]'(by rw [hp.len]; exact hi)) := List.getElem?_eq_getElem _
  have he' : es[(i + 1) % ns.length]? = some (es[(i + 1) % ns.length]'(by rw [hp.len]; exact hj)) := List.getElem?_eq_getElem _
  unfold cornerCheck
  simp only [List.getD_eq_getElem?_getD, ha, he, he', Option.getD_some, List.all_eq_true, decide_eq_true_eq]
  intro x hx h1 h2
  exact h _ _ _ ha he he' x ((mem_around (hn _ (List.getElem_mem hj))).1 hx) h1 h2

def clearCheck (m : Mesh Pt) (n : Nat) : Bool :=
  decide (n < missing) && (around m n).all (fun e =>
    decide (minimumDelta ≤ |(along m n e).x| ∨ minimumDelta ≤ |(along m n e).y|) &&
    (around m n).all (fun e' => decide (e ≠ e' → ¬ SameDirection (along m n e) (along m n e'))))

theorem clear_of_check {m : Mesh Pt} {n : Nat} (h : clearCheck m n = true) : ClearAt m n := by
  unfold clearCheck at h
  simp only [Bool.and_eq_true, decide_eq_true_eq, List.all_eq_true] at h
  obtain ⟨h1, h2⟩ := h
  refine ⟨fun e he => (h2 e ((mem_around h1).2 he)).1, fun e e' he he' => (h2 e ((mem_around h1).2 he)).2 e' ((mem_around h1).2 he')⟩

def outlineCheck (m : Mesh Pt) (ns es : List Nat) : Bool :=
  properCheck m.edges ns es && decide (0 < shoelace (ns.map (position m.nodes))) && ns.all (fun n => decide (n < missing)) &&
  (List.range ns.length).all (fun i => cornerCheck m ns es i)

theorem outline_of_check {m : Mesh Pt} {ns es : List Nat} (h : outlineCheck m ns es = true) : Outline m ns es := by
  unfold outlineCheck at h
  simp only [Bool.and_eq_true, decide_eq_true_eq, List.all_eq_true, List.mem_range] at h
  obtain ⟨⟨⟨h1, h2⟩, h3⟩, h4⟩ := h
  exact ⟨proper_of_check h1, h2, fun i hi => corner_of_check h3 (h4 i hi)⟩

def manageableCheck (m : Mesh P) : Bool :=
  decide (m.nodes.length ≤ missing ∧ m.edges.length ≤ missing) &&
  m.edges.all (fun e => decide (e.1 = missing ∨ e.2 = missing ∨ (e.1 < m.nodes.length ∧ e.2 < m.nodes.length))) &&
  m.edges.all (fun e => decide (e = noEdge ∨ e.1 ≠ e.2)) &&
  (List.range m.edges.length).all (fun i => (List.range m.edges.length).all (fun j =>
    decide (i ≠ j → edgeAt m i = noEdge ∨ ¬ joins (edgeAt m j) (edgeAt m i).1 (edgeAt m i).2))) &&
  (List.range m.nodes.length).all (fun n => decide (((List.range m.edges.length).countP (fun i => (seg m.nodes (edgeAt m i)).isSome &&
      (decide ((edgeAt m i).1 = n) || decide ((edgeAt m i).2 = n)))) ≤ 16))

theorem manageable_of_check {m : Mesh P} (h : manageableCheck m = true) : Manageable m := by
  unfold manageableCheck at h
  simp only [Bool.and_eq_true, decide_eq_true_eq, List.all_eq_true, List.mem_range] at h
  obtain ⟨⟨⟨⟨⟨h1, h2⟩, h3⟩, h4⟩, h5⟩, h6⟩ := h
  have lt : ∀ i, (seg m.nodes (edgeAt m i)).isSome → i < m.edges.length := by
    intro i hs
    by_contra hc
    rw [edgeAt_ge (by omega), seg_noEdge h1] at hs
    simp at hs
  refine ⟨h1, h2, h3, ?_, ?_, h6⟩
  · intro i hs
    have hi := lt i hs
    have : edgeAt m i = m.edges[i] := by simp [edgeAt, hi]
    rw [this]
    refine (h4 _ (List.getElem_mem hi)).resolve_left (fun hno => ?_)
    rw [this, hno, seg_noEdge h1] at hs
    simp at hs
  · intro i j hij hi hj
    refine (h5 i (lt i hi) j (lt j hj) hij).resolve_left (fun hno => ?_)
    rw [hno, seg_noEdge h1] at hi
    simp at hi

/-! ## Example meshes -/

/-- Two triangles and a quadrilateral. -/
def small : Mesh Pt where
  nodes := [some ⟨0, 0⟩, some ⟨2, 0⟩, some ⟨2, 2⟩, some ⟨0, 2⟩, some ⟨4, 0⟩, some ⟨4, 2⟩]
  edges := [(0, 1), (1, 2), (2, 3), (3, 0), (0, 2), (1, 4), (4, 5), (5, 2)]
  nodesEdges := []
  numEdges := []

/-- A square cut into two quadrilaterals by a bent line of two edges, with a triangle on each side of the square. -/
def bentLine : Mesh Pt where
  nodes := [some ⟨0, 0⟩, some ⟨2, 0⟩, some ⟨2, 2⟩, some ⟨0, 2⟩, some ⟨1, 1/2⟩, some ⟨1, -1⟩, some ⟨3, 1⟩, some ⟨1, 3⟩, some ⟨-1, 1⟩]
  edges := [(0, 1), (1, 2), (2, 3), (3, 0), (0, 4), (4, 2), (0, 5), (5, 1), (1, 6), (6, 2), (2, 7), (7, 3), (3, 8), (8, 0)]
  nodesEdges := []
  numEdges := []

/-- A triangle inside a square, joined to it in a corner only. -/
def cornerTriangle : Mesh Pt where
  nodes := [some ⟨0, 0⟩, some ⟨4, 0⟩, some ⟨4, 4⟩, some ⟨0, 4⟩, some ⟨2, 1⟩, some ⟨1, 2⟩]
  edges := [(0, 1), (1, 2), (2, 3), (3, 0), (0, 4), (4, 5), (5, 0)]
  nodesEdges := []
  numEdges := []

/-! ## C14 -/

/-- **C14.** For every mesh of valid indices the search for faces succeeds without access out of range.  Every face has 3 to 6
different nodes, all valid, and as many different edges, each joining two successive nodes; the faces listed at an edge are
exactly the faces it is a side of, at most two, without repetition; no two faces have the same edges.  This holds for every
order of the edges around the nodes and every test of the direction, so for every projection. -/
theorem faces_consistent (order : Nat → List Nat → List Nat) (hperm : ∀ n l, (order n l).Perm l) (cw : List (Option P) → List Nat → Bool)
    (m : Mesh P) (hn : m.nodes.length ≤ missing) (hb : inBounds m = true) :
    ∃ m1 s, administrate order m = .ok m1 ∧ doAdministration order cw m = .ok (m1, s) ∧ Consistent m1.edges (cw m1.nodes) s ∧
      ∀ (f : Nat) ns, s.facesNodes[f]? = some ns → ∀ n ∈ ns, validNode m1.nodes n = true := by
  obtain ⟨m1, s, h1, h2, h3, h4, _⟩ := doAdministration_ok hperm cw hn hb
  exact ⟨m1, s, h1, h2, h3, h4⟩

example : small.nodes.length ≤ missing ∧ inBounds small = true := by decide

/-- The faces of the example: two triangles and a square. -/
example : (match doAdministrationCartesian small with
    | .ok r => r.2.facesNodes
    | _ => []) = [[0, 1, 2], [0, 2, 3], [1, 4, 5, 2]] := by decide +kernel

theorem cartesian_run (m : Mesh Pt) (hn : m.nodes.length ≤ missing) (hb : inBounds m = true) :
    ∃ m0 m1 s, setUnconnectedInvalid m = .ok m0 ∧ m1.nodes = m0.nodes ∧ m1.edges = m0.edges ∧
      administrate (ccwOrder m0.nodes m0.edges) m = .ok m1 ∧
      doAdministrationCartesian m = .ok (m1, s) ∧ Consistent m1.edges (clockwise m1.nodes) s ∧
      (∀ (f : Nat) ns, s.facesNodes[f]? = some ns → ∀ n ∈ ns, validNode m1.nodes n = true) ∧
      findFaces m1.edges m1.nodesEdges (clockwise m1.nodes) (validNode m1.nodes) m1.nodes.length (initial m1.edges.length) = .ok s := by
  obtain ⟨m0, h0, _⟩ := setUnconnectedInvalid_ok hn hb
  obtain ⟨m1, a1, _, ⟨m0', b1, b2, b3⟩, _⟩ := administrate_listed (ccwOrder_perm m0.nodes m0.edges) hn hb
  rw [h0] at b1
  obtain rfl := Res.ok.inj b1
  obtain ⟨m1', s, h1, h2, h3, h4, h5⟩ := doAdministration_ok (ccwOrder_perm m0.nodes m0.edges) clockwise hn hb
  rw [a1] at h1
  obtain rfl := Res.ok.inj h1
  refine ⟨m0, m1, s, h0, b2, b3, a1, ?_, h3, h4, h5⟩
  unfold doAdministrationCartesian
  rw [h0]
  exact h2

/-- **C14.** In the Cartesian projection the nodes of every face come in counterclockwise order: the signed area is positive. -/
theorem faces_counterclockwise (m : Mesh Pt) (hn : m.nodes.length ≤ missing) (hb : inBounds m = true) :
    ∃ m1 s, doAdministrationCartesian m = .ok (m1, s) ∧ Consistent m1.edges (clockwise m1.nodes) s ∧
      ∀ (f : Nat) ns, s.facesNodes[f]? = some ns → (∀ n ∈ ns, validNode m1.nodes n = true) ∧ 0 < shoelace (ns.map (position m1.nodes)) := by
  obtain ⟨m0, m1, s, _, _, _, _, h2, h3, h4, _⟩ := cartesian_run m hn hb
  refine ⟨m1, s, h2, h3, ?_⟩
  intro f ns hf
  refine ⟨h4 f ns hf, ?_⟩
  have hlt : f < s.facesEdges.length := by rw [← h3.lengths]; exact (List.getElem?_eq_some_iff.1 hf).1
  obtain ⟨hp, hc⟩ := h3.proper f ns _ hf (List.getElem?_eq_getElem hlt)
  exact (clockwise_iff hp.atLeast (fun n hn' => validNode_lt (h4 f ns hf n hn'))).1 hc

example : bentLine.nodes.length ≤ missing ∧ inBounds bentLine = true := by decide

/-! ## C44 -/

/-- What the administration gives when there is a valid node and an edge. -/
theorem administration_order {m : Mesh Pt} (hm : Manageable m) {m1 : Mesh Pt} {s : State} (hrun : doAdministrationCartesian m = .ok (m1, s))
    {ns es : List Nat} (hp : Proper m1.edges ns es) :
    WF m1 ∧ Listed m1.edges m1.nodesEdges m1.nodes.length ∧ m1.nodes.length ≤ missing ∧ (∀ n ∈ ns, validNode m1.nodes n = true) ∧
    (∀ (e : Nat) p, m1.edges[e]? = some p → p = noEdge ∨ (validNode m1.nodes p.1 = true ∧ validNode m1.nodes p.2 = true)) ∧
    (∀ (n : Nat) l, m1.nodesEdges[n]? = some l → validNode m1.nodes n = true → ∃ l0, l = ccwOrder m1.nodes m1.edges n l0) ∧
    findFaces m1.edges m1.nodesEdges (clockwise m1.nodes) (validNode m1.nodes) m1.nodes.length (initial m1.edges.length) = .ok s := by
  have hb := inBounds_of hm.bounds
  obtain ⟨m0, m1', s', h0, e1, e2, a1, h2, _, _, h5⟩ := cartesian_run m hm.nodesFit hb
  rw [hrun] at h2
  obtain ⟨rfl, rfl⟩ := Prod.mk.inj (Res.ok.inj h2)
  obtain ⟨m1', b1, b2, _, b4, b5⟩ := administrate_listed (ccwOrder_perm m0.nodes m0.edges) hm.nodesFit hb
  rw [a1] at b1
  obtain rfl := Res.ok.inj b1
  have h3 := hp.atLeast
  have hval := proper_valid b4 hp
  have hmem : ns[0] ∈ ns := List.getElem_mem (by omega)
  have hv0 := hval _ hmem
  rcases b5 with h | h | h
  · exfalso
    have := validNode_lt hv0
    rw [h] at this; simp at this
  · exfalso
    rw [h.2 _] at hv0
    cases hv0
  · have hnn : m.nodes ≠ [] := by
      intro hc
      have := validNode_lt hv0
      rw [b2, hc] at this; simp at this
    have hee : m.edges ≠ [] := by
      intro hc
      obtain ⟨a, b, e, p, _, _, _, q, _⟩ := hp.sides 0 (by omega)
      obtain ⟨m2, c1, _, c3, _⟩ := setUnconnectedInvalid_ok hm.nodesFit hb
      rw [h0] at c1
      obtain rfl := Res.ok.inj c1
      have := (List.getElem?_eq_some_iff.1 q).1
      rw [e2, c3, hc] at this; simp at this
    obtain ⟨m2, c1, c2⟩ := administrate_ok hm hnn hee (ccwOrder m0.nodes m0.edges) (ccwOrder_perm m0.nodes m0.edges)
    rw [a1] at c1
    obtain rfl := Res.ok.inj c1
    rw [← e1, ← e2] at h
    exact ⟨Administrated.wf hm c2, h.1, by rw [b2]; exact hm.nodesFit, hval, b4, h.2, h5⟩

/-- **C44, partial.** Every cell of 3 to 6 corners is found as a face with the same edges, unless two faces have been found on
one of its edges or a face has been found that shares two of its edges.

Missing: the exception; without it the statement is false, see `cell_not_found`. -/
theorem cells_found_partial (m : Mesh Pt) (hm : Manageable m) {m1 : Mesh Pt} {s : State} (hrun : doAdministrationCartesian m = .ok (m1, s))
    {ns es : List Nat} (ho : Outline m1 ns es) (hc : ∀ n ∈ ns, ClearAt m1 n) :
    (∃ (f : Nat) (es' : List Nat), s.facesEdges[f]? = some es' ∧ ∀ e, e ∈ es' ↔ e ∈ es) ∨
    (∃ e f g, e ∈ es ∧ f ≠ g ∧ Borders s f e ∧ Borders s g e) ∨
    (∃ f e e', e ∈ es ∧ e' ∈ es ∧ e ≠ e' ∧ Borders s f e ∧ Borders s f e') := by
  obtain ⟨w, hL, hN, hval, hv, hord, h5⟩ := administration_order hm hrun ho.proper
  exact tight_found hL hN (validNode m1.nodes) (initial_consistent m1.edges (clockwise m1.nodes)) h5 (outline_round w hL hv hord ho hc).tight
    (fun n hn => ⟨validNode_lt (hval n hn), hval n hn⟩) ((clockwise_iff ho.proper.atLeast (fun n hn => validNode_lt (hval n hn))).2 ho.ccw)

/-- **C44, partial.** The faces are exactly the cells of 3 to 6 corners, for meshes in which (`hclear`) no two edges at a node have the same
direction, (`hfirst`) no polygon has edges inside at one corner only, and (`hshare`) two different cells share one edge at most.

Missing: both conditions on the mesh; without `hfirst` faces may overlap, see `faces_overlap`, and without `hshare` cells may
be missed, see `cell_not_found`. -/
theorem faces_are_cells_partial (m : Mesh Pt) (hm : Manageable m) {m1 : Mesh Pt} {s : State} (hrun : doAdministrationCartesian m = .ok (m1, s))
    (hclear : ∀ n, validNode m1.nodes n = true → ClearAt m1 n)
    (hfirst : ∀ ns es, OpenOutline m1 ns es → Outline m1 ns es)
    (hshare : ∀ ns es ns' es', Outline m1 ns es → Outline m1 ns' es' → ∀ e e', e ≠ e' → e ∈ es → e' ∈ es → e ∈ es' → e' ∈ es' →
      ∀ x, x ∈ es ↔ x ∈ es') :
    (∀ (f : Nat) ns es, s.facesNodes[f]? = some ns → s.facesEdges[f]? = some es → Outline m1 ns es) ∧
    (∀ ns es, Outline m1 ns es → ∃ (f : Nat) (es' : List Nat), s.facesEdges[f]? = some es' ∧ ∀ e, e ∈ es' ↔ e ∈ es) := by
  obtain ⟨_, m1', s', _, _, _, _, h2, hcons, hvalid, _⟩ := cartesian_run m hm.nodesFit (inBounds_of hm.bounds)
  rw [hrun] at h2
  obtain ⟨rfl, rfl⟩ := Prod.mk.inj (Res.ok.inj h2)
  have cells : ∀ (f : Nat) ns es, s.facesNodes[f]? = some ns → s.facesEdges[f]? = some es → Outline m1 ns es := by
    intro f ns es h1 h2
    obtain ⟨hp, hcw⟩ := hcons.proper f ns es h1 h2
    obtain ⟨w, hL, hN, hval, hv, hord, h5⟩ := administration_order hm hrun hp
    refine hfirst ns es (tight_openOutline w hL hv hord (findFaces_tight hL hN _ h5 f ns es h1 h2) ?_ (fun n hn => hclear n (hval n hn)))
    exact (clockwise_iff hp.atLeast (fun n hn => validNode_lt (hval n hn))).1 hcw
  refine ⟨cells, ?_⟩
  intro ns es ho
  obtain ⟨w, hL, hN, hval, hv, hord, h5⟩ := administration_order hm hrun ho.proper
  have nodesOf : ∀ (f : Nat) es1, s.facesEdges[f]? = some es1 → ∃ ns1, s.facesNodes[f]? = some ns1 := by
    intro f es1 h
    have : f < s.facesNodes.length := by rw [hcons.lengths]; exact (List.getElem?_eq_some_iff.1 h).1
    exact ⟨_, List.getElem?_eq_getElem this⟩
  rcases round_found hL hN (validNode m1.nodes) h5 (outline_round w hL hv hord ho (fun n hn => hclear n (hval n hn)))
    (fun n hn => ⟨validNode_lt (hval n hn), hval n hn⟩) ((clockwise_iff ho.proper.atLeast (fun n hn => validNode_lt (hval n hn))).2 ho.ccw)
    (fun e p hp => (hv e p hp).imp id (fun h => ⟨validNode_lt h.1, validNode_lt h.2⟩)) with h | ⟨f, ns', es', h1, h2, h3⟩ | ⟨f, e, e', h1, h2, h3, ⟨es1, b1, b2⟩, ⟨es2, b3, b4⟩⟩
  · exact h
  · exfalso
    have ho' := cells f ns' es' h1 h2
    exact h3 (outline_round w hL hv hord ho' (fun n hn => hclear n (proper_valid hv ho'.proper n hn)))
  · rw [b1] at b3
    obtain rfl := Option.some.inj b3
    obtain ⟨ns1, n1⟩ := nodesOf f es1 b1
    exact ⟨f, es1, b1, fun x => (hshare ns es ns1 es1 ho (cells f ns1 es1 n1 b1) e e' h3 h1 h2 b2 b4 x).symm⟩

/-- The outcome for an example. -/
def runOf (m : Mesh Pt) : Mesh Pt × State :=
  match doAdministrationCartesian m with
  | .ok r => r
  | _ => (m, initial 0)

theorem runOf_eq {m : Mesh Pt} (hn : m.nodes.length ≤ missing) (hb : inBounds m = true) :
    doAdministrationCartesian m = .ok ((runOf m).1, (runOf m).2) := by
  obtain ⟨_, m1, s, _, _, _, _, h, _⟩ := cartesian_run m hn hb
  unfold runOf
  rw [h]

example : doAdministrationCartesian small = .ok ((runOf small).1, (runOf small).2) ∧ Outline (runOf small).1 [1, 4, 5, 2] [5, 6, 7, 1] ∧
    ∀ n ∈ [1, 4, 5, 2], ClearAt (runOf small).1 n :=
  ⟨runOf_eq (by decide) (by decide), outline_of_check (by decide +kernel),
    fun n hn => clear_of_check ((by decide +kernel : ∀ n ∈ [1, 4, 5, 2], clearCheck (runOf small).1 n = true) n hn)⟩

/-- All lists of `k` numbers below `N`. -/
def tuples (N : Nat) : Nat → List (List Nat)
  | 0 => [[]]
  | k + 1 => (tuples N k).flatMap (fun l => (List.range N).map (fun a => a :: l))

theorem mem_tuples {N : Nat} : ∀ {l : List Nat}, (∀ a ∈ l, a < N) → l ∈ tuples N l.length
  | [], _ => by simp [tuples]
  | a :: l, h => by
    rw [List.length_cons, tuples, List.mem_flatMap]
    exact ⟨l, mem_tuples (fun b hb => h b (List.mem_cons_of_mem _ hb)), List.mem_map.2 ⟨a, List.mem_range.2 (h a List.mem_cons_self), rfl⟩⟩

/-- The edges joining successive nodes. -/
def sidesOf (edges : List Edge) (ns : List Nat) : List Nat :=
  (List.range ns.length).map (fun i => edges.findIdx (fun e =>
    decide (e = (ns.getD i 0, ns.getD ((i + 1) % ns.length) 0) ∨ e = (ns.getD ((i + 1) % ns.length) 0, ns.getD i 0))))

theorem sidesOf_eq {edges : List Edge} (hu : edges.Pairwise (fun p q => p ≠ q ∧ p ≠ (q.2, q.1))) {ns es : List Nat} (hp : Proper edges ns es) :
    es = sidesOf edges ns := by
  apply List.ext_getElem
  · rw [hp.len]; simp [sidesOf]
  intro i h1 h2
  have hi : i < ns.length := by rw [← hp.len]; exact h1
  obtain ⟨a, b, e, p, q1, q2, q3, q4, q5⟩ := hp.sides i hi
  rw [List.getElem?_eq_getElem h1] at q3
  have q3 := Option.some.inj q3
  simp only [sidesOf, List.getElem_map, List.getElem_range, List.getD_eq_getElem?_getD, q1, q2, Option.getD_some]
  rw [q3]
  obtain ⟨he, hep⟩ := List.getElem?_eq_some_iff.1 q4
  symm
  rw [List.findIdx_eq he]
  refine ⟨by rw [hep, decide_eq_true_eq]; exact q5, ?_⟩
  intro j hj
  have := List.pairwise_iff_getElem.1 hu j e (by omega) he hj
  rw [hep] at this
  rw [Bool.eq_false_iff]
  intro hc
  have hc := of_decide_eq_true hc
  rcases hc with h | h <;> rcases q5 with h' | h' <;> rw [h, h'] at this <;> simp at this

theorem check_of_proper {edges : List Edge} {ns es : List Nat} (h : Proper edges ns es) : properCheck edges ns es = true := by
  unfold properCheck
  rw [Bool.and_eq_true, decide_eq_true_eq, List.all_eq_true]
  refine ⟨⟨h.atLeast, h.atMost, h.len, h.nodesDistinct, h.edgesDistinct⟩, ?_⟩
  intro i hi
  obtain ⟨a, b, e, p, q1, q2, q3, q4, q5⟩ := h.sides i (List.mem_range.1 hi)
  rw [q1, q2, q3]
  simp only [q4, decide_eq_true_eq, Option.some.injEq]
  exact q5

def openCheck (m : Mesh Pt) (ns es : List Nat) : Bool :=
  properCheck m.edges ns es && decide (0 < shoelace (ns.map (position m.nodes))) &&
  (List.range (ns.length - 1)).all (fun i => cornerCheck m ns es i)

theorem check_of_openOutline {m : Mesh Pt} {ns es : List Nat} (hn : ∀ n ∈ ns, n < missing) (h : OpenOutline m ns es) : openCheck m ns es = true := by
  unfold openCheck
  rw [Bool.and_eq_true, Bool.and_eq_true, decide_eq_true_eq, List.all_eq_true]
  refine ⟨⟨check_of_proper h.proper, h.ccw⟩, fun i hi => ?_⟩
  have := List.mem_range.1 hi
  exact check_of_corner h.proper (by omega) hn (h.empty i (by omega))

theorem Outline.toOpen {m : Mesh Pt} {ns es : List Nat} (h : Outline m ns es) : OpenOutline m ns es :=
  ⟨h.proper, h.ccw, fun i hi => h.empty i (by omega)⟩

/-- A square cut along a diagonal. -/
def halves : Mesh Pt where
  nodes := [some ⟨0, 0⟩, some ⟨2, 0⟩, some ⟨2, 2⟩, some ⟨0, 2⟩]
  edges := [(0, 1), (1, 2), (2, 3), (3, 0), (0, 2)]
  nodesEdges := []
  numEdges := []

/-- The outlines of the example, except for the first corner. -/
theorem halves_outlines {ns es : List Nat} (h : OpenOutline (runOf halves).1 ns es) :
    es = sidesOf (runOf halves).1.edges ns ∧ ns ∈ [[0, 1, 2], [1, 2, 0], [2, 0, 1], [0, 2, 3], [2, 3, 0], [3, 0, 2]] := by
  have hlt : ∀ n ∈ ns, n < 4 := by
    intro n hn
    obtain ⟨j, hj, rfl⟩ := List.mem_iff_getElem.1 hn
    obtain ⟨c, d, e, p, r1, r2, r3, r4, r5⟩ := h.proper.sides j hj
    rw [List.getElem?_eq_getElem hj] at r1
    obtain rfl := Option.some.inj r1
    have : ∀ p ∈ (runOf halves).1.edges, p.1 < 4 ∧ p.2 < 4 := by decide +kernel
    have := this p (List.mem_of_getElem? r4)
    rcases r5 with h | h <;> rw [h] at this
    · exact this.1
    · exact this.2
  have hes := sidesOf_eq (by decide +kernel) h.proper
  refine ⟨hes, ?_⟩
  have h4 : ns.length ≤ 4 := by
    have hsub : ns ⊆ List.range 4 := fun n hn => List.mem_range.2 (hlt n hn)
    simpa using (h.proper.nodesDistinct.subperm hsub).length_le
  have hc := check_of_openOutline (fun n hn => by have := hlt n hn; unfold missing; omega) h
  rw [hes] at hc
  have hmem := mem_tuples hlt
  have h3 := h.proper.atLeast
  have key : ∀ k ∈ [3, 4], ∀ l ∈ tuples 4 k, openCheck (runOf halves).1 l (sidesOf (runOf halves).1.edges l) = true →
      l ∈ [[0, 1, 2], [1, 2, 0], [2, 0, 1], [0, 2, 3], [2, 3, 0], [3, 0, 2]] := by decide +kernel
  exact key ns.length (by simp; omega) ns hmem hc

/-- The hypotheses of `faces_are_cells_partial` hold for the square cut along a diagonal. -/
example : Manageable halves ∧ doAdministrationCartesian halves = .ok ((runOf halves).1, (runOf halves).2) ∧
    (∀ n, validNode (runOf halves).1.nodes n = true → ClearAt (runOf halves).1 n) ∧
    (∀ ns es, OpenOutline (runOf halves).1 ns es → Outline (runOf halves).1 ns es) ∧
    (∀ ns es ns' es', Outline (runOf halves).1 ns es → Outline (runOf halves).1 ns' es' → ∀ e e', e ≠ e' → e ∈ es → e' ∈ es → e ∈ es' → e' ∈ es' →
      ∀ x, x ∈ es ↔ x ∈ es') := by
  refine ⟨manageable_of_check (by decide +kernel), runOf_eq (by decide) (by decide), ?_, ?_, ?_⟩
  · intro n hn
    have h4 : n < 4 := by
      have := validNode_lt hn
      have h : (runOf halves).1.nodes.length = 4 := by decide +kernel
      omega
    exact clear_of_check ((by decide +kernel : ∀ n < 4, clearCheck (runOf halves).1 n = true) n h4)
  · intro ns es h
    obtain ⟨rfl, h2⟩ := halves_outlines h
    exact outline_of_check ((by decide +kernel : ∀ l ∈ [[0, 1, 2], [1, 2, 0], [2, 0, 1], [0, 2, 3], [2, 3, 0], [3, 0, 2]],
      outlineCheck (runOf halves).1 l (sidesOf (runOf halves).1.edges l) = true) ns h2)
  · intro ns es ns' es' h h' e e' hne h1 h2 h3 h4
    obtain ⟨rfl, h5⟩ := halves_outlines h.toOpen
    obtain ⟨rfl, h6⟩ := halves_outlines h'.toOpen
    have key : ∀ l ∈ [[0, 1, 2], [1, 2, 0], [2, 0, 1], [0, 2, 3], [2, 3, 0], [3, 0, 2]], ∀ l' ∈ [[0, 1, 2], [1, 2, 0], [2, 0, 1], [0, 2, 3], [2, 3, 0], [3, 0, 2]],
        ∀ e ∈ sidesOf (runOf halves).1.edges l, ∀ e' ∈ sidesOf (runOf halves).1.edges l, e ≠ e' → e ∈ sidesOf (runOf halves).1.edges l' →
        e' ∈ sidesOf (runOf halves).1.edges l' →
        (∀ x ∈ sidesOf (runOf halves).1.edges l, x ∈ sidesOf (runOf halves).1.edges l') ∧
        (∀ x ∈ sidesOf (runOf halves).1.edges l', x ∈ sidesOf (runOf halves).1.edges l) := by decide +kernel
    have := key ns h5 ns' h6 e h1 e' h2 hne h3 h4
    exact fun x => ⟨this.1 x, this.2 x⟩

/-- **C44 is false in general.**  A square is cut into two quadrilaterals by a line of two edges, and each side of the square has
a triangle on the other side.  The first quadrilateral is found; then every edge of the second one has a face already, and
two of its edges have the same one, so it is taken for a face found before (`Mesh2D.cpp:443-458`).  The cell is missing. -/
theorem cell_not_found : ∃ (m m1 : Mesh Pt) (s : State) (ns es : List Nat), Manageable m ∧ doAdministrationCartesian m = .ok (m1, s) ∧
    Outline m1 ns es ∧ ¬ ∃ (f : Nat) (es' : List Nat), s.facesEdges[f]? = some es' ∧ ∀ e, e ∈ es' ↔ e ∈ es := by
  refine ⟨bentLine, (runOf bentLine).1, (runOf bentLine).2, [0, 4, 2, 3], [4, 5, 2, 3], ?_, runOf_eq (by decide) (by decide),
    outline_of_check (by decide +kernel), ?_⟩
  · exact manageable_of_check (by decide +kernel)
  · rintro ⟨f, es', h1, h2⟩
    have : ∀ l ∈ (runOf bentLine).2.facesEdges, ¬ (4 ∈ l ∧ 3 ∈ l) := by decide +kernel
    exact this es' (List.mem_of_getElem? h1) ⟨(h2 4).2 (by simp), (h2 3).2 (by simp)⟩

/-- Faces may overlap: the turn at the node where the search starts is not examined when the polygon closes
(`Mesh2D.cpp:434`).  A triangle inside a square that touches it in a corner is a face, and the square as well, although
two edges start from its corner inwards. -/
theorem faces_overlap : ∃ (m m1 : Mesh Pt) (s : State), Manageable m ∧ doAdministrationCartesian m = .ok (m1, s) ∧
    [0, 1, 2, 3] ∈ s.facesNodes ∧ [0, 4, 5] ∈ s.facesNodes ∧
    InSector (along m1 0 0) (along m1 0 3) (along m1 0 4) := by
  exact ⟨cornerTriangle, (runOf cornerTriangle).1, (runOf cornerTriangle).2, manageable_of_check (by decide +kernel), runOf_eq (by decide) (by decide),
    by decide +kernel, by decide +kernel, by decide +kernel⟩

end Verif.Faces
