import Verif.ToCurvi.Spec
import Verif.Mesh.EditLemmas
import Verif.Mesh.PropsLemmas
import Verif.Faces.PropsLemmas
/-!
# Lemmas: quadrilaterals of a mesh and their sides
-/
namespace Verif.ToCurvi
open Verif.Mesh Verif.Faces Verif.Refine Verif.Curvi
variable {P : Type}

/-- What holds after the administration. -/
structure Facts (m : Mesh P) (s : State) : Prop where
  wf : WF m
  simple : Simple m
  listed : ∀ n i, i ∈ listAt m n → touches (edgeAt m i) n
  lengths : s.facesNodes.length = s.facesEdges.length
  proper : ∀ (f : Nat) ns es, s.facesNodes[f]? = some ns → s.facesEdges[f]? = some es → Proper m.edges ns es
  numFaces : s.numFaces.length = m.edges.length
  edgesFaces : s.edgesFaces.length = m.edges.length
  faces : ∀ e, e < m.edges.length → ∃ c p l, s.numFaces[e]? = some c ∧ s.edgesFaces[e]? = some p ∧ Places c p l ∧ l.Nodup ∧
    ∀ f, f ∈ l ↔ Borders s f e
  once : ∀ (f g : Nat) es es', f ≠ g → s.facesEdges[f]? = some es → s.facesEdges[g]? = some es' → ¬ ∀ e, e ∈ es ↔ e ∈ es'
  valid : ∀ (f : Nat) ns, s.facesNodes[f]? = some ns → ∀ n ∈ ns, validNode m.nodes n = true
  fits : s.facesNodes.length ≤ missing

theorem facts_of_run {m m1 : Mesh P} {s : State} (hm : Manageable m) {order : Nat → List Nat → List Nat} (ho : ∀ n l, (order n l).Perm l)
    {cw : List (Option P) → List Nat → Bool} (h0 : m.nodes ≠ []) (h : doAdministration order cw m = .ok (m1, s)) (hs : s.facesNodes ≠ [])
    (hF : s.facesNodes.length ≤ missing) : Facts m1 s := by
  obtain ⟨m1', s', a1, a2, a3, a4, _⟩ := doAdministration_ok ho cw hm.nodesFit (inBounds_of hm.bounds)
  rw [h] at a2
  obtain ⟨rfl, rfl⟩ := Prod.mk.inj (Res.ok.inj a2)
  have he : m.edges ≠ [] := by
    intro he
    obtain ⟨ns, rest, hns⟩ := List.exists_cons_of_ne_nil hs
    have g0 : s.facesNodes[0]? = some ns := by rw [hns]; rfl
    have hl : 0 < s.facesEdges.length := by rw [← a3.lengths, hns]; simp
    have hp := (a3.proper 0 ns _ g0 (List.getElem?_eq_getElem hl)).1
    obtain ⟨_, _, e, p, _, _, _, g4, _⟩ := hp.sides 0 (by have := hp.atLeast; omega)
    obtain ⟨m0, b1, _, b3, _⟩ := setUnconnectedInvalid_ok hm.nodesFit (inBounds_of hm.bounds)
    obtain ⟨m1', c1, _, ⟨m0', d1, _, d3⟩, _⟩ := administrate_listed ho hm.nodesFit (inBounds_of hm.bounds)
    rw [a1] at c1
    obtain rfl := Res.ok.inj c1
    rw [b1] at d1
    obtain rfl := Res.ok.inj d1
    have : m1.edges.length = 0 := by rw [d3, b3, he]; rfl
    rw [List.length_eq_zero_iff.1 this] at g4
    simp at g4
  obtain ⟨m1', b1, b2⟩ := administrate_ok hm h0 he order ho
  rw [a1] at b1
  obtain rfl := Res.ok.inj b1
  refine ⟨b2.wf hm, b2.simple hm, ?_, a3.lengths, fun f ns es h1 h2 => (a3.proper f ns es h1 h2).1, a3.numFaces, a3.edgesFaces, a3.faces, a3.once, a4, hF⟩
  intro n i hi
  obtain ⟨h1, h2⟩ := (b2.mem n i).1 hi
  rw [b2.edges, if_pos h1]
  exact h2

variable {m : Mesh P} {s : State}

theorem Linked.symm {a b : Nat} (h : Linked m s a b) : Linked m s b a := by
  obtain ⟨e, f, ns, h1, h2⟩ := h
  exact ⟨e, f, ns, joins_comm.1 h1, h2⟩

/-- The four sides of a quadrilateral, from any corner and in any direction. -/
structure Sides (m : Mesh P) (s : State) (f : Nat) (a b c d e0 e1 e2 e3 : Nat) : Prop where
  j0 : joins (edgeAt m e0) a b
  j1 : joins (edgeAt m e1) b c
  j2 : joins (edgeAt m e2) c d
  j3 : joins (edgeAt m e3) d a
  b0 : Borders s f e0
  b1 : Borders s f e1
  b2 : Borders s f e2
  b3 : Borders s f e3

theorem Sides.rot {f a b c d e0 e1 e2 e3 : Nat} (h : Sides m s f a b c d e0 e1 e2 e3) : Sides m s f b c d a e1 e2 e3 e0 :=
  ⟨h.j1, h.j2, h.j3, h.j0, h.b1, h.b2, h.b3, h.b0⟩

theorem Sides.flip {f a b c d e0 e1 e2 e3 : Nat} (h : Sides m s f a b c d e0 e1 e2 e3) : Sides m s f b a d c e0 e3 e2 e1 :=
  ⟨joins_comm.1 h.j0, joins_comm.1 h.j3, joins_comm.1 h.j2, joins_comm.1 h.j1, h.b0, h.b3, h.b2, h.b1⟩

theorem Facts.quad (hf : Facts m s) {f : Nat} {ns : List Nat} (h : Quad s f ns) : ∃ a b c d e0 e1 e2 e3, ns = [a, b, c, d] ∧ [a, b, c, d].Nodup ∧
    s.facesEdges[f]? = some [e0, e1, e2, e3] ∧ [e0, e1, e2, e3].Nodup ∧ Sides m s f a b c d e0 e1 e2 e3 := by
  obtain ⟨h1, h2⟩ := h
  match ns, h2 with
  | [a, b, c, d], _ =>
    have hlt : f < s.facesEdges.length := by rw [← hf.lengths]; exact (List.getElem?_eq_some_iff.1 h1).1
    have hes := List.getElem?_eq_getElem hlt
    generalize s.facesEdges[f] = es at hes
    have hp := hf.proper f _ es h1 hes
    have hl := hp.len
    match es, hl with
    | [e0, e1, e2, e3], _ =>
      have at' : ∀ e p, m.edges[e]? = some p → edgeAt m e = p := fun e p h => by simp [edgeAt, h]
      obtain ⟨_, _, _, p0, x1, x2, x3, x4, x5⟩ := hp.sides 0 (by simp)
      obtain ⟨_, _, _, p1, y1, y2, y3, y4, y5⟩ := hp.sides 1 (by simp)
      obtain ⟨_, _, _, p2, z1, z2, z3, z4, z5⟩ := hp.sides 2 (by simp)
      obtain ⟨_, _, _, p3, w1, w2, w3, w4, w5⟩ := hp.sides 3 (by simp)
      simp at x1 x2 x3 y1 y2 y3 z1 z2 z3 w1 w2 w3
      subst x1 x2 x3 y2 y3 z2 z3 w3
      have bd : ∀ e ∈ [e0, e1, e2, e3], Borders s f e := fun e he => ⟨_, hes, he⟩
      refine ⟨_, _, _, _, e0, e1, e2, e3, rfl, hp.nodesDistinct, hes, hp.edgesDistinct,
        ⟨?_, ?_, ?_, ?_, bd e0 (by simp), bd e1 (by simp), bd e2 (by simp), bd e3 (by simp)⟩⟩
      · rw [at' _ _ x4]; exact x5
      · rw [at' _ _ y4, y1]; exact y5
      · rw [at' _ _ z4, z1]; exact z5
      · rw [at' _ _ w4, w1, w2]; exact w5

/-- Sides of a quadrilateral for any way around it. -/
theorem Facts.around (hf : Facts m s) {f a b c d : Nat} {ns : List Nat} (h : Quad s f ns) (ha : Around ns a b c d) :
    ∃ e0 e1 e2 e3, Sides m s f a b c d e0 e1 e2 e3 ∧ [a, b, c, d].Nodup := by
  obtain ⟨a', b', c', d', e0, e1, e2, e3, h1, h2, _, _, h5⟩ := hf.quad h
  rw [h1] at ha
  have perm : ∀ l : List Nat, l.Perm [a', b', c', d'] → l.Nodup := fun l hl => hl.nodup_iff.2 h2
  simp only [List.nodup_cons, List.mem_cons, List.not_mem_nil, or_false, not_or, not_false_eq_true, List.nodup_nil, and_true] at h2
  rcases ha with q | q | q | q | q | q | q | q <;> simp only [List.cons.injEq, and_true] at q <;> obtain ⟨rfl, rfl, rfl, rfl⟩ := q
  · exact ⟨_, _, _, _, h5, by simp; omega⟩
  · exact ⟨_, _, _, _, h5.rot.rot.rot, by simp; omega⟩
  · exact ⟨_, _, _, _, h5.rot.rot, by simp; omega⟩
  · exact ⟨_, _, _, _, h5.rot, by simp; omega⟩
  · exact ⟨_, _, _, _, h5.flip.rot.rot, by simp; omega⟩
  · exact ⟨_, _, _, _, h5.flip.rot.rot.rot, by simp; omega⟩
  · exact ⟨_, _, _, _, h5.flip, by simp; omega⟩
  · exact ⟨_, _, _, _, h5.flip.rot, by simp; omega⟩

theorem Facts.node_lt (hf : Facts m s) {f n : Nat} {ns : List Nat} (h : Quad s f ns) (hn : n ∈ ns) : n < m.nodes.length :=
  validNode_lt (hf.valid f ns h.1 n hn)

theorem Facts.node_ne (hf : Facts m s) {f n : Nat} {ns : List Nat} (h : Quad s f ns) (hn : n ∈ ns) : n ≠ missing := by
  have h1 := hf.node_lt h hn
  have h2 := hf.wf.nodesFit
  omega

theorem Facts.edge_lt (hf : Facts m s) {f e : Nat} (h : Borders s f e) : e < m.edges.length := by
  obtain ⟨es, h1, h2⟩ := h
  have hlt : f < s.facesNodes.length := by rw [hf.lengths]; exact (List.getElem?_eq_some_iff.1 h1).1
  have hp := hf.proper f _ es (List.getElem?_eq_getElem hlt) h1
  obtain ⟨k, hk, rfl⟩ := List.mem_iff_getElem.1 h2
  obtain ⟨_, _, e', p, _, _, h5, h6, _⟩ := hp.sides k (by rw [← hp.len]; exact hk)
  rw [List.getElem?_eq_getElem hk] at h5
  cases h5
  exact (List.getElem?_eq_some_iff.1 h6).1

theorem edgeAt_ne {n e : Nat} (h : touches (edgeAt m e) n) (hn : n ≠ missing) : edgeAt m e ≠ noEdge := by
  intro hc
  rw [hc] at h
  rcases h with h | h <;> exact hn h.symm

/-- Two nodes are joined by one edge at most. -/
theorem Facts.edge_unique (hf : Facts m s) {a b e e' : Nat} (ha : a ≠ missing) (h : joins (edgeAt m e) a b) (h' : joins (edgeAt m e') a b) : e = e' := by
  by_contra hne
  have h1 := edgeAt_ne (joins_touches h).1 ha
  refine hf.simple.noDup e e' hne h1 ?_
  rcases h with h | h <;> rw [h]
  · exact h'
  · exact joins_comm.1 h'

theorem Facts.findEdge_eq (hf : Facts m s) {a b e : Nat} (ha : a < m.nodes.length) (hb : b ≠ missing) (h : joins (edgeAt m e) a b) :
    findEdge m a b = .ok e := by
  have ha' : a ≠ missing := by have := hf.wf.nodesFit; omega
  rcases findEdge_ok hf.wf ha hb with h1 | ⟨i, _, h2, h3⟩
  · exact absurd h (h1.2 e)
  · rw [h2, hf.edge_unique ha' h3 h]

/-- `FindCommonNode` of two edges in a path. -/
theorem common_eq {a b c e e' : Nat} (he : e < m.edges.length) (he' : e' < m.edges.length) (ha : a ≠ missing) (hb : b ≠ missing)
    (hc : c ≠ missing) (hac : a ≠ c) (hab : a ≠ b) (hbc : b ≠ c) (h : joins (edgeAt m e) a b) (h' : joins (edgeAt m e') b c) :
    findCommonNode m.edges e e' = .ok b := by
  have g : m.edges[e]? = some (edgeAt m e) := by simp [edgeAt, he]
  have g' : m.edges[e']? = some (edgeAt m e') := by simp [edgeAt, he']
  unfold findCommonNode
  rw [vget_eq_ok.2 g, vget_eq_ok.2 g', Res.ok_bind, Res.ok_bind]
  rcases h with h | h <;> rcases h' with h' | h' <;> rw [h, h'] <;> simp [*]

/-- The faces of an edge. -/
theorem Facts.edge_faces (hf : Facts m s) {e : Nat} (he : e < m.edges.length) : ∃ c p l, s.numFaces[e]? = some c ∧ s.edgesFaces[e]? = some p ∧
    Places c p l ∧ l.Nodup ∧ (∀ f, f ∈ l ↔ Borders s f e) := hf.faces e he

theorem Facts.isQuad_eq (hf : Facts m s) {f e : Nat} (h : Borders s f e) : ∃ b, isQuad s f = .ok b ∧ (b = true ↔ ∃ ns, Quad s f ns) := by
  obtain ⟨es, h1, _⟩ := h
  have hlt : f < s.facesNodes.length := by rw [hf.lengths]; exact (List.getElem?_eq_some_iff.1 h1).1
  refine ⟨decide (s.facesNodes[f].length = 4), ?_, ?_⟩
  · unfold isQuad
    rw [vget_ok hlt]; rfl
  · rw [decide_eq_true_eq]
    constructor
    · intro h; exact ⟨_, List.getElem?_eq_getElem hlt, h⟩
    · rintro ⟨ns, h2, h3⟩
      rw [List.getElem?_eq_getElem hlt] at h2
      cases h2; exact h3

theorem Facts.quadBeside_eq (hf : Facts m s) {e : Nat} (h : ∃ g, Borders s g e) : ∃ b, quadBeside s e = .ok b ∧
    (b = true ↔ ∃ f ns, Borders s f e ∧ Quad s f ns) := by
  obtain ⟨g0, h0⟩ := h
  obtain ⟨c, p, l, h1, h2, h3, _, h5⟩ := hf.faces e (hf.edge_lt h0)
  have hl := (h5 g0).2 h0
  unfold quadBeside
  rw [vget_eq_ok.2 h2, Res.ok_bind]
  cases h3 with
  | none => simp at hl
  | one f =>
    have hb := (h5 f).1 (by simp)
    obtain ⟨b, q1, q2⟩ := hf.isQuad_eq hb
    refine ⟨b, ?_, ?_⟩
    · simp only [q1, vget_eq_ok.2 h1, Res.ok_bind]
      rw [if_neg (by simp)]
    · rw [q2]
      constructor
      · rintro ⟨ns, h⟩; exact ⟨f, ns, hb, h⟩
      · rintro ⟨f', ns, h, h'⟩
        have := (h5 f').2 h
        simp at this
        exact ⟨ns, this ▸ h'⟩
  | two f g =>
    have hb := (h5 f).1 (by simp)
    have hb' := (h5 g).1 (by simp)
    obtain ⟨b, q1, q2⟩ := hf.isQuad_eq hb
    obtain ⟨b', q1', q2'⟩ := hf.isQuad_eq hb'
    refine ⟨b || b', ?_, ?_⟩
    · simp only [q1, vget_eq_ok.2 h1, Res.ok_bind, q1', true_and]
      cases b <;> simp
    · rw [Bool.or_eq_true, q2, q2']
      constructor
      · rintro (⟨ns, h⟩ | ⟨ns, h⟩)
        · exact ⟨f, ns, hb, h⟩
        · exact ⟨g, ns, hb', h⟩
      · rintro ⟨f', ns, h, h'⟩
        have := (h5 f').2 h
        simp at this
        rcases this with rfl | rfl
        · exact Or.inl ⟨ns, h'⟩
        · exact Or.inr ⟨ns, h'⟩

theorem gridLine_eq (hf : Facts m s) {w x : Nat} (hw : w ≠ missing) : ∀ l : List Nat,
    (∀ e ∈ l, touches (edgeAt m e) x ∧ ∃ g, Borders s g e) →
    ∃ b, gridLine m.edges s w x l = .ok b ∧ (b = true ↔ ∃ e ∈ l, joins (edgeAt m e) w x ∧ ∃ f ns, Borders s f e ∧ Quad s f ns)
  | [], _ => ⟨false, rfl, by simp⟩
  | e :: l, h => by
    obtain ⟨b, q1, q2⟩ := gridLine_eq hf hw l (fun e' he' => h e' (List.mem_cons_of_mem _ he'))
    obtain ⟨ht, hb⟩ := h e (by simp)
    obtain ⟨b', r1, r2⟩ := hf.quadBeside_eq hb
    obtain ⟨g, hg⟩ := hb
    have he := hf.edge_lt hg
    have hg' : m.edges[e]? = some (edgeAt m e) := by simp [edgeAt, he]
    have hj : otherNode (edgeAt m e) x = w ↔ joins (edgeAt m e) w x :=
      ⟨fun h => joins_comm.1 (h ▸ edge_joins ht), fun h => joins_otherNode (joins_comm.1 h)⟩
    unfold gridLine
    rw [if_pos he, vget_eq_ok.2 hg', Res.ok_bind, r1, Res.ok_bind, q1]
    by_cases hc : b' = true ∧ otherNode (edgeAt m e) x = w
    · rw [if_pos hc]
      refine ⟨true, rfl, by simp only [true_iff]; exact ⟨e, by simp, hj.1 hc.2, r2.1 hc.1⟩⟩
    · rw [if_neg hc]
      refine ⟨b, rfl, q2.trans ?_⟩
      constructor
      · rintro ⟨e', h1, h2⟩; exact ⟨e', List.mem_cons_of_mem _ h1, h2⟩
      · rintro ⟨e', h1, h2, h3⟩
        rcases List.mem_cons.1 h1 with rfl | h1
        · exact absurd ⟨r2.2 h3, hj.2 h2⟩ hc
        · exact ⟨e', h1, h2, h3⟩

theorem Facts.listAt_get (hf : Facts m s) {x : Nat} (hx : x < m.nodes.length) : vget m.nodesEdges x = .ok (listAt m x) := vget_listAt hf.wf hx

/-- `CheckGridLine` finds out whether two nodes are joined by a side of a quadrilateral. -/
theorem checkGridLine_eq (hf : Facts m s) {f0 : Nat} (hb : Bordered m s f0) {f w x : Nat} {ns : List Nat} (hq : Quad s f ns) (hx : x ∈ ns) (hcn : Connected s f0 f) (hw : w ≠ missing) :
    ∃ b, gridLine m.edges s w x (listAt m x) = .ok b ∧ (b = true ↔ Linked m s w x) := by
  obtain ⟨b, h1, h2⟩ := gridLine_eq hf hw (listAt m x) (fun e he => ⟨hf.listed x e he, hb x e ⟨f, ns, hcn, hq, hx⟩ (hf.listed x e he)⟩)
  refine ⟨b, h1, h2.trans ?_⟩
  constructor
  · rintro ⟨e, _, h3, f', ns', h4, h5⟩; exact ⟨e, f', ns', h3, h4, h5⟩
  · rintro ⟨e, f', ns', h3, h4, h5⟩
    have ht := (joins_touches h3).2
    exact ⟨e, hf.wf.complete e x (edgeAt_ne ht (hf.node_ne hq hx)) ht, h3, f', ns', h4, h5⟩

end Verif.ToCurvi
