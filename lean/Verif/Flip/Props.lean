import Verif.Flip.EndLemmas
/-!
# Flipping edges: the properties
-/
namespace Verif.Flip
open Verif.Mesh Verif.Faces
open Verif.Polygons (Pt)

/-- Two triangles on the same side `a b`, and the two triangles after the flip: a point is in one of the former if and only if it is in one of the latter. -/
theorem flip_keeps_region {a b l r : Pt} (h : Cross.Meet a b l r) (p : Pt) :
    (InTriangle p a b l ∨ InTriangle p a b r) ↔ (InTriangle p l r a ∨ InTriangle p l r b) := by
  obtain ⟨s, t, hs0, hs1, ht0, ht1, hx, hy⟩ := h
  constructor
  · rintro (h | h)
    · exact half_region hs0 hs1 ht0 ht1 hx hy h
    · have := half_region (l := r) (r := l) (t := 1 - t) hs0 hs1 (by linarith) (by linarith) (by linarith) (by linarith) h
      exact this.imp InTriangle.swap InTriangle.swap
  · rintro (h | h)
    · exact half_region ht0 ht1 hs0 hs1 hx.symm hy.symm h
    · have := half_region (l := b) (r := a) (t := 1 - s) ht0 ht1 (by linarith) (by linarith) (by linarith) (by linarith) h
      exact this.imp InTriangle.swap InTriangle.swap

example : Cross.Meet ⟨0, 0⟩ ⟨2, 2⟩ ⟨2, 0⟩ ⟨0, 2⟩ :=
  ⟨1 / 2, 1 / 2, by norm_num, by norm_num, by norm_num, by norm_num, by norm_num, by norm_num⟩

/-- Flipping the edges of any mesh that can be administrated, without triangulation. -/
theorem flip_edges_outcome {m : Mesh Pt} (hm : Manageable m) (hn : m.nodes ≠ []) (he : m.edges ≠ []) (polygon : List Pt) :
    ∃ m1 s want, doAdministrationCartesian m = .ok (m1, s) ∧ Wants m1 s want ∧ Outcome want m1 s (apiFlip polygon false m) := by
  obtain ⟨as, m1, s, h1, h2, h3, h4, _⟩ := administrateAll_ok hm hn he
  have hp : prepare false m = .ok (as, m1, s) := by
    unfold prepare
    rw [h1]
    rfl
  obtain ⟨want, w1, w2, _⟩ := outcome_of hp h3 h4
  exact ⟨m1, s, want, h2, w1, w2⟩

/-- The triangulation adds the lines from the first corner of each face to its others. -/
theorem triangulation {m : Mesh Pt} (hm : Manageable m) (hn : m.nodes ≠ []) (he : m.edges ≠ []) :
    ∃ m1 s ts mt, doAdministrationCartesian m = .ok (m1, s) ∧ triangulateFaces s.facesNodes m1 = .ok (ts, mt) ∧ mt.nodes = m1.nodes ∧
      ∃ new, mt.edges = m1.edges ++ new ∧
        (∀ d ∈ new, ∃ ns ∈ s.facesNodes, ∃ j, 2 ≤ j ∧ j + 1 < ns.length ∧ ns[0]? = some d.1 ∧ ns[j]? = some d.2) ∧
        ∀ ns ∈ s.facesNodes, ∀ j a b, 2 ≤ j → j + 1 < ns.length → ns[0]? = some a → ns[j]? = some b → Joined mt.edges a b := by
  obtain ⟨as, m1, s, h1, h2, h3, h4, _⟩ := administrateAll_ok hm hn he
  obtain ⟨ts, new, t1, t2, t3, _⟩ := triangulateFaces_ok h3 s.facesNodes [] (faces_fit h3)
  refine ⟨m1, s, ts, { m1 with edges := m1.edges ++ new }, h2, by simpa using t1, rfl, new, rfl, ?_, by simpa using t3⟩
  intro d hd
  obtain ⟨ns, q1, _, q2⟩ := t2 d hd
  exact ⟨ns, q1, q2⟩

/-- Flipping the edges of any mesh that can be administrated, with triangulation, if the mesh can still be administrated after that. -/
theorem flip_edges_triangulated_partial {m m1 mt : Mesh Pt} {s : State} {ts : List (Act Pt)} (hm : Manageable m) (hn : m.nodes ≠ [])
    (he : m.edges ≠ []) (h0 : doAdministrationCartesian m = .ok (m1, s)) (ht : triangulateFaces s.facesNodes m1 = .ok (ts, mt))
    (hmt : Manageable mt) (polygon : List Pt) :
    ∃ m2 s2 want, doAdministrationCartesian mt = .ok (m2, s2) ∧ Wants m2 s2 want ∧ Outcome want m2 s2 (apiFlip polygon true m) := by
  obtain ⟨as, m2, s2, h1, h2, h3, h4⟩ := prepare_true hm hn he h0 ht hmt
  obtain ⟨want, w1, w2, _⟩ := outcome_of h1 h3 h4
  exact ⟨m2, s2, want, h2, w1, w2⟩

/-- When the flipping ends normally its undo action restores the mesh, and redoing it brings the result back. -/
theorem flip_edges_undo {m : Mesh Pt} (hm : Manageable m) (hn : m.nodes ≠ []) (he : m.edges ≠ []) (hc : m.numEdges.length = m.nodes.length)
    {acts : List (Act Pt)} {m' : Mesh Pt} {left : Bool} {polygon : List Pt}
    (h : apiFlip polygon false m = .ok (.done acts m' left)) :
    ∃ bs m1, Undo.restoreAll (meshSem Pt) (committed acts) (.ok m') = (bs, .ok m1) ∧ content m1 = content m ∧
      ∃ cs m2, Undo.commitAll (meshSem Pt) bs (.ok m1) = (cs, .ok m2) ∧ content m2 = content m' := by
  obtain ⟨as, m1, s, h1, h2, h3, h4, _⟩ := administrateAll_ok hm hn he
  have hp : prepare false m = .ok (as, m1, s) := by
    unfold prepare
    rw [h1]
    rfl
  obtain ⟨want, w1, w2, w3⟩ := outcome_of hp h3 h4
  exact (w3 _ _ _ h).undo_redo hc

/-- The same with triangulation. -/
theorem flip_edges_triangulated_undo_partial {m m1 mt : Mesh Pt} {s : State} {ts : List (Act Pt)} (hm : Manageable m) (hn : m.nodes ≠ [])
    (he : m.edges ≠ []) (h0 : doAdministrationCartesian m = .ok (m1, s)) (ht : triangulateFaces s.facesNodes m1 = .ok (ts, mt))
    (hmt : Manageable mt) (hc : m.numEdges.length = m.nodes.length) {acts : List (Act Pt)} {m' : Mesh Pt} {left : Bool} {polygon : List Pt}
    (h : apiFlip polygon true m = .ok (.done acts m' left)) :
    ∃ bs m1, Undo.restoreAll (meshSem Pt) (committed acts) (.ok m') = (bs, .ok m1) ∧ content m1 = content m ∧
      ∃ cs m2, Undo.commitAll (meshSem Pt) bs (.ok m1) = (cs, .ok m2) ∧ content m2 = content m' := by
  obtain ⟨as, m2, s2, h1, h2, h3, h4⟩ := prepare_true hm hn he h0 ht hmt
  obtain ⟨want, w1, w2, w3⟩ := outcome_of h1 h3 h4
  exact (w3 _ _ _ h).undo_redo hc

/-- Flips bring the numbers of edges nearer to the wanted ones, as a whole. -/
theorem flips_lower_energy {nodes : List (Option Pt)} {want : Nat → Int} {p p' : Picture} (h : Relation.ReflTransGen (Flipped nodes want) p p') :
    p' = p ∨ energy want nodes.length p'.edges < energy want nodes.length p.edges := by
  induction h with
  | refl => exact Or.inl rfl
  | tail _ h ih =>
    obtain ⟨e, a, b, l, r, f, g, nf, ng, _, _, _, _, _, _, _, hd⟩ := h
    rcases ih with rfl | ih
    · exact Or.inr hd
    · exact Or.inr (hd.trans ih)

/-- Flips keep the number of edges, and the faces that are not triangles. -/
theorem flips_keep {nodes : List (Option Pt)} {want : Nat → Int} {p p' : Picture} (h : Relation.ReflTransGen (Flipped nodes want) p p') :
    p'.edges.length = p.edges.length ∧ p'.faces.length = p.faces.length ∧
      ∀ (f : Nat) ns, ns.length ≠ 3 → (p'.faces[f]? = some ns ↔ p.faces[f]? = some ns) := by
  induction h with
  | refl => exact ⟨rfl, rfl, fun _ _ _ => Iff.rfl⟩
  | tail _ h ih =>
    refine ⟨?_, ?_, fun f ns hns => (h.others hns).trans (ih.2.2 f ns hns)⟩
    · obtain ⟨e, a, b, l, r, f, g, nf, ng, _, _, _, _, _, _, rfl, _⟩ := h
      rw [← ih.1]; exact List.length_set
    · obtain ⟨e, a, b, l, r, f, g, nf, ng, _, _, _, _, _, _, rfl, _⟩ := h
      rw [← ih.2.1]; simp

/-- If the numbers of edges are not too far from the wanted ones, the flipping ends normally; it leaves no flip that would help if all faces are
triangles. -/
theorem flip_edges_ends {want : Nat → Int} {m1 : Mesh Pt} {s : State} {r : Res Ending} (hw : Wants m1 s want) (ho : Outcome want m1 s r)
    (hs : energy want m1.nodes.length m1.edges < 10) :
    ∃ acts m' left, r = .ok (.done acts m' left) ∧
      ((∀ (f : Nat) ns, s.facesNodes[f]? = some ns → ns.length = 3) → left = false) := by
  have nonneg : ∀ es, 0 ≤ energy want m1.nodes.length es := fun es => Finset.sum_nonneg fun n _ => sq_nonneg _
  match r, ho with
  | .ub, ⟨p', n, h1, hn, h2⟩ =>
    exfalso
    have hle : energy want m1.nodes.length p'.edges < 10 := by
      rcases flips_lower_energy h1 with rfl | h
      · exact hs
      · exact h.trans hs
    have := energy_ge (want := want) (edges := p'.edges) hn
    have hwant : want n ≤ 6 := by rcases hw.1 n with h | h | h <;> omega
    have h17 : (11 : Int) ≤ (degree p'.edges n : Int) - want n := by omega
    nlinarith
  | .ok (.failed m'), ⟨_, _, h⟩ =>
    have := nonneg m'.edges
    omega
  | .ok (.done acts m' left), ⟨_, s', _, _, _, h⟩ =>
    refine ⟨acts, m', left, rfl, fun ht => ?_⟩
    cases left
    · rfl
    · obtain ⟨f, ns, g1, g2⟩ := h rfl
      exact absurd (ht f ns g1) g2

end Verif.Flip
