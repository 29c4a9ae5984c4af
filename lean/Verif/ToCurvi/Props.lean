import Verif.ToCurvi.ConvertLemmas
/-!
# Turning a mesh into a curvilinear grid: the theorems

Examples that meet the hypotheses are in `Verif.ToCurvi.Witness`.
-/
namespace Verif.ToCurvi
open Verif.Mesh Verif.Faces Verif.Refine Verif.Curvi
variable {P : Type}

section
variable {order : Nat → List Nat → List Nat} {cw : List (Option P) → List Nat → Bool} {nearest : State → Res Nat}
  {contains : List (Option P) → Bool} {m m1 : Mesh P} {s : State}

/-- Nothing is converted without a node, without a face, or when the face found for the point is not a quadrilateral that contains the point. -/
theorem convert_refused (hm : Manageable m) (ho : ∀ n l, (order n l).Perm l) (h : doAdministration order cw m = .ok (m1, s))
    (hF : s.facesNodes.length ≤ missing) :
    (m.nodes = [] → convert order cw nearest contains m = .throw) ∧ (s.facesNodes = [] → convert order cw nearest contains m = .throw) ∧
    ∀ f, nearest s = .ok f → f < s.facesNodes.length → ¬ Start nearest contains m1 s f → convert order cw nearest contains m = .throw := by
  have hnil : m.nodes = [] → convert order cw nearest contains m = .throw := by
    intro h0; unfold convert; rw [if_pos (by rw [h0]; rfl)]
  have hempty : s.facesNodes = [] → convert order cw nearest contains m = .throw := by
    intro hs
    unfold convert
    split
    · rfl
    · rw [h, Res.ok_bind]
      simp only []
      rw [if_pos (by rw [hs]; rfl)]
  refine ⟨hnil, hempty, fun f h1 h2 h3 => ?_⟩
  by_cases h0 : m.nodes = []
  · exact hnil h0
  · have hs : s.facesNodes ≠ [] := fun e => by rw [e] at h2; simp at h2
    rw [convert_compute h0 h hs, compute_refused (facts_of_run hm ho h0 h hs hF) h1 h2 h3]
    rfl

/-- The grid that comes out: it is laid over the mesh, from the quadrilateral that contains the point, as far as it can be, and the mesh is
gone.  The full claim has no assumption on the rows and columns and on the shape of the mesh; it fails for meshes with hanging edges
(`hanging_undefined`), where two nodes belong at one place (`node_lost`) and far from the first face (`far_node_left_out`). -/
theorem convert_laid_partial (hm : Manageable m) (ho : ∀ n l, (order n l).Perm l) (h : doAdministration order cw m = .ok (m1, s))
    (hF : s.facesNodes.length ≤ missing) (hb : ∀ f, Start nearest contains m1 s f → Bordered m1 s f ∧ NoTwin m1 s f)
    (hn : ∀ f, nearest s = .ok f → f < s.facesNodes.length) {g : Grid (Option P)} {m' : Mesh P}
    (hc : convert order cw nearest contains m = .ok (g, m')) (hr : g.rows < 1000) (hk : g.cols < 1000) :
    m' = ⟨[], [], [], []⟩ ∧ ∃ f place i0 j0, Start nearest contains m1 s f ∧ Laid m1 s f g place i0 j0 := by
  obtain ⟨r1, r2, r3⟩ := convert_refused (nearest := nearest) (contains := contains) hm ho h hF
  have h0 : m.nodes ≠ [] := fun e => by rw [r1 e] at hc; simp at hc
  have hs : s.facesNodes ≠ [] := fun e => by rw [r2 e] at hc; simp at hc
  have hf := facts_of_run hm ho h0 h hs hF
  have hc' := hc
  rw [convert_compute h0 h hs] at hc'
  obtain ⟨g', e1, e2⟩ := Res.bind_eq_ok.1 hc'
  obtain ⟨rfl, rfl⟩ := Prod.mk.inj (Res.ok.inj e2)
  have e3 := e1
  unfold compute at e3
  obtain ⟨f, e4, -⟩ := Res.bind_eq_ok.1 e3
  have hst : Start nearest contains m1 s f := by
    by_contra hst
    rw [r3 f e4 (hn f e4) hst] at hc
    simp at hc
  rw [compute_start hf hst] at e1
  obtain ⟨-, a, b, c, d, h5, -⟩ := id hst
  obtain ⟨place, i0, j0, hl⟩ := growFrom_laid hf (hb f hst).1 (hb f hst).2 ⟨h5, rfl⟩ e1 hr hk
  exact ⟨rfl, f, place, i0, j0, hst, hl⟩

/-- Meshes with less than 1000 nodes: the conversion never reads what is not there.  It succeeds when the face found for the point is a
quadrilateral that contains it, and throws otherwise. -/
theorem convert_total_partial (hm : Manageable m) (ho : ∀ n l, (order n l).Perm l) (h : doAdministration order cw m = .ok (m1, s))
    (hF : s.facesNodes.length ≤ missing) (hk : m1.nodes.length < 1000) {f : Nat} (hn : nearest s = .ok f) (hl : f < s.facesNodes.length)
    (hb : Bordered m1 s f) (ht : NoTwin m1 s f) :
    (Start nearest contains m1 s f → ∃ g place i0 j0, convert order cw nearest contains m = .ok (g, ⟨[], [], [], []⟩) ∧
      Laid m1 s f g place i0 j0) ∧
    (¬ Start nearest contains m1 s f → convert order cw nearest contains m = .throw) := by
  obtain ⟨r1, r2, r3⟩ := convert_refused (nearest := nearest) (contains := contains) hm ho h hF
  refine ⟨fun hst => ?_, fun hst => r3 f hn hl hst⟩
  have hs : s.facesNodes ≠ [] := fun e => by rw [e] at hl; simp at hl
  have h0 : m.nodes ≠ [] := nodes_of_faces hm ho h hs
  have hf := facts_of_run hm ho h0 h hs hF
  obtain ⟨-, a, b, c, d, h5, -⟩ := id hst
  obtain ⟨g, place, i0, j0, h6, h7⟩ := growFrom_few hf hb ht ⟨h5, rfl⟩ hk
  refine ⟨g, place, i0, j0, ?_, h7⟩
  rw [convert_compute h0 h hs, compute_start hf hst, h6]
  rfl

/-- Quadrilaterals that form a plain grid, perhaps with holes: the curvilinear grid has all nodes of the part connected with the first face,
each where it belongs.  The full claim has no bound on the size: it fails for wide grids (`far_node_left_out`). -/
theorem convert_lattice_partial (hm : Manageable m) (ho : ∀ n l, (order n l).Perm l) (h : doAdministration order cw m = .ok (m1, s))
    (hF : s.facesNodes.length ≤ missing) {f : Nat} (hst : Start nearest contains m1 s f) (hb : Bordered m1 s f) {spot : Nat → Int × Int}
    (hL : Lattice m1 s f spot) (hw : Narrow s f spot) :
    ∃ g place i0 j0, convert order cw nearest contains m = .ok (g, ⟨[], [], [], []⟩) ∧ Laid m1 s f g place i0 j0 ∧
      ∀ n p, place n = some p ↔ Corner s f n ∧ Seen s f spot n p := by
  obtain ⟨-, a, b, c, d, h5, -⟩ := id hst
  have hs : s.facesNodes ≠ [] := fun e => by rw [e] at h5; simp at h5
  have h0 : m.nodes ≠ [] := nodes_of_faces hm ho h hs
  have hf := facts_of_run hm ho h0 h hs hF
  obtain ⟨g, place, i0, j0, h6, h7, h8⟩ := growFrom_lattice hf hb hL hw ⟨h5, rfl⟩
  refine ⟨g, place, i0, j0, ?_, h7, h8⟩
  rw [convert_compute h0 h hs, compute_start hf hst, h6]
  rfl

end

end Verif.ToCurvi
