import Verif.Transform.Lemmas
import Mathlib.Tactic.NormNum
import Mathlib.Tactic.Linarith
/-!
# C54: translation and rotation of a mesh
-/
namespace Verif.Transform
open Verif.Mesh

/-- The square of the distance of two points. -/
def distSq (p q : Pt) : ℝ := (p.x - q.x) ^ 2 + (p.y - q.y) ^ 2

/-- Twice the signed area of a triangle: positive when its corners go around counterclockwise. -/
def area2 (p q r : Pt) : ℝ := (q.x - p.x) * (r.y - p.y) - (q.y - p.y) * (r.x - p.x)

/-- A rigid motion: distances and the sense of rotation are kept. -/
structure IsRigid (f : Pt → Pt) : Prop where
  dist : ∀ p q, distSq (f p) (f q) = distSq p q
  sense : ∀ p q r, area2 (f p) (f q) (f r) = area2 p q r

/-- **C54** Rotation about any point by any angle is a rigid motion. -/
theorem rotation_rigid (c : Pt) (a : ℝ) : IsRigid (rotationAbout c a).apply := by
  constructor
  · intro p q
    rw [rotationAbout_apply, rotationAbout_apply]
    have := rotate_dist a ⟨p.x - c.x, p.y - c.y⟩ ⟨q.x - c.x, q.y - c.y⟩
    simp only [distSq, Pt.add] at this ⊢
    linear_combination this
  · intro p q r
    rw [rotationAbout_apply, rotationAbout_apply, rotationAbout_apply]
    have := rotate_cross a ⟨p.x - c.x, p.y - c.y⟩ ⟨q.x - c.x, q.y - c.y⟩ ⟨r.x - c.x, r.y - c.y⟩
    simp only [area2, Pt.add] at this ⊢
    linear_combination this

/-- **C54** Translation is a rigid motion. -/
theorem translation_rigid (v : Pt) : IsRigid (fun p => p.add v) := by
  constructor
  · intro p q; simp only [distSq, Pt.add]; ring
  · intro p q r; simp only [area2, Pt.add]; ring

/-- **C54** The centre of a rotation stays; a quarter turn takes a point to the right of the centre above it. -/
theorem rotation_centre (c : Pt) (a d : ℝ) : (rotationAbout c a).apply c = c ∧ (rotationAbout c 90).apply ⟨c.x + d, c.y⟩ = ⟨c.x, c.y + d⟩ := by
  constructor
  · rw [rotationAbout_apply]
    ext <;> simp [rotate, Pt.add]
  · rw [rotationAbout_apply]
    have h : (90 : ℝ) * degToRad = Real.pi / 2 := by unfold degToRad; ring
    ext
    · simp [rotate, Pt.add, h]
    · simp [rotate, Pt.add, h]; ring

/-- **C54** Two rotations about the same point add up; the full turn and the opposite rotation bring every point back. -/
theorem rotations_add (c : Pt) (a b : ℝ) (p : Pt) :
    (rotationAbout c b).apply ((rotationAbout c a).apply p) = (rotationAbout c (a + b)).apply p ∧
    (rotationAbout c 360).apply p = p ∧ (rotationAbout c (-a)).apply ((rotationAbout c a).apply p) = p := by
  have key : ∀ a b, (rotationAbout c b).apply ((rotationAbout c a).apply p) = (rotationAbout c (a + b)).apply p := by
    intro a b
    simp only [rotationAbout_apply]
    have h : (a + b) * degToRad = a * degToRad + b * degToRad := by ring
    ext
    · simp only [rotate, Pt.add, h, Real.cos_add, Real.sin_add]; ring
    · simp only [rotate, Pt.add, h, Real.cos_add, Real.sin_add]; ring
  refine ⟨key a b, ?_, ?_⟩
  · rw [rotationAbout_apply]
    have h : (360 : ℝ) * degToRad = 2 * Real.pi := by unfold degToRad; ring
    ext <;> simp [rotate, Pt.add, h]
  · rw [key, rotationAbout_apply]
    ext <;> simp [rotate, Pt.add]

/-- Translations add up, and the opposite one brings every point back. -/
theorem translations_add (p v w : Pt) : (p.add v).add w = p.add (v.add w) ∧ (p.add v).add ⟨-v.x, -v.y⟩ = p := by
  constructor
  · ext <;> simp only [Pt.add] <;> ring
  · ext <;> simp only [Pt.add] <;> ring

/-- **C54** For every Cartesian mesh and every motion that takes no node to the missing value: each node of an edge is moved, under its number, nodes
without edges are deleted, and the edges between valid nodes are kept. -/
theorem transform_exact {gone : Pt → Bool} {order : Nat → List Nat → List Nat} {f : Pt → Pt} {m : Mesh Pt} (hn : m.nodes.length ≤ missing)
    (hb : inBounds m = true) (hno : ∀ p, some p ∈ m.nodes → gone (f p) = false) :
    ∃ as m', transform true gone order f m = .ok (as, m') ∧
      (∀ n p, Used m n → m.nodes[n]? = some (some p) → m'.nodes[n]? = some (some (f p))) ∧
      (∀ n, ¬ Used m n → m'.nodes[n]?.join = none) ∧
      ∀ e, edgeAt m' e = if (seg m.nodes (edgeAt m e)).isSome then edgeAt m e else noEdge := by
  obtain ⟨m', h1, h2, h3, h4, h5⟩ := transform_run (order := order) hn hb hno
  refine ⟨_, m', h1, fun n p hu hp => ?_, fun n hu => (h4 n).2 hu, h5⟩
  have := (h4 n).1 hu
  rw [hp] at this
  cases hx : m'.nodes[n]? with
  | none => rw [hx] at this; cases this
  | some v =>
    rw [hx] at this
    simp only [Option.join_some, Option.map_some] at this
    rw [this]

/-- **C54** Undo brings back every node, also those without edges; redo brings back the moved ones. Edges are touched by neither. -/
theorem transform_undone {gone : Pt → Bool} {order : Nat → List Nat → List Nat} {f : Pt → Pt} {m : Mesh Pt} (hn : m.nodes.length ≤ missing)
    (hb : inBounds m = true) (hno : ∀ p, some p ∈ m.nodes → gone (f p) = false) :
    ∃ a m', transform true gone order f m = .ok ([a], m') ∧ ∃ b m1, restoreC a m' = .ok (b, m1) ∧ m1.nodes = m.nodes ∧
      (∀ e, (seg m.nodes (edgeAt m e)).isSome → edgeAt m1 e = edgeAt m e) ∧
      ∃ c m2, commitC b m1 = .ok (c, m2) ∧ m2.nodes = m'.nodes ∧ m2.edges = m'.edges := by
  obtain ⟨m', h1, h2, h3, h4, h5⟩ := transform_run (order := order) hn hb hno
  refine ⟨_, m', h1, .translate (numbered m'.nodes), { m' with nodes := m.nodes }, ?_, rfl, ?_,
    .translate (numbered m.nodes), { m' with nodes := m'.nodes }, ?_, rfl, rfl⟩
  · have hl : (numbered m.nodes).length = m.nodes.length := by simp [numbered]
    simp only [restoreC, translateC, hl]
    rw [if_neg (by omega), swap_all h2]
    rfl
  · intro e he
    have := h5 e
    rw [if_pos he] at this
    exact this
  · have hl : (numbered m'.nodes).length = m'.nodes.length := by simp [numbered]
    simp only [commitC, translateC, hl]
    rw [if_neg (by omega), swap_all h2.symm]
    rfl

/-- **C54** A mesh in spherical coordinates is refused. -/
theorem transform_refused (gone : Pt → Bool) (order : Nat → List Nat → List Nat) (f : Pt → Pt) (m : Mesh Pt) :
    transform false gone order f m = .throw := rfl

/-- **C54, violation** A node that is taken to a missing value is lost with its edges, and undo does not bring the edges back. -/
theorem node_at_missing_value_lost {gone : Pt → Bool} {order : Nat → List Nat → List Nat} {f : Pt → Pt} {m : Mesh Pt}
    (hn : m.nodes.length ≤ missing) (hb : inBounds m = true) {n : Nat} {p : Pt} (hp : m.nodes[n]? = some (some p)) (hg : gone (f p) = true) :
    ∃ a m', transform true gone order f m = .ok ([a], m') ∧ (∀ e, (edgeAt m e).1 = n ∨ (edgeAt m e).2 = n → edgeAt m' e = noEdge) ∧
      ∃ b m1, restoreC a m' = .ok (b, m1) ∧ m1.nodes = m.nodes ∧ ∀ e, (edgeAt m e).1 = n ∨ (edgeAt m e).2 = n → edgeAt m1 e = noEdge := by
  obtain ⟨m', h1, h2, h3⟩ := transform_edges (gone := gone) (order := order) (f := f) hn hb
  have hlost : ∀ e, (edgeAt m e).1 = n ∨ (edgeAt m e).2 = n → edgeAt m' e = noEdge := by
    intro e he
    apply h3
    have hz : (m.nodes.map (fun v => v.bind (fun p => if gone (f p) then none else some (f p))))[n]? = some none := by
      rw [List.getElem?_map, hp]
      simp [hg]
    unfold seg
    rcases he with rfl | rfl
    · rw [hz]; simp
    · rw [hz]
      split
      · rename_i h
        simp at h
      · rfl
  refine ⟨_, m', h1, hlost, .translate (numbered m'.nodes), { m' with nodes := m.nodes }, ?_, rfl, hlost⟩
  have hl : (numbered m.nodes).length = m.nodes.length := by simp [numbered]
  simp only [restoreC, translateC, hl]
  rw [if_neg (by omega), swap_all h2]
  rfl

/-! ## Examples -/

/-- A triangle and a node on its own. -/
def triangle : Mesh Pt := ⟨[some ⟨0, 0⟩, some ⟨4, 0⟩, some ⟨0, 3⟩, some ⟨9, 9⟩], [(0, 1), (1, 2), (2, 0)], [], []⟩

/-- `IsValid` fails, `Point.hpp:116-122`, in exact arithmetic. -/
noncomputable def isGone (p : Pt) : Bool := open Classical in decide (p.x = -999 ∨ p.y = -999)

theorem triangle_stays (p : Pt) (h : some p ∈ triangle.nodes) : isGone (p.add ⟨1, 1⟩) = false := by
  simp only [triangle, List.mem_cons, Option.some.injEq, List.not_mem_nil, or_false] at h
  simp only [isGone, decide_eq_false_iff_not, Pt.add]
  rcases h with rfl | rfl | rfl | rfl <;> norm_num

example : ∃ as m', transform true isGone (fun _ l => l) (fun p => p.add ⟨1, 1⟩) triangle = .ok (as, m') ∧
    m'.nodes[1]? = some (some ⟨5, 1⟩) ∧ edgeAt m' 0 = (0, 1) := by
  obtain ⟨as, m', h, h1, _, h3⟩ := transform_exact (gone := isGone) (order := fun _ l => l) (f := fun p => p.add ⟨1, 1⟩) (m := triangle)
    (by decide) (by decide) triangle_stays
  refine ⟨as, m', h, ?_, ?_⟩
  · rw [h1 1 ⟨4, 0⟩ ⟨(0, 1), by simp [triangle], rfl, Or.inr rfl⟩ rfl]
    simp only [Pt.add]
    norm_num
  · rw [h3 0]
    rfl

example : ∃ a m', transform true isGone (fun _ l => l) (fun p => p.add ⟨1, 1⟩) triangle = .ok ([a], m') ∧
    ∃ b m1, restoreC a m' = .ok (b, m1) ∧ m1.nodes = triangle.nodes := by
  obtain ⟨a, m', h, b, m1, h1, h2, _⟩ := transform_undone (gone := isGone) (order := fun _ l => l) (f := fun p => p.add ⟨1, 1⟩) (m := triangle)
    (by decide) (by decide) triangle_stays
  exact ⟨a, m', h, b, m1, h1, h2⟩

/-- Translation of the triangle by 999 to the left. -/
example : ∃ a m', transform true isGone (fun _ l => l) (fun p => p.add ⟨-999, 0⟩) triangle = .ok ([a], m') ∧
    ∃ b m1, restoreC a m' = .ok (b, m1) ∧ edgeAt triangle 0 = (0, 1) ∧ edgeAt m1 0 = noEdge := by
  obtain ⟨a, m', h, _, b, m1, h1, _, h2⟩ := node_at_missing_value_lost (gone := isGone) (order := fun _ l => l) (f := fun p => p.add ⟨-999, 0⟩)
    (m := triangle) (by decide) (by decide) (n := 0) (p := ⟨0, 0⟩) rfl (by simp [isGone, Pt.add])
  exact ⟨a, m', h, b, m1, h1, rfl, h2 0 (Or.inl rfl)⟩

end Verif.Transform
