import Verif.SmallFlow.TriangleLemmas
/-!
# Lemmas: the list of the small triangles
-/
namespace Verif.SmallFlow
open Verif.Mesh Verif.Faces Verif.Quality
open Verif.Polygons (Pt)

/-- Face `f` is a small triangle with the given corners. -/
def AtFace (m : Mesh Pt) (s : State) (fraction : ℚ) (f p a c : Nat) : Prop :=
  ∃ (x y z : Nat), s.facesNodes[f]? = some [x, y, z] ∧ Small m s fraction f ∧ squarest m x y z = (p, a, c) ∧
    ∃ e, Borders s f e ∧ joins (edgeAt m e) a c ∧ BoundaryEdge s e

theorem joins_unique {p : Edge} {a b c d : Nat} (h1 : joins p a b) (h2 : joins p c d) : (a = c ∧ b = d) ∨ (a = d ∧ b = c) := by
  rcases h1 with rfl | rfl <;> rcases h2 with h | h <;> simp only [Prod.mk.injEq] at h <;> omega

/-- The sides of a triangle. -/
theorem three_sides {m : Mesh Pt} {x y z : Nat} {es : List Nat} (h : Proper m.edges [x, y, z] es) :
    ∃ u v w, es = [u, v, w] ∧ joins (edgeAt m u) x y ∧ joins (edgeAt m v) y z ∧ joins (edgeAt m w) z x ∧ x ≠ y ∧ y ≠ z ∧ x ≠ z := by
  have hl := h.len
  match es, hl, h with
  | [u, v, w], _, h =>
    have side : ∀ i a b e, [x, y, z][i]? = some a → [x, y, z][(i + 1) % 3]? = some b → [u, v, w][i]? = some e → joins (edgeAt m e) a b := by
      intro i a b e h1 h2 h3
      have hi : i < 3 := by
        by_contra hc
        rw [List.getElem?_eq_none (by simpa using hc)] at h1
        cases h1
      obtain ⟨a', b', e', p, g1, g2, g3, g4, g5⟩ := h.sides i hi
      rw [h1] at g1
      have g2' : [x, y, z][(i + 1) % 3]? = some b' := g2
      rw [h2] at g2'
      rw [h3] at g3
      obtain rfl := Option.some.inj g1
      obtain rfl := Option.some.inj g2'
      obtain rfl := Option.some.inj g3
      have : edgeAt m e = p := by unfold edgeAt; rw [g4]; rfl
      rw [this]
      exact g5
    have hd := h.nodesDistinct
    simp only [List.nodup_cons, List.mem_cons, List.not_mem_nil, or_false, not_or, List.nodup_nil, and_true, not_false_iff] at hd
    exact ⟨u, v, w, rfl, side 0 x y u rfl rfl rfl, side 1 y z v rfl rfl rfl, side 2 z x w rfl rfl rfl, hd.1.1, hd.2, hd.1.2⟩

theorem triangleStep_ok {m : Mesh Pt} {s : State} (r : Ready m s) (hfit : m.edges.length ≤ missing) (fraction : ℚ) {f : Nat}
    (hf : f < s.facesNodes.length) : ∃ o : Option (Nat × Nat × Nat), (∀ l, triangleStep m.nodes s (areaList m s) fraction f l = .ok (l ++ o.toList)) ∧
      ∀ p a c, o = some (p, a, c) ↔ AtFace m s fraction f p a c := by
  have hns : s.facesNodes[f]? = some s.facesNodes[f] := List.getElem?_eq_getElem hf
  generalize s.facesNodes[f] = ns at hns
  obtain ⟨es, hes, hp, he⟩ := face_edges r hns
  obtain ⟨b, h1, h2⟩ := isSmall_ok r fraction hns hes
  have e0 : ∀ l, triangleStep m.nodes s (areaList m s) fraction f l = (if b = true then (do
      let c ← chooseCorner m.nodes ns es
      if c.third = missing then .ok l
      else do
        let b ← onBoundary s c.third
        .ok (if b then l ++ [(c.preserve, c.first, c.second)] else l)) else .ok l) := by
    intro l
    unfold triangleStep
    rw [vget_eq_ok.2 hns, Res.ok_bind, vget_eq_ok.2 hes, Res.ok_bind, h1, Res.ok_bind]
  cases b with
  | false =>
    refine ⟨none, fun l => by rw [e0]; simp, fun p a c => ⟨fun h => (by cases h), ?_⟩⟩
    rintro ⟨x, y, z, q1, q2, _⟩
    rw [hns] at q1
    obtain rfl := Option.some.inj q1
    exact absurd (h2.2 ⟨rfl, q2⟩) Bool.false_ne_true
  | true =>
    obtain ⟨hl, hsmall⟩ := h2.1 rfl
    match ns, hl, hns, hp, e0 with
    | [x, y, z], _, hns, hp, e0 =>
      obtain ⟨u, v, w, rfl, j1, j2, j3, d1, d2, d3⟩ := three_sides hp
      obtain ⟨best, k, c1, c2⟩ := chooseCorner_ok (u := u) (v := v) (w := w) r hns
      have hk : k ∈ [u, v, w] := by rcases c2 with ⟨_, rfl⟩ | ⟨_, rfl⟩ | ⟨_, rfl⟩ <;> simp
      obtain ⟨b, b1, b2⟩ := onBoundary_ok r (he k hk).1
      have hkm : k ≠ missing := by have := (he k hk).1; omega
      have e1 : ∀ l, triangleStep m.nodes s (areaList m s) fraction f l =
          .ok (if b then l ++ [squarest m x y z] else l) := by
        intro l
        rw [e0, if_pos rfl, c1, Res.ok_bind]
        simp only []
        rw [if_neg hkm, b1, Res.ok_bind]
      have hopp : ∀ p a c, squarest m x y z = (p, a, c) → (BoundaryEdge s k ↔ ∃ e, Borders s f e ∧ joins (edgeAt m e) a c ∧ BoundaryEdge s e) := by
        intro p a c hq
        have hbk : Borders s f k := (he k hk).2
        have key : joins (edgeAt m k) a c ∧ ∀ e ∈ [u, v, w], joins (edgeAt m e) a c → e = k := by
          rcases c2 with ⟨q, rfl⟩ | ⟨q, rfl⟩ | ⟨q, rfl⟩
          · rw [hq] at q
            simp only [Prod.mk.injEq] at q
            obtain ⟨rfl, rfl, rfl⟩ := q
            refine ⟨joins_comm.1 j2, ?_⟩
            intro e hm hj
            simp only [List.mem_cons, List.not_mem_nil, or_false] at hm
            rcases hm with rfl | rfl | rfl
            · have := joins_unique hj j1; omega
            · rfl
            · have := joins_unique hj j3; omega
          · rw [hq] at q
            simp only [Prod.mk.injEq] at q
            obtain ⟨rfl, rfl, rfl⟩ := q
            refine ⟨joins_comm.1 j3, ?_⟩
            intro e hm hj
            simp only [List.mem_cons, List.not_mem_nil, or_false] at hm
            rcases hm with rfl | rfl | rfl
            · have := joins_unique hj j1; omega
            · have := joins_unique hj j2; omega
            · rfl
          · rw [hq] at q
            simp only [Prod.mk.injEq] at q
            obtain ⟨rfl, rfl, rfl⟩ := q
            refine ⟨joins_comm.1 j1, ?_⟩
            intro e hm hj
            simp only [List.mem_cons, List.not_mem_nil, or_false] at hm
            rcases hm with rfl | rfl | rfl
            · rfl
            · have := joins_unique hj j2; omega
            · have := joins_unique hj j3; omega
        constructor
        · intro h; exact ⟨k, hbk, key.1, h⟩
        · rintro ⟨e, ⟨es', q1, q2⟩, q3, q4⟩
          rw [hes] at q1
          obtain rfl := Option.some.inj q1
          rw [← key.2 e q2 q3]
          exact q4
      cases b with
      | true =>
        refine ⟨some (squarest m x y z), fun l => by rw [e1]; simp, ?_⟩
        intro p a c
        constructor
        · intro h
          have h := Option.some.inj h
          exact ⟨x, y, z, hns, hsmall, h, (hopp p a c h).1 (b2.1 rfl)⟩
        · rintro ⟨x', y', z', q1, _, q2, _⟩
          rw [hns] at q1
          obtain ⟨rfl, rfl, rfl⟩ : x = x' ∧ y = y' ∧ z = z' := by simpa using q1
          rw [q2]
      | false =>
        refine ⟨none, fun l => by rw [e1]; simp, fun p a c => ⟨fun h => (by cases h), ?_⟩⟩
        rintro ⟨x', y', z', q1, _, q2, q3⟩
        rw [hns] at q1
        obtain ⟨rfl, rfl, rfl⟩ : x = x' ∧ y = y' ∧ z = z' := by simpa using q1
        exact absurd (b2.2 ((hopp p a c q2).2 q3)) Bool.false_ne_true

/-- The list has exactly the small triangles. -/
theorem smallTriangles_ok {m : Mesh Pt} {s : State} (r : Ready m s) (hfit : m.edges.length ≤ missing) (fraction : ℚ) :
    ∃ ts, smallTriangles m s fraction = .ok ts ∧ ∀ p a c, (p, a, c) ∈ ts ↔ SmallTriangle m s fraction p a c := by
  classical
  have hstep := fun f (hf : f < s.facesNodes.length) => triangleStep_ok r hfit fraction hf
  let sel : Nat → Option (Nat × Nat × Nat) := fun f => if hf : f < s.facesNodes.length then (hstep f hf).choose else none
  have hsel : ∀ f (hf : f < s.facesNodes.length), sel f = (hstep f hf).choose := fun f hf => dif_pos hf
  have hc := collect (step := triangleStep m.nodes s (areaList m s) fraction) (sel := sel) (n := s.facesNodes.length)
    (fun i l hi => by rw [hsel i hi]; exact (hstep i hi).choose_spec.1 l)
  refine ⟨_, hc, ?_⟩
  intro p a c
  rw [List.mem_filterMap]
  constructor
  · rintro ⟨f, hf, h⟩
    have hf := List.mem_range.1 hf
    rw [hsel f hf] at h
    obtain ⟨x, y, z, q⟩ := ((hstep f hf).choose_spec.2 p a c).1 h
    exact ⟨f, x, y, z, q⟩
  · rintro ⟨f, x, y, z, q1, q2⟩
    have hf : f < s.facesNodes.length := (List.getElem?_eq_some_iff.1 q1).1
    refine ⟨f, List.mem_range.2 hf, ?_⟩
    rw [hsel f hf]
    exact ((hstep f hf).choose_spec.2 p a c).2 ⟨x, y, z, q1, q2⟩

end Verif.SmallFlow
