import Verif.Flip.Spec
import Mathlib.Tactic.Ring
import Mathlib.Tactic.Linarith
/-!
# Lemmas: triangles of a mesh and their edges
-/
namespace Verif.Flip
open Verif.Mesh Verif.Faces
open Verif.Polygons (Pt)

theorem Joins.symm {p : Edge} {a b : Nat} (h : Joins p a b) : Joins p b a := Or.symm h

theorem Joins.touches_iff {p : Edge} {a b n : Nat} (h : Joins p a b) : (p.1 = n ∨ p.2 = n) ↔ (a = n ∨ b = n) := by
  rcases h with rfl | rfl
  · exact Iff.rfl
  · exact or_comm

/-- The triangle beside an edge from `a` to `b`: the third corner `l`, and the sides `x` from `a` and `y` from `b`. -/
structure Triangle (edges : List Edge) (ns es : List Nat) (e a b l x y : Nat) : Prop where
  nodes : ns.Perm [a, b, l]
  sides : es.Perm [e, x, y]
  distinct : a ≠ b ∧ a ≠ l ∧ b ≠ l
  apart : e ≠ x ∧ e ≠ y ∧ x ≠ y
  first : ∃ p, edges[x]? = some p ∧ Joins p a l
  second : ∃ p, edges[y]? = some p ∧ Joins p b l

theorem list_three {l : List Nat} (h : l.length = 3) : ∃ a b c, l = [a, b, c] := by
  match l, h with
  | [a, b, c], _ => exact ⟨a, b, c, rfl⟩

theorem triangle_of {edges : List Edge} {ns es : List Nat} (hp : Proper edges ns es) (h3 : ns.length = 3) {e a b : Nat} (he : e ∈ es)
    (hab : edges[e]? = some (a, b)) : ∃ l x y, Triangle edges ns es e a b l x y := by
  obtain ⟨n0, n1, n2, rfl⟩ := list_three h3
  obtain ⟨e0, e1, e2, rfl⟩ := list_three (by rw [hp.len]; exact h3)
  have hn := hp.nodesDistinct
  have hes := hp.edgesDistinct
  simp only [List.nodup_cons, List.mem_cons, List.not_mem_nil, or_false, not_or, not_false_eq_true, List.nodup_nil, and_true] at hn hes
  obtain ⟨⟨d01, d02⟩, d12⟩ := hn
  obtain ⟨⟨f01, f02⟩, f12⟩ := hes
  have side : ∀ i, i < 3 → Side edges [n0, n1, n2] [e0, e1, e2] i := hp.sides
  obtain ⟨u0, v0, w0, p0, a1, a2, a3, a4, a5⟩ := side 0 (by omega)
  obtain ⟨u1, v1, w1, p1, b1, b2, b3, b4, b5⟩ := side 1 (by omega)
  obtain ⟨u2, v2, w2, p2, c1, c2, c3, c4, c5⟩ := side 2 (by omega)
  simp at a1 a2 a3 b1 b2 b3 c1 c2 c3
  subst a1 a2 a3 b1 b2 b3 c1 c2 c3
  simp only [List.mem_cons, List.not_mem_nil, or_false] at he
  have perm1 : ∀ x y z : Nat, List.Perm [x, y, z] [y, z, x] := fun x y z => (List.perm_append_comm (l₁ := [x]) (l₂ := [y, z]))
  have perm2 : ∀ x y z : Nat, List.Perm [x, y, z] [z, x, y] := fun x y z => (List.perm_append_comm (l₁ := [x, y]) (l₂ := [z]))
  have sw : ∀ x y z : Nat, List.Perm [x, y, z] [y, x, z] := fun x y z => List.Perm.swap _ _ _
  have sw2 : ∀ x y z : Nat, List.Perm [x, y, z] [x, z, y] := fun x y z => List.Perm.cons _ (List.Perm.swap _ _ _)
  rcases he with rfl | rfl | rfl
  · rw [hab] at a4
    obtain rfl := Option.some.inj a4
    rcases a5 with h | h
    · obtain ⟨rfl, rfl⟩ := Prod.mk.inj h
      exact ⟨n2, e2, e1, .refl _, sw2 _ _ _, ⟨d01, d02, d12⟩, ⟨f02, f01, Ne.symm f12⟩, ⟨p2, c4, c5.symm⟩, ⟨p1, b4, b5⟩⟩
    · obtain ⟨rfl, rfl⟩ := Prod.mk.inj h
      exact ⟨n2, e1, e2, sw _ _ _, .refl _, ⟨Ne.symm d01, d12, d02⟩, ⟨f01, f02, f12⟩, ⟨p1, b4, b5⟩, ⟨p2, c4, c5.symm⟩⟩
  · rw [hab] at b4
    obtain rfl := Option.some.inj b4
    rcases b5 with h | h
    · obtain ⟨rfl, rfl⟩ := Prod.mk.inj h
      exact ⟨n0, e0, e2, perm1 _ _ _, sw _ _ _, ⟨d12, Ne.symm d01, Ne.symm d02⟩, ⟨Ne.symm f01, f12, f02⟩, ⟨p0, a4, a5.symm⟩,
        ⟨p2, c4, c5⟩⟩
    · obtain ⟨rfl, rfl⟩ := Prod.mk.inj h
      exact ⟨n0, e2, e0, (perm1 _ _ _).trans (sw _ _ _), perm1 _ _ _, ⟨Ne.symm d12, Ne.symm d02, Ne.symm d01⟩,
        ⟨f12, Ne.symm f01, Ne.symm f02⟩, ⟨p2, c4, c5⟩, ⟨p0, a4, a5.symm⟩⟩
  · rw [hab] at c4
    obtain rfl := Option.some.inj c4
    rcases c5 with h | h
    · obtain ⟨rfl, rfl⟩ := Prod.mk.inj h
      exact ⟨n1, e1, e0, (perm2 _ _ _), (perm2 _ _ _).trans (sw2 _ _ _), ⟨Ne.symm d02, Ne.symm d12, d01⟩,
        ⟨Ne.symm f12, Ne.symm f02, Ne.symm f01⟩, ⟨p1, b4, b5.symm⟩, ⟨p0, a4, a5⟩⟩
    · obtain ⟨rfl, rfl⟩ := Prod.mk.inj h
      exact ⟨n1, e0, e1, sw2 _ _ _, perm2 _ _ _, ⟨d02, d01, Ne.symm d12⟩, ⟨Ne.symm f02, Ne.symm f12, f01⟩, ⟨p0, a4, a5⟩,
        ⟨p1, b4, b5.symm⟩⟩

/-- The sum of the corners less two of them is the third. -/
theorem apex_eq {ns : List Nat} {a b l : Nat} (h : ns.Perm [a, b, l]) (hl : l < 2 ^ 32) : apex ns a b = .ok l := by
  obtain ⟨x, y, z, rfl⟩ := list_three (by rw [h.length_eq]; rfl)
  have hs : x + y + z = a + b + l := by
    have := h.sum_eq
    simp at this
    omega
  show Res.ok ((x + y + z + 2 * 2 ^ 32 - a - b) % 2 ^ 32) = .ok l
  rw [hs]
  congr 1
  omega

theorem others_perm {edges : List Edge} {e a b x y : Nat} {p q : Edge} (hx : edges[x]? = some p) (hy : edges[y]? = some q)
    (hpa : p.1 = a ∨ p.2 = a) (hpb : ¬ (p.1 = b ∨ p.2 = b)) (hqa : ¬ (q.1 = a ∨ q.2 = a)) (hqb : q.1 = b ∨ q.2 = b)
    (hex : e ≠ x) (hey : e ≠ y) {es : List Nat} (h : es.Perm [e, x, y]) : others edges e a b es (missing, missing) = .ok (x, y) := by
  have key : ∀ l r, others edges e a b (x :: l) r = others edges e a b l (x, r.2) := by
    intro l r
    rw [others, if_neg (Ne.symm hex), hx]
    simp only []
    rw [if_pos hpa, if_neg hpb]
  have key2 : ∀ l r, others edges e a b (y :: l) r = others edges e a b l (r.1, y) := by
    intro l r
    rw [others, if_neg (Ne.symm hey), hy]
    simp only []
    rw [if_neg hqa, if_pos hqb]
  have key3 : ∀ l r, others edges e a b (e :: l) r = others edges e a b l r := by
    intro l r
    rw [others, if_pos rfl]
  obtain ⟨u, v, w, rfl⟩ := list_three (by rw [h.length_eq]; rfl)
  have hne : x ≠ y := by rintro rfl; rw [hx] at hy; obtain rfl := Option.some.inj hy; exact hqa hpa
  have hnd : [u, v, w].Nodup := h.nodup_iff.2 (by simp [hex, hey, hne])
  have m1 := h.mem_iff (a := u)
  have m2 := h.mem_iff (a := v)
  have m3 := h.mem_iff (a := w)
  simp only [List.mem_cons, List.not_mem_nil, or_false, true_or, or_true, true_iff] at m1 m2 m3
  simp only [List.nodup_cons, List.mem_cons, List.not_mem_nil, or_false, not_or, not_false_eq_true, List.nodup_nil, and_true] at hnd
  obtain ⟨⟨d1, d2⟩, d3⟩ := hnd
  rcases m1 with rfl | rfl | rfl <;> rcases m2 with rfl | rfl | rfl <;> first | exact absurd rfl d1 | skip
  all_goals rcases m3 with rfl | rfl | rfl <;> first | exact absurd rfl d2 | exact absurd rfl d3 | skip
  all_goals (simp only [key, key2, key3]; rfl)

end Verif.Flip
