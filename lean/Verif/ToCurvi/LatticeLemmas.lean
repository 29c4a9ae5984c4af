import Verif.ToCurvi.LaidLemmas
import Mathlib.Tactic.LinearCombination
/-!
# Lemmas: meshes that are cells of a plain grid
-/
namespace Verif.ToCurvi
open Verif.Mesh Verif.Faces Verif.Refine Verif.Curvi
variable {P : Type} {m : Mesh P} {s : State} {f0 : Nat} {t : Front} {spot : Nat → Int × Int}

theorem common_side (hf : Facts m s) {e f g : Nat} {ns ns' : List Nat} (hn : Next s e f g ns ns') :
    ∃ a b c d x y, Around ns a b c d ∧ Around ns' a b y x ∧ joins (edgeAt m e) a b := by
  obtain ⟨a, b, c, d, h1, h2, _⟩ := tryFace_eq hf hn.left hn.leftSide
  obtain ⟨a', b', y, x, h3, h4, _⟩ := tryFace_eq hf hn.right hn.rightSide
  have : (a' = a ∧ b' = b) ∨ (a' = b ∧ b' = a) := by
    rcases h2 with g1 | g1 <;> rcases h4 with g2 | g2 <;> rw [g1] at g2 <;> simp only [Prod.mk.injEq] at g2 <;> omega
  rcases this with ⟨rfl, rfl⟩ | ⟨rfl, rfl⟩
  · exact ⟨_, _, _, _, _, _, h1, h3, h2⟩
  · exact ⟨_, _, _, _, _, _, h1, h3.flip, h2⟩

theorem Lattice.around (hL : Lattice m s f0 spot) {f a b c d : Nat} {ns : List Nat} (hc : Connected s f0 f) (hq : Quad s f ns)
    (hA : Around ns a b c d) : Cell (spot a) (spot b) (spot c) (spot d) := by
  match ns, hq.2 with
  | [n0, n1, n2, n3], _ =>
    have h1 := hL.cell f n0 n1 n2 n3 hc hq.1
    have h2 : OnCell (fun n => some (spot n)) [n0, n1, n2, n3] := ⟨n0, n1, n2, n3, _, _, _, _, rfl, rfl, rfl, rfl, rfl, h1⟩
    obtain ⟨p0, p1, p2, p3, g0, g1, g2, g3, g4⟩ := h2.around hA
    rw [← Option.some.inj g0, ← Option.some.inj g1, ← Option.some.inj g2, ← Option.some.inj g3] at g4
    exact g4

/-- The same for the spots of the lattice. -/
theorem Lattice.beyond (hf : Facts m s) (hL : Lattice m s f0 spot) {e f g a b c d x y : Nat} {ns ns' : List Nat} (hcon : Connected s f0 f)
    (hn : Next s e f g ns ns') (hA : Around ns a b c d) (hA' : Around ns' a b y x) :
    spot x = (2 * (spot a).1 - (spot d).1, 2 * (spot a).2 - (spot d).2) ∧ spot y = (2 * (spot b).1 - (spot c).1, 2 * (spot b).2 - (spot c).2) := by
  have hcg : Connected s f0 g := .step e f g ns ns' hcon hn
  have h1 := hL.around hcon hn.left hA
  have h2 := hL.around hcg hn.right hA'
  rcases h1.opposite h2 with ⟨k1, k2⟩ | hh
  · have e1 := hL.once x d ⟨g, ns', hcg, hn.right, hA'.mem.2.2.2⟩ ⟨f, ns, hcon, hn.left, hA.mem.2.2.2⟩ k1
    have e2 := hL.once y c ⟨g, ns', hcg, hn.right, hA'.mem.2.2.1⟩ ⟨f, ns, hcon, hn.left, hA.mem.2.2.1⟩ k2
    subst e1 e2
    exact absurd (same_corners hf hn hA hA') id
  · exact hh

theorem Seen.beyond {a d x : Nat} {p r : Int × Int} (ha : Seen s f0 spot a p) (hd : Seen s f0 spot d r)
    (hx : spot x = (2 * (spot a).1 - (spot d).1, 2 * (spot a).2 - (spot d).2)) : Seen s f0 spot x (2 * p.1 - r.1, 2 * p.2 - r.2) := by
  obtain ⟨a0, b0, c0, d0, h1, h2, h3⟩ := ha
  obtain ⟨a1, b1, c1, d1, g1, g2, g3⟩ := hd
  rw [h1] at g1
  simp only [Option.some.injEq, List.cons.injEq, and_true] at g1
  obtain ⟨rfl, rfl, rfl, rfl⟩ := g1
  refine ⟨a0, b0, c0, d0, h1, ?_, ?_⟩
  · rw [hx]; simp only; linear_combination 2 * h2 - g2
  · rw [hx]; simp only; linear_combination 2 * h3 - g3

/-- The way the lattice is seen from the first face. -/
theorem Lattice.frame (hL : Lattice m s f0 spot) {ns : List Nat} (hq : Quad s f0 ns) : ∃ (b : Int × Int) (u v : Int), (u = 1 ∨ u = -1) ∧ (v = 1 ∨ v = -1) ∧
    ((∀ n p, Seen s f0 spot n p ↔ spot n = (b.1 + p.1 * u, b.2 + p.2 * v)) ∨ (∀ n p, Seen s f0 spot n p ↔ spot n = (b.1 + p.2 * u, b.2 + p.1 * v))) := by
  match ns, hq.2 with
  | [n0, n1, n2, n3], _ =>
    obtain ⟨u, v, hu, hv, hh⟩ := (hL.cell f0 n0 n1 n2 n3 .start hq.1).rot
    refine ⟨spot n1, u, v, hu, hv, ?_⟩
    have hs : ∀ n p, Seen s f0 spot n p ↔
        ((spot n).1 = (spot n1).1 + p.1 * ((spot n2).1 - (spot n1).1) + p.2 * ((spot n0).1 - (spot n1).1) ∧
        (spot n).2 = (spot n1).2 + p.1 * ((spot n2).2 - (spot n1).2) + p.2 * ((spot n0).2 - (spot n1).2)) := by
      intro n p
      constructor
      · rintro ⟨a, b, c, d, h1, h2, h3⟩
        rw [hq.1] at h1
        simp only [Option.some.injEq, List.cons.injEq, and_true] at h1
        obtain ⟨rfl, rfl, rfl, rfl⟩ := h1
        exact ⟨h2, h3⟩
      · rintro ⟨h2, h3⟩
        exact ⟨_, _, _, _, hq.1, h2, h3⟩
    rcases hh with ⟨e1, _, e3⟩ | ⟨e1, _, e3⟩
    · left
      intro n p
      rw [hs, e1, e3, Prod.ext_iff]
      simp only
      constructor
      · rintro ⟨h1, h2⟩; exact ⟨by linear_combination h1, by linear_combination h2⟩
      · rintro ⟨h1, h2⟩; exact ⟨by linear_combination h1, by linear_combination h2⟩
    · right
      intro n p
      rw [hs, e1, e3, Prod.ext_iff]
      simp only
      constructor
      · rintro ⟨h1, h2⟩; exact ⟨by linear_combination h1, by linear_combination h2⟩
      · rintro ⟨h1, h2⟩; exact ⟨by linear_combination h1, by linear_combination h2⟩

theorem Lattice.seen_unique (hL : Lattice m s f0 spot) {ns : List Nat} (hq : Quad s f0 ns) {n : Nat} {p q : Int × Int} (h1 : Seen s f0 spot n p)
    (h2 : Seen s f0 spot n q) : p = q := by
  obtain ⟨b, u, v, hu, hv, hh | hh⟩ := hL.frame hq <;> rw [hh] at h1 h2 <;> rw [h1] at h2 <;> simp only [Prod.mk.injEq] at h2 <;>
    rcases hu with rfl | rfl <;> rcases hv with rfl | rfl <;> exact Prod.ext (by omega) (by omega)

theorem Lattice.seen_beside (hL : Lattice m s f0 spot) {ns : List Nat} (hq : Quad s f0 ns) {n n' : Nat} {p q : Int × Int} (h1 : Seen s f0 spot n p)
    (h2 : Seen s f0 spot n' q) (hb : Beside p q) : Beside (spot n) (spot n') := by
  obtain ⟨b, u, v, hu, hv, hh | hh⟩ := hL.frame hq <;> rw [hh] at h1 h2 <;> rw [h1, h2] <;> unfold Beside at hb ⊢ <;> simp only <;>
    rcases hu with rfl | rfl <;> rcases hv with rfl | rfl <;> omega

theorem Lattice.noTwin (hL : Lattice m s f0 spot) : NoTwin m s f0 := by
  intro f a b c d x hcon hq hx
  have hc := hL.cell f a b c d hcon hq
  have ca : Corner s f0 a := ⟨f, _, hcon, ⟨hq, rfl⟩, by simp⟩
  have cb : Corner s f0 b := ⟨f, _, hcon, ⟨hq, rfl⟩, by simp⟩
  have cc : Corner s f0 c := ⟨f, _, hcon, ⟨hq, rfl⟩, by simp⟩
  have cd : Corner s f0 d := ⟨f, _, hcon, ⟨hq, rfl⟩, by simp⟩
  have key : ∀ p0 p1 p2 p3 X : Int × Int, Cell p0 p1 p2 p3 → Beside p0 X → Beside p2 X → X = p1 ∨ X = p3 := by
    intro p0 p1 p2 p3 X h h1 h2
    obtain ⟨u, v, hu, hv, h | h⟩ := h <;> obtain ⟨rfl, rfl, rfl⟩ := h <;> rw [Prod.ext_iff, Prod.ext_iff] <;> unfold Beside at h1 h2 <;> simp only at h1 h2 ⊢ <;>
      rcases hu with rfl | rfl <;> rcases hv with rfl | rfl <;> omega
  constructor
  · intro h1 h2
    rcases key _ _ _ _ _ hc ((hL.linked a x ca hx).1 h1) ((hL.linked c x cc hx).1 h2) with hh | hh
    · exact Or.inl (hL.once x b hx cb hh)
    · exact Or.inr (hL.once x d hx cd hh)
  · intro h1 h2
    rcases key _ _ _ _ _ hc.rot ((hL.linked b x cb hx).1 h1) ((hL.linked d x cd hx).1 h2) with hh | hh
    · exact Or.inr (hL.once x c hx cc hh)
    · exact Or.inl (hL.once x a hx ca hh)

theorem Inv.reached_cell (h : Inv m s f0 t) {f : Nat} (hr : Reached s t.place f0 f) {ns : List Nat} (hq : Quad s f ns) : OnCell t.place ns := by
  cases hr with
  | start =>
    obtain ⟨a, b, c, d, h1, h2, h3, h4, h5⟩ := h.first
    have := hq.1
    rw [h1] at this
    rw [← Option.some.inj this]
    exact ⟨a, b, c, d, _, _, _, _, rfl, h5, h2, h3, h4, 1, -1, by simp, by simp, Or.inr ⟨by simp, by simp, by simp⟩⟩
  | step e f' g ns1 ns' _ h2 h3 =>
    have := hq.1
    rw [h2.right.1] at this
    rw [← Option.some.inj this]
    exact h3

/-- The nodes are where they belong. -/
theorem Inv.aligned (hf : Facts m s) (hL : Lattice m s f0 spot) (h : Inv m s f0 t) {f : Nat} (hr : Reached s t.place f0 f) :
    ∀ ns, Quad s f ns → ∀ n ∈ ns, ∀ p, t.place n = some p → Seen s f0 spot n p := by
  induction hr with
  | start =>
    intro ns hq n hn p hp
    obtain ⟨a, b, c, d, h1, h2, h3, h4, h5⟩ := h.first
    have e := hq.1
    rw [h1] at e
    obtain rfl := Option.some.inj e
    have hc := hL.cell f0 a b c d .start h1
    simp only [List.mem_cons, List.not_mem_nil, or_false] at hn
    rcases hn with rfl | rfl | rfl | rfl
    · rw [h5] at hp; obtain rfl := Option.some.inj hp
      exact ⟨_, _, _, _, h1, by simp only; ring, by simp only; ring⟩
    · rw [h2] at hp; obtain rfl := Option.some.inj hp
      exact ⟨_, _, _, _, h1, by simp only; ring, by simp only; ring⟩
    · rw [h3] at hp; obtain rfl := Option.some.inj hp
      exact ⟨_, _, _, _, h1, by simp only; ring, by simp only; ring⟩
    · rw [h4] at hp; obtain rfl := Option.some.inj hp
      refine ⟨_, _, _, _, h1, ?_, ?_⟩
      · obtain ⟨u, v, _, _, hh | hh⟩ := hc <;> obtain ⟨k1, k2, k3⟩ := hh <;> rw [k1, k2, k3] <;> simp only <;> ring
      · obtain ⟨u, v, _, _, hh | hh⟩ := hc <;> obtain ⟨k1, k2, k3⟩ := hh <;> rw [k1, k2, k3] <;> simp only <;> ring
  | step e f g ns0 ns1 h1 h2 h3 ih =>
    intro ns hq n hn p hp
    have e' := hq.1
    rw [h2.right.1] at e'
    obtain rfl := Option.some.inj e'
    obtain ⟨a, b, c, d, x, y, k1, k2, _⟩ := common_side hf h2
    obtain ⟨p0, p1, p2, p3, g0, g1, g2, g3, gc⟩ := (h.reached_cell h1 h2.left).around k1
    obtain ⟨b1, b2⟩ := ToCurvi.beyond hf h h2 k1 k2 g0 g1 g2 g3 gc h3
    obtain ⟨l1, l2⟩ := hL.beyond hf h1.connected h2 k1 k2
    have hm := k1.mem
    have sa := ih ns0 h2.left a hm.1 p0 g0
    have sb := ih ns0 h2.left b hm.2.1 p1 g1
    have sc := ih ns0 h2.left c hm.2.2.1 p2 g2
    have sd := ih ns0 h2.left d hm.2.2.2 p3 g3
    rcases (k2.iff n).1 hn with rfl | rfl | rfl | rfl
    · rw [g0] at hp; obtain rfl := Option.some.inj hp; exact sa
    · rw [g1] at hp; obtain rfl := Option.some.inj hp; exact sb
    · rw [b2] at hp; obtain rfl := Option.some.inj hp; exact sb.beyond sc l2
    · rw [b1] at hp; obtain rfl := Option.some.inj hp; exact sa.beyond sd l1

theorem Inv.seen (hf : Facts m s) (hL : Lattice m s f0 spot) (h : Inv m s f0 t) {n : Nat} {p : Int × Int} (hp : t.place n = some p) :
    Corner s f0 n ∧ Seen s f0 spot n p := by
  obtain ⟨f, ns, h1, h2, _, h4⟩ := h.owner n p hp
  exact ⟨⟨f, ns, h4.connected, h1, h2⟩, h.aligned hf hL h4 ns h1 n h2 p hp⟩

/-- Nothing is in the way. -/
theorem Inv.unblocked (hf : Facts m s) (hL : Lattice m s f0 spot) (h : Inv m s f0 t) {e f g : Nat} {ns ns' : List Nat} (hr : Reached s t.place f0 f)
    (hn : Next s e f g ns ns') : ¬ Blocked m s t.place e ns ns' := by
  rintro ⟨a, b, c, d, x, y, p, q, r, r', h1, h2, _, h4, h5, h6, h7, h8, h9⟩
  obtain ⟨a0, b0, c0, d0, hq0, _⟩ := h.first
  have hcg : Connected s f0 g := .step e f g ns ns' hr.connected hn
  obtain ⟨l1, l2⟩ := hL.beyond hf hr.connected hn h1 h2
  have hX := ((h.seen hf hL h4).2).beyond (h.seen hf hL h7).2 l1
  have hY := ((h.seen hf hL h5).2).beyond (h.seen hf hL h6).2 l2
  have key : ∀ z Z, z ∈ ns' → Seen s f0 spot z Z → ¬ Obstructed m s t.place z Z := by
    intro z Z hz hZ ho
    rcases ho with ⟨q, k1, k2⟩ | ⟨w, q, k1, k2, k3⟩
    · exact k2 (hL.seen_unique ⟨hq0, rfl⟩ (h.seen hf hL k1).2 hZ)
    · exact k3 ((hL.linked w z (h.seen hf hL k1).1 ⟨g, ns', hcg, hn.right, hz⟩).2 (hL.seen_beside ⟨hq0, rfl⟩ (h.seen hf hL k1).2 hZ k2))
  rcases h9 with h9 | h9
  · exact key _ _ h2.mem.2.2.2 hX h9
  · exact key _ _ h2.mem.2.2.1 hY h9

theorem growFrom_lattice (hf : Facts m s) {f : Nat} {ns : List Nat} (hb : Bordered m s f) (hL : Lattice m s f spot) (hw : Narrow s f spot)
    (hq : Quad s f ns) : ∃ g place i0 j0, growFrom m s f = .ok g ∧ Laid m s f g place i0 j0 ∧
      ∀ n p, place n = some p ↔ Corner s f n ∧ Seen s f spot n p := by
  obtain ⟨g, t, i0, j0, h1, h2, h3⟩ := growFrom_eq hf hb hL.noTwin hq (by
    intro t1 h1 _ hl
    obtain ⟨b, u, v, hu, hv, hh⟩ := hL.frame hq
    have main : ∀ n n' p p', t1.place n = some p → t1.place n' = some p' → p'.1 - p.1 < 999 ∧ p'.2 - p.2 < 999 := by
      intro n n' p p' k1 k2
      obtain ⟨c1, s1⟩ := h1.seen hf hL k1
      obtain ⟨c2, s2⟩ := h1.seen hf hL k2
      have w1 := hw n n' c1 c2
      have w2 := hw n' n c2 c1
      rcases hh with hh | hh <;> rw [hh] at s1 s2 <;> rw [s1, s2] at w1 w2 <;> simp only at w1 w2 <;> rcases hu with rfl | rfl <;> rcases hv with rfl | rfl <;> omega
    rcases hl with hl | hl
    · obtain ⟨n, p, k1, k2⟩ := hl (-998) (by omega) (by omega)
      obtain ⟨n', p', k1', k2'⟩ := hl 1 (by omega) (by omega)
      have := main n n' p p' k1 k1'
      omega
    · obtain ⟨n, p, k1, k2⟩ := hl (-998) (by omega) (by omega)
      obtain ⟨n', p', k1', k2'⟩ := hl 1 (by omega) (by omega)
      have := main n n' p p' k1 k1'
      omega)
  refine ⟨g, _, i0, j0, h1, h3, ?_⟩
  have hall : ∀ f', Connected s f f' → Reached s t.place f f' := by
    intro f' hc
    induction hc with
    | start => exact .start
    | step e f1 g1 ns1 ns2 k1 k2 ih =>
      rcases h3.grown e f1 g1 ns1 ns2 ih k2 with hh | hh
      · exact .step e f1 g1 ns1 ns2 ih k2 hh
      · exact absurd hh (h2.unblocked hf hL ih k2)
  intro n p
  constructor
  · exact h2.seen hf hL
  · rintro ⟨⟨f', ns', k1, k2, k3⟩, k4⟩
    have hon := h2.reached_cell (hall f' k1) k2
    obtain ⟨b, c, d, hA⟩ := around_of_mem k2.2 k3
    obtain ⟨p0, _, _, _, g0, _⟩ := hon.around hA
    rw [g0, hL.seen_unique hq (h2.seen hf hL g0).2 k4]

end Verif.ToCurvi
