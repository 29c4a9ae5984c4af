import Verif.ToCurvi.ResultLemmas
import Mathlib.Data.Finset.Card
import Mathlib.Data.Finset.Range
/-!
# Lemmas: the grid is laid over the mesh
-/
namespace Verif.ToCurvi
open Verif.Mesh Verif.Faces Verif.Refine Verif.Curvi
variable {P : Type} {m : Mesh P} {s : State} {f0 : Nat} {t : Front}

theorem borders_iff (hf : Facts m s) {f e a b c d : Nat} {ns : List Nat} (hq : Quad s f ns) (hA : Around ns a b c d) :
    Borders s f e ↔ joins (edgeAt m e) a b ∨ joins (edgeAt m e) b c ∨ joins (edgeAt m e) c d ∨ joins (edgeAt m e) d a := by
  constructor
  · intro h
    obtain ⟨A, B, Y, X, h1, h2, _⟩ := tryFace_eq hf hq h
    rcases around_same hA h1 with q | q | q | q | q | q | q | q <;> simp only [List.cons.injEq, and_true] at q <;> obtain ⟨rfl, rfl, rfl, rfl⟩ := q
    · exact Or.inl h2
    · exact Or.inr (Or.inr (Or.inr h2))
    · exact Or.inr (Or.inr (Or.inl h2))
    · exact Or.inr (Or.inl h2)
    · exact Or.inr (Or.inr (Or.inl (joins_comm.1 h2)))
    · exact Or.inr (Or.inl (joins_comm.1 h2))
    · exact Or.inl (joins_comm.1 h2)
    · exact Or.inr (Or.inr (Or.inr (joins_comm.1 h2)))
  · obtain ⟨e0, e1, e2, e3, hS, _⟩ := hf.around hq hA
    have hm := hA.mem
    rintro (h | h | h | h)
    · rw [hf.edge_unique (hf.node_ne hq hm.1) h hS.j0]; exact hS.b0
    · rw [hf.edge_unique (hf.node_ne hq hm.2.1) h hS.j1]; exact hS.b1
    · rw [hf.edge_unique (hf.node_ne hq hm.2.2.1) h hS.j2]; exact hS.b2
    · rw [hf.edge_unique (hf.node_ne hq hm.2.2.2) h hS.j3]; exact hS.b3

/-- Two faces do not have the same corners in the same order. -/
theorem same_corners (hf : Facts m s) {e f g a b c d : Nat} {ns ns' : List Nat} (hn : Next s e f g ns ns') (h1 : Around ns a b c d) (h2 : Around ns' a b c d) : False := by
  obtain ⟨es, k1, _⟩ := hn.leftSide
  obtain ⟨es', k2, _⟩ := hn.rightSide
  refine hf.once f g es es' hn.ne k1 k2 ?_
  intro e'
  have i1 : e' ∈ es ↔ Borders s f e' := ⟨fun h => ⟨es, k1, h⟩, fun ⟨es2, j1, j2⟩ => by rw [k1] at j1; rw [Option.some.inj j1]; exact j2⟩
  have i2 : e' ∈ es' ↔ Borders s g e' := ⟨fun h => ⟨es', k2, h⟩, fun ⟨es2, j1, j2⟩ => by rw [k2] at j1; rw [Option.some.inj j1]; exact j2⟩
  rw [i1, i2, borders_iff hf hn.left h1, borders_iff hf hn.right h2]

/-- A face next to one of the grid, in the grid too, is on the other side of the common side. -/
theorem beyond (hf : Facts m s) (h : Inv m s f0 t) {e f g a b c d x y : Nat} {ns ns' : List Nat} {p q r r' : Int × Int} (hn : Next s e f g ns ns')
    (hA : Around ns a b c d) (hA' : Around ns' a b y x) (ha : t.place a = some p) (hb : t.place b = some q) (hc : t.place c = some r')
    (hd : t.place d = some r) (hcell : Cell p q r' r) (hon : OnCell t.place ns') :
    t.place x = some (2 * p.1 - r.1, 2 * p.2 - r.2) ∧ t.place y = some (2 * q.1 - r'.1, 2 * q.2 - r'.2) := by
  obtain ⟨p0, p1, p2, p3, g0, g1, g2, g3, gc⟩ := hon.around hA'
  rw [ha] at g0; obtain rfl := Option.some.inj g0
  rw [hb] at g1; obtain rfl := Option.some.inj g1
  rcases hcell.opposite gc with ⟨rfl, rfl⟩ | ⟨rfl, rfl⟩
  · obtain rfl := h.once g3 hd
    obtain rfl := h.once g2 hc
    exact absurd (same_corners hf hn hA hA') id
  · exact ⟨g3, g2⟩

theorem not_blocked (hf : Facts m s) (h : Inv m s f0 t) {e f g : Nat} {ns ns' : List Nat} (hn : Next s e f g ns ns') (hon : OnCell t.place ns')
    (hb : Blocked m s t.place e ns ns') : False := by
  obtain ⟨a, b, c, d, x, y, p, q, r, r', h1, h2, _, h4, h5, h6, h7, h8, h9⟩ := hb
  obtain ⟨g1, g2⟩ := beyond hf h hn h1 h2 h4 h5 h6 h7 h8 hon
  have key : ∀ x X, t.place x = some X → ¬ Obstructed m s t.place x X := by
    intro x X hx ho
    rcases ho with ⟨q, k1, k2⟩ | ⟨w, q, k1, k2, k3⟩
    · rw [hx] at k1; exact k2 (Option.some.inj k1).symm
    · exact k3 (h.linked w x q X k1 hx k2)
  rcases h9 with h9 | h9
  · exact key _ _ g1 h9
  · exact key _ _ g2 h9

theorem reached_seen (hf : Facts m s) {vis : List Bool} (h : Going m s f0 [] vis t) {f : Nat} (hr : Reached s t.place f0 f) : vis[f]? = some true := by
  induction hr with
  | start => exact h.start.resolve_left (by simp)
  | step e f g ns ns' _ h2 h3 ih =>
    rcases h.served f ih e ns g ns' h2 with hh | hh | hh
    · exact hh
    · simp at hh
    · exact absurd (not_blocked hf h.inv h2 h3 hh) id

/-- The result of the last steps. -/
theorem result_laid (hf : Facts m s) {vis : List Bool} (h : Going m s f0 [] vis t) : ∃ (r : Nat × Nat × (Nat → Nat → Option P)) (g : Grid (Option P)) (i0 j0 : Int),
    matrix m t = .ok r ∧ setGridNodes ⟨0, 0, fun _ _ => none, 0, 0, 0, 0⟩ r.1 r.2.1 r.2.2 = .ok g ∧ Laid m s f0 g t.place i0 j0 := by
  have hI := h.inv
  obtain ⟨ei, ej, c, h1, _, _, h2, h3, h4, h5, h6, h7, h8⟩ := matrix_eq hI
  obtain ⟨a, b, c', d, k1, k2, k3, k4, k5⟩ := hI.first
  have e1 := h2 _ _ k2
  have e2 := h2 _ _ k4
  simp only at e1 e2
  refine ⟨_, ⟨(ej.2 - ej.1 + 1).toNat, (ei.2 - ei.1 + 1).toNat, c, 0, 0, 0, 0⟩, ei.1, ej.1, h1, ?_, ?_⟩
  · simp only [setGridNodes]
    rw [if_neg (by omega)]
  · refine ⟨?_, fun n n' p g1 g2 => hI.once g1 g2, ?_, h7, h8, ⟨rfl, rfl, rfl, rfl⟩, ⟨h3, ?_, h5, ?_⟩, hI.linked, hI.first, hI.owner, ?_⟩
    · intro n p hp
      obtain ⟨f, ns, g1, g2, _⟩ := hI.owner n p hp
      exact hf.valid f ns g1.1 n g2
    · intro n p hp
      have := h2 n p hp
      simp only
      omega
    · obtain ⟨n, p, g1, g2⟩ := h4
      have := h2 n p g1
      exact ⟨n, p, g1, by simp only; omega⟩
    · obtain ⟨n, p, g1, g2⟩ := h6
      have := h2 n p g1
      exact ⟨n, p, g1, by simp only; omega⟩
    · intro e f g ns ns' hr hn
      rcases h.served f (reached_seen hf h hr) e ns g ns' hn with hh | hh | hh
      · obtain ⟨ns2, j1, j2, _⟩ := h.seen g hh
        have : ns2 = ns' := by have := hn.right.1; rw [j1.1] at this; exact Option.some.inj this
        rw [this] at j2
        exact Or.inl j2
      · simp at hh
      · exact Or.inr hh

theorem going_start {f : Nat} {ns : List Nat} (hq : Quad s f ns) (h : Inv m s f t) (hon : OnCell t.place ns) :
    Going m s f [f] (List.replicate s.facesNodes.length false) t := by
  have hv : ∀ g : Nat, (List.replicate s.facesNodes.length false)[g]? ≠ some true := by
    intro g hg
    rw [List.getElem?_replicate] at hg
    split at hg <;> simp at hg
  refine ⟨h, by simp, ?_, fun g hg => absurd hg (hv g), fun g hg => absurd hg (hv g), Or.inl (by simp)⟩
  intro g hg
  obtain rfl := List.mem_singleton.1 hg
  exact ⟨ns, hq, hon, .start⟩

theorem growFrom_eq (hf : Facts m s) {f : Nat} {ns : List Nat} (hb : Bordered m s f) (ht : NoTwin m s f) (hq : Quad s f ns)
    (safe : ∀ t1, Inv m s f t1 → (∀ t0 t2, seed m s f = .ok t0 → rounds m s (enough s) [f] (List.replicate s.facesNodes.length false) t0 = .ok t2 →
      Extends t1.place t2.place) → ¬ Long t1.place) :
    ∃ g t i0 j0, growFrom m s f = .ok g ∧ Inv m s f t ∧ Laid m s f g t.place i0 j0 := by
  obtain ⟨t0, h1, h2, h3, _⟩ := seed_eq hf hq
  obtain ⟨t', vis', g1, g2⟩ := rounds_eq hf hb ht (enough s) [f] _ t0 (going_start hq h2 h3) (by
    unfold enough left
    simp only [List.length_singleton, List.count_replicate, BEq.rfl, if_true]
    omega) (fun t1 k1 k2 => safe t1 k1 (fun t0' t2 k3 k4 => by
      rw [h1] at k3
      obtain rfl := Res.ok.inj k3
      exact k2 t2 k4))
  obtain ⟨r, g, i0, j0, k1, k2, k3⟩ := result_laid hf g2
  refine ⟨g, t', i0, j0, ?_, g2.inv, k3⟩
  unfold growFrom
  rw [h1, Res.ok_bind, g1, Res.ok_bind, k1, Res.ok_bind, k2]

/-- A very long grid is seen to be so. -/
theorem long_wide {r : Nat × Nat × (Nat → Nat → Option P)} (h : matrix m t = .ok r) (hl : Long t.place) : 1000 ≤ r.1 ∨ 1000 ≤ r.2.1 := by
  unfold matrix at h
  cases hi : extent t.i with
  | none => rw [hi] at h; simp at h
  | some ei =>
    cases hj : extent t.j with
    | none => rw [hi, hj] at h; simp at h
    | some ej =>
      rw [hi, hj] at h
      simp only at h
      obtain ⟨c, _, h⟩ := Res.bind_eq_ok.1 h
      obtain rfl := Res.ok.inj h
      simp only
      rcases hl with hl | hl
      · obtain ⟨n, q, h1, h2⟩ := hl (-998) (by omega) (by omega)
        obtain ⟨n', q', h1', h2'⟩ := hl 1 (by omega) (by omega)
        obtain ⟨g1, _, g2, _⟩ := place_some.1 h1
        obtain ⟨g1', _, g2', _⟩ := place_some.1 h1'
        obtain ⟨e, k1, _, _, _, _, k2⟩ := extent_eq (l := t.i) ⟨_, List.mem_of_getElem? g1, g2⟩
        rw [hi] at k1
        obtain rfl := Option.some.inj k1
        have a1 := k2 _ (List.mem_of_getElem? g1) g2
        have a2 := k2 _ (List.mem_of_getElem? g1') g2'
        omega
      · obtain ⟨n, q, h1, h2⟩ := hl (-998) (by omega) (by omega)
        obtain ⟨n', q', h1', h2'⟩ := hl 1 (by omega) (by omega)
        obtain ⟨_, g1, _, g2⟩ := place_some.1 h1
        obtain ⟨_, g1', _, g2'⟩ := place_some.1 h1'
        obtain ⟨e, k1, _, _, _, _, k2⟩ := extent_eq (l := t.j) ⟨_, List.mem_of_getElem? g1, g2⟩
        rw [hj] at k1
        obtain rfl := Option.some.inj k1
        have a1 := k2 _ (List.mem_of_getElem? g1) g2
        have a2 := k2 _ (List.mem_of_getElem? g1') g2'
        omega

/-- A grid of fewer than a thousand rows and columns is laid over the mesh. -/
theorem growFrom_laid (hf : Facts m s) {f : Nat} {ns : List Nat} (hb : Bordered m s f) (ht : NoTwin m s f) (hq : Quad s f ns) {g : Grid (Option P)}
    (h : growFrom m s f = .ok g) (hr : g.rows < 1000) (hc : g.cols < 1000) : ∃ place i0 j0, Laid m s f g place i0 j0 := by
  obtain ⟨g', t, i0, j0, h1, _, h3⟩ := growFrom_eq hf hb ht hq (by
    intro t1 _ h2 hl
    unfold growFrom at h
    obtain ⟨t0, k1, h⟩ := Res.bind_eq_ok.1 h
    obtain ⟨t', k2, h⟩ := Res.bind_eq_ok.1 h
    obtain ⟨r, k3, h⟩ := Res.bind_eq_ok.1 h
    have := long_wide k3 (hl.mono (h2 t0 t' k1 k2))
    unfold setGridNodes at h
    split at h
    · simp at h
    · obtain rfl := Res.ok.inj h
      simp only at hr hc
      omega)
  rw [h] at h1
  obtain rfl := Res.ok.inj h1
  exact ⟨_, _, _, h3⟩

theorem long_many {place : Nat → Option (Int × Int)} {N : Nat} (h : ∀ n p, place n = some p → n < N) (hl : Long place) : 1000 ≤ N := by
  have key : ∀ sel : Int × Int → Int, (∀ k : Int, -998 ≤ k → k ≤ 1 → ∃ n q, place n = some q ∧ sel q = k) → 1000 ≤ N := by
    intro sel hk
    choose! F G h1 h2 using hk
    have : (Finset.range 1000).card ≤ (Finset.range N).card := by
      refine Finset.card_le_card_of_injOn (fun i => F ((i : Int) - 998)) ?_ ?_
      · intro i hi
        simp only [Finset.coe_range, Set.mem_Iio] at hi ⊢
        exact h _ _ (h1 _ (by omega) (by omega))
      · intro i hi j hj hij
        simp only [Finset.coe_range, Set.mem_Iio] at hi hj hij
        have a1 := h1 ((i : Int) - 998) (by omega) (by omega)
        have a2 := h1 ((j : Int) - 998) (by omega) (by omega)
        rw [hij, a2] at a1
        have b1 := h2 ((i : Int) - 998) (by omega) (by omega)
        have b2 := h2 ((j : Int) - 998) (by omega) (by omega)
        rw [← Option.some.inj a1] at b1
        omega
    simpa using this
  rcases hl with hl | hl
  · exact key Prod.fst hl
  · exact key Prod.snd hl

theorem growFrom_few (hf : Facts m s) {f : Nat} {ns : List Nat} (hb : Bordered m s f) (ht : NoTwin m s f) (hq : Quad s f ns)
    (hN : m.nodes.length < 1000) : ∃ g place i0 j0, growFrom m s f = .ok g ∧ Laid m s f g place i0 j0 := by
  obtain ⟨g, t, i0, j0, h1, _, h3⟩ := growFrom_eq hf hb ht hq (fun t1 h1 _ hl => by
    have := long_many (fun n p hp => h1.lt hp) hl
    omega)
  exact ⟨g, _, i0, j0, h1, h3⟩

end Verif.ToCurvi
