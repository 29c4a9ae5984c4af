import Verif.Flip.StepLemmas
import Verif.Mesh.CompactLemmas
import Mathlib.Combinatorics.Enumerative.DoubleCounting
/-!
# Lemmas: the loops
-/
namespace Verif.Flip
open Verif.Mesh Verif.Faces
open Verif.Polygons (Pt)

/-- Any number of flips. -/
abbrev Flips (nodes : List (Option Pt)) (types : List Int) : Picture → Picture → Prop := Relation.ReflTransGen (Flipped nodes (wanted types))

/-- Where the loops are, having started from `st0`. -/
structure Going (types : List Int) (st0 st : St) : Prop where
  nodes : st.mesh.nodes = st0.mesh.nodes
  edges : st.mesh.edges.length = st0.mesh.edges.length
  flips : Flips st0.mesh.nodes types (picture st0) (picture st)
  exact : Exact st.mesh st.faces
  acts : ∃ as, st.acts = st0.acts ++ as ∧ Good st0.mesh as st.mesh

theorem Going.refl {types : List Int} {st : St} (h : Exact st.mesh st.faces) : Going types st st :=
  ⟨rfl, rfl, .refl, h, [], by simp, Good.refl _⟩

theorem Going.trans {types : List Int} {st0 st1 st2 : St} (h : Going types st0 st1) (h' : Going types st1 st2) : Going types st0 st2 := by
  obtain ⟨as, a1, a2⟩ := h.acts
  obtain ⟨bs, b1, b2⟩ := h'.acts
  refine ⟨h'.nodes.trans h.nodes, h'.edges.trans h.edges, ?_, h'.exact, as ++ bs, by rw [b1, a1, List.append_assoc], a2.trans b2⟩
  have := h'.flips
  rw [h.nodes] at this
  exact h.flips.trans this

theorem Turned.going {types : List Int} {e : Nat} {st st' : St} (h : Turned types e st st') : Going types st st' :=
  ⟨h.nodes, h.edges, .single h.flip, h.exact, h.acts⟩

/-- Only triangles change. -/
theorem Flipped.others {nodes : List (Option Pt)} {want : Nat → Int} {p p' : Picture} (h : Flipped nodes want p p') {f : Nat} {ns : List Nat}
    (hn : ns.length ≠ 3) : p'.faces[f]? = some ns ↔ p.faces[f]? = some ns := by
  obtain ⟨e, a, b, l, r, k, g, nk, ng, _, hne, h1, h2, h3, h4, rfl, _⟩ := h
  simp only []
  have l1 : nk.length = 3 := by rw [h3.length_eq]; rfl
  have l2 : ng.length = 3 := by rw [h4.length_eq]; rfl
  have lg : g < p.faces.length := (List.getElem?_eq_some_iff.1 h2).1
  have lk : k < p.faces.length := (List.getElem?_eq_some_iff.1 h1).1
  by_cases hg : f = g
  · subst hg
    rw [List.getElem?_set_self (by simpa using lg), h2]
    constructor
    · intro h; obtain rfl := Option.some.inj h; exact absurd rfl hn
    · intro h; obtain rfl := Option.some.inj h; exact absurd l2 hn
  · rw [List.getElem?_set_ne (Ne.symm hg)]
    by_cases hk : f = k
    · subst hk
      rw [List.getElem?_set_self lk, h1]
      constructor
      · intro h; obtain rfl := Option.some.inj h; exact absurd rfl hn
      · intro h; obtain rfl := Option.some.inj h; exact absurd l1 hn
    · rw [List.getElem?_set_ne (Ne.symm hk)]

theorem flips_others {nodes : List (Option Pt)} {types : List Int} {p p' : Picture} (h : Flips nodes types p p') {f : Nat} {ns : List Nat}
    (hn : ns.length ≠ 3) : p'.faces[f]? = some ns ↔ p.faces[f]? = some ns := by
  induction h with
  | refl => rfl
  | tail _ h ih => rw [h.others hn, ih]

/-- Some reachable mesh has a node with more than 16 edges. -/
def Bursts (nodes : List (Option Pt)) (types : List Int) (p : Picture) : Prop :=
  ∃ p' n, Flips nodes types p p' ∧ n < nodes.length ∧ maxEdgesPerNode < degree p'.edges n

theorem Overfull.bursts {nodes : List (Option Pt)} {types : List Int} {p p' : Picture} (h : Flips nodes types p p') (ho : Overfull types nodes p') :
    Bursts nodes types p := by
  obtain ⟨q, n, h1, h2, h3⟩ := ho
  exact ⟨q, n, h.tail h1, h2, h3⟩

/-- A sweep over the edges `i`, `i + 1`, … up to `i + k`. -/
theorem sweep {order : List Edge → Nat → List Nat → List Nat} (perm : ∀ es n l, (order es n l).Perm l) {types : List Int} (k : Nat) :
    ∀ (i : Nat) (st : St), Exact st.mesh st.faces → types.length = st.mesh.nodes.length → i + k ≤ st.mesh.edges.length →
      (loopN (tryEdge order types) k i st = .ub ∧ Bursts st.mesh.nodes types (picture st)) ∨
      ∃ st', loopN (tryEdge order types) k i st = .ok st' ∧ Going types st st' ∧
        energy (wanted types) st.mesh.nodes.length st'.mesh.edges + st'.flipped ≤ energy (wanted types) st.mesh.nodes.length st.mesh.edges + st.flipped ∧
        st.flipped ≤ st'.flipped ∧
        (st'.left = false → st.left = false ∧ (st'.flipped = st.flipped → st' = st ∧
          ∀ e, i ≤ e → e < i + k → ¬ BetterAt (wanted types) st.mesh st.faces e)) ∧
        (st'.left = true → st.left = false → ∃ (f : Nat) (ns : List Nat), st.faces.facesNodes[f]? = some ns ∧ ns.length ≠ 3) := by
  induction k with
  | zero =>
    intro i st h _ _
    refine Or.inr ⟨st, rfl, .refl h, le_refl _, Nat.le_refl _, fun hl => ⟨hl, fun _ => ⟨rfl, fun e h1 h2 => by omega⟩⟩, fun h1 h2 => ?_⟩
    rw [h1] at h2; exact absurd h2 (by decide)
  | succ k ih =>
    intro i st h ht hi
    rw [loopN]
    rcases tryEdge_spec perm h ht (show i < st.mesh.edges.length by omega) with ⟨h1, h2⟩ | ⟨h1, h2⟩ | ⟨h1, h2⟩ | ⟨st1, h1, h2⟩
    · left
      rw [h1]
      exact ⟨rfl, h2.bursts .refl⟩
    · rw [h1, Res.ok_bind]
      rcases ih (i + 1) st h ht (by omega) with ⟨g1, g2⟩ | ⟨st', g1, g2, g3, g4, g5, g6⟩
      · exact Or.inl ⟨g1, g2⟩
      · refine Or.inr ⟨st', g1, g2, g3, g4, fun hl => ⟨(g5 hl).1, fun hf => ⟨((g5 hl).2 hf).1, fun e e1 e2 => ?_⟩⟩, g6⟩
        by_cases hei : e = i
        · subst hei
          rcases h2 with h2 | h2
          · rw [(g5 hl).1] at h2; exact absurd h2 (by decide)
          · exact h2
        · exact ((g5 hl).2 hf).2 e (by omega) (by omega)
    · rw [h1, Res.ok_bind]
      rcases ih (i + 1) { st with left := true } h ht (by simp only []; omega) with ⟨g1, g2⟩ | ⟨st', g1, g2, g3, g4, g5, g6⟩
      · exact Or.inl ⟨g1, g2⟩
      · refine Or.inr ⟨st', g1, ⟨g2.nodes, g2.edges, g2.flips, g2.exact, g2.acts⟩, g3, g4, fun hl => ?_, fun _ _ => ?_⟩
        · exact absurd (g5 hl).1 (by simp)
        · obtain ⟨ns, f, g, _, k2, k3⟩ := h2
          rcases k2 with k2 | k2
          · exact ⟨f, ns, k2, k3⟩
          · exact ⟨g, ns, k2, k3⟩
    · rw [h1, Res.ok_bind]
      have hgo := h2.going
      have hless : energy (wanted types) st.mesh.nodes.length st1.mesh.edges < energy (wanted types) st.mesh.nodes.length st.mesh.edges := by
        obtain ⟨_, _, _, _, _, _, _, _, _, _, _, _, _, _, _, _, q⟩ := h2.flip
        exact q
      rcases ih (i + 1) st1 h2.exact (by rw [h2.nodes]; exact ht) (by rw [h2.edges]; omega) with ⟨g1, g2⟩ | ⟨st', g1, g2, g3, g4, g5, g6⟩
      · left
        refine ⟨g1, ?_⟩
        obtain ⟨p', n, q1, q2, q3⟩ := g2
        rw [h2.nodes] at q1 q2
        exact ⟨p', n, hgo.flips.trans q1, q2, q3⟩
      · rw [h2.nodes] at g3
        have hc := h2.count
        refine Or.inr ⟨st', g1, hgo.trans g2, by omega, by omega, fun hl => ⟨h2.stays ▸ (g5 hl).1, fun hf => by omega⟩, fun hl hl0 => ?_⟩
        obtain ⟨f, ns, q1, q2⟩ := g6 hl (by rw [h2.stays]; exact hl0)
        exact ⟨f, ns, (h2.flip.others q2).1 q1, q2⟩

/-- The loops. -/
theorem rounds_spec {order : List Edge → Nat → List Nat → List Nat} (perm : ∀ es n l, (order es n l).Perm l) {types : List Int} (k : Nat) :
    ∀ (st : St), Exact st.mesh st.faces → types.length = st.mesh.nodes.length → st.left = false →
      (st.flipped = 0 → ∀ e, e < st.mesh.edges.length → ¬ BetterAt (wanted types) st.mesh st.faces e) →
      (rounds order types st.mesh.edges.length k st = .ub ∧ Bursts st.mesh.nodes types (picture st)) ∨
      ∃ st', rounds order types st.mesh.edges.length k st = .ok st' ∧ Going types st st' ∧
        (st'.left = true → ∃ (f : Nat) (ns : List Nat), st.faces.facesNodes[f]? = some ns ∧ ns.length ≠ 3) ∧
        (st'.left = false → st'.flipped = 0 → ∀ e, e < st'.mesh.edges.length → ¬ BetterAt (wanted types) st'.mesh st'.faces e) ∧
        (st'.left = false → st'.flipped ≠ 0 →
          energy (wanted types) st.mesh.nodes.length st'.mesh.edges + k ≤ energy (wanted types) st.mesh.nodes.length st.mesh.edges) := by
  induction k with
  | zero =>
    intro st h ht hl hb
    refine Or.inr ⟨st, rfl, .refl h, fun h1 => ?_, fun _ => hb, fun _ _ => by simp⟩
    rw [hl] at h1; exact absurd h1 (by decide)
  | succ k ih =>
    intro st h ht hl hb
    rw [rounds]
    by_cases hz : st.flipped = 0
    · rw [if_pos hz]
      refine Or.inr ⟨st, rfl, .refl h, fun h1 => ?_, fun _ => hb, fun _ h1 => absurd hz h1⟩
      rw [hl] at h1; exact absurd h1 (by decide)
    rw [if_neg hz]
    have hforRange : ∀ s, forRange 0 st.mesh.edges.length (tryEdge order types) s = loopN (tryEdge order types) st.mesh.edges.length 0 s := fun _ => rfl
    rw [hforRange]
    rcases sweep perm (order := order) (types := types) st.mesh.edges.length 0 { st with flipped := 0 } h ht (by simp) with
      ⟨g1, g2⟩ | ⟨st1, g1, g2, g3, g4, g5, g6⟩
    · left
      rw [g1]
      exact ⟨rfl, g2⟩
    · rw [g1, Res.ok_bind]
      have hgo : Going types st st1 := ⟨g2.nodes, g2.edges, g2.flips, g2.exact, g2.acts⟩
      rcases Bool.eq_false_or_eq_true st1.left with hl1 | hl1
      · rw [if_pos hl1]
        refine Or.inr ⟨st1, rfl, hgo, fun _ => g6 hl1 hl, fun h1 => ?_, fun h1 => ?_⟩
        all_goals rw [hl1] at h1; exact absurd h1 (by decide)
      · rw [if_neg (by rw [hl1]; decide), ← hgo.edges]
        have hnext : st1.flipped = 0 → ∀ e, e < st1.mesh.edges.length → ¬ BetterAt (wanted types) st1.mesh st1.faces e := by
          intro h0 e he
          obtain ⟨k1, k2⟩ := (g5 hl1).2 h0
          rw [k1] at he ⊢
          exact k2 e (Nat.zero_le _) (by rw [Nat.zero_add]; exact he)
        rcases ih st1 hgo.exact (by rw [hgo.nodes]; exact ht) hl1 hnext with ⟨q1, q2⟩ | ⟨st', q1, q2, q3, q4, q5⟩
        · left
          refine ⟨q1, ?_⟩
          obtain ⟨p', n, r1, r2, r3⟩ := q2
          rw [hgo.nodes] at r1 r2
          exact ⟨p', n, hgo.flips.trans r1, r2, r3⟩
        · refine Or.inr ⟨st', q1, hgo.trans q2, fun h1 => ?_, q4, fun h1 h2 => ?_⟩
          · obtain ⟨f, ns, r1, r2⟩ := q3 h1
            exact ⟨f, ns, (flips_others hgo.flips r2).1 r1, r2⟩
          · have h3 := q5 h1 h2
            rw [hgo.nodes] at h3
            have hne : st1.flipped ≠ 0 := by
              intro h0
              cases k with
              | zero =>
                obtain rfl := Res.ok.inj q1
                exact h2 h0
              | succ k =>
                rw [rounds, if_pos h0] at q1
                obtain rfl := Res.ok.inj q1
                exact h2 h0
            simp only [] at g3
            push_cast
            omega

/-- Three sides to a face and two faces to an edge. -/
theorem Linked.count_faces {edges : List Edge} {s : State} (h : Linked edges s) : s.facesNodes.length * 3 ≤ edges.length * 2 := by
  classical
  have := Finset.card_mul_le_card_mul (s := Finset.range s.facesNodes.length) (t := Finset.range edges.length) (fun f e => Borders s f e)
    (m := 3) (n := 2) (by
      intro f hf
      rw [Finset.mem_range] at hf
      have hf' : f < s.facesEdges.length := by rw [← h.lengths]; exact hf
      have hp := h.proper f _ _ (List.getElem?_eq_getElem hf) (List.getElem?_eq_getElem hf')
      have hsub : (s.facesEdges[f]).toFinset ⊆ Finset.bipartiteAbove (fun f e => Borders s f e) (Finset.range edges.length) f := by
        intro e he
        rw [List.mem_toFinset] at he
        rw [Finset.mem_bipartiteAbove, Finset.mem_range]
        obtain ⟨i, hi, hie⟩ := List.getElem_of_mem he
        obtain ⟨_, _, e', p, _, _, k3, k4, _⟩ := hp.sides i (by rw [← hp.len]; exact hi)
        rw [List.getElem?_eq_getElem hi, hie] at k3
        obtain rfl := Option.some.inj k3
        exact ⟨(List.getElem?_eq_some_iff.1 k4).1, _, List.getElem?_eq_getElem hf', he⟩
      calc 3 ≤ (s.facesEdges[f]).length := by rw [hp.len]; exact hp.atLeast
        _ = (s.facesEdges[f]).toFinset.card := (List.toFinset_card_of_nodup hp.edgesDistinct).symm
        _ ≤ _ := Finset.card_le_card hsub) (by
      intro e he
      rw [Finset.mem_range] at he
      obtain ⟨c, p, L, _, _, k3, k4, k5⟩ := h.faces e he
      have hsub : Finset.bipartiteBelow (fun f e => Borders s f e) (Finset.range s.facesNodes.length) e ⊆ L.toFinset := by
        intro f hf
        rw [Finset.mem_bipartiteBelow] at hf
        rw [List.mem_toFinset]
        exact (k5 f).2 hf.2
      have hL : L.length ≤ 2 := by cases k3 <;> simp
      exact le_trans (Finset.card_le_card hsub) (le_trans (List.toFinset_card_le _) hL))
  simpa using this

end Verif.Flip
