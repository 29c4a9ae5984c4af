import Verif.Ortho.ProgressLemmas
import Verif.Faces.Props
import Mathlib.Algebra.Order.Field.Rat
/-!
# Properties: orthogonalization and smoothing of a mesh (C46)
-/
namespace Verif.Ortho
open Verif.Mesh

/-! ## The types of the nodes -/

/-- After administration the edges listed at a node are those that end there. -/
theorem tables_of_administration {P : Type} {m : Mesh P} (hm : Manageable m) (hn : m.nodes ≠ []) (he : m.edges ≠ []) (order : Nat → List Nat → List Nat)
    (ho : ∀ n l, (order n l).Perm l) (cw : List (Option P) → List Nat → Bool) {m1 : Mesh P} {s : Faces.State}
    (h : Faces.doAdministration order cw m = .ok (m1, s)) (hs : s.numFaces.length = m1.edges.length) :
    Tables m1.edges m1.nodesEdges s.numFaces m1.nodes.length := by
  obtain ⟨m', a1, a2⟩ := administrate_ok hm hn he order ho
  unfold Faces.doAdministration at h
  rw [a1, Res.ok_bind] at h
  obtain ⟨t, _, h⟩ := Res.bind_eq_ok.1 h
  obtain ⟨rfl, rfl⟩ := Prod.mk.inj (Res.ok.inj h)
  exact tables_of_administrated hm a2 hs

/-- If each edge has a face, the type of each node tells the number of its edges and of its boundary edges. -/
theorem types_partial {edges : List Edge} {adj : List (List Nat)} {numFaces : List Nat} {N : Nat} (h : Tables edges adj numFaces N)
    (hf : ∀ (e : Nat) p, edges[e]? = some p → p.1 ≠ missing → p.2 ≠ missing → numFaces.getD e 0 ≠ 0) (sharp : Nat → Nat → Nat → Bool) :
    ∃ types, classify edges adj numFaces sharp N = .ok types ∧ types.length = N ∧
      ∀ (n : Nat) l, adj[n]? = some l → types[n]? = some (expectedType numFaces l) := classify_ok h hf sharp

/-- The angles have no influence on the types, although nodes with sharp angles should be corners. -/
theorem angles_ignored {edges : List Edge} {adj : List (List Nat)} {numFaces : List Nat} {N : Nat} (h : Tables edges adj numFaces N)
    (hf : ∀ (e : Nat) p, edges[e]? = some p → p.1 ≠ missing → p.2 ≠ missing → numFaces.getD e 0 ≠ 0) (sharp sharp' : Nat → Nat → Nat → Bool) :
    classify edges adj numFaces sharp N = classify edges adj numFaces sharp' N := by
  obtain ⟨t, a1, a2, a3⟩ := classify_ok h hf sharp
  obtain ⟨t', b1, b2, b3⟩ := classify_ok h hf sharp'
  rw [a1, b1]
  congr 1
  apply List.ext_getElem?
  intro n
  by_cases hn : n < N
  · have hl := List.getElem?_eq_getElem (l := adj) (i := n) (by rw [h.len]; exact hn)
    rw [a3 n _ hl, b3 n _ hl]
  · rw [List.getElem?_eq_none (by omega), List.getElem?_eq_none (by omega)]

/-! ## What stays in place -/

variable {K : Type} [Field K] [LinearOrder K] [IsStrictOrderedRing K]

/-- Whatever the weights are, orthogonalization leaves in place the nodes outside the polygon, the nodes with less than two edges and the corners.  A node with two
boundary edges ends on one of them, in their original positions (unless it gets the coordinate -999, which stands for a missing value). -/
theorem keeps_partial {M : Metric K} {sched : List Nat} {edges : List Edge} {adj : List (List Nat)} {numFaces : List Nat} {sharp : Nat → Nat → Nat → Bool}
    {inside : List Bool} {f : Factors K} {rounds : Nat} {ws : List (Weights K)} {nodes nodes' : List (Pt K)} {u : List (Nat × Pt K)}
    (hT : Tables edges adj numFaces nodes.length)
    (hf : ∀ (e : Nat) p, edges[e]? = some p → p.1 ≠ missing → p.2 ≠ missing → numFaces.getD e 0 ≠ 0)
    (hin : inside.length = nodes.length)
    (h : compute M sched edges adj numFaces sharp inside f rounds ws nodes = .ok (u, nodes')) :
    nodes'.length = nodes.length ∧
    (∀ n : Nat, inside[n]? = some false → nodes'[n]? = nodes[n]?) ∧
    (∀ (n : Nat) l, adj[n]? = some l → l.length < 2 → nodes'[n]? = nodes[n]?) ∧
    (∀ (n : Nat) l, adj[n]? = some l → boundaryOf numFaces l ≠ [] → l.length = 2 ∨ 2 < (boundaryOf numFaces l).length → nodes'[n]? = nodes[n]?) ∧
    (∀ (n : Nat) l e1 e2 p1 p2 p q1 q2, adj[n]? = some l → boundaryOf numFaces l = [e1, e2] → edges[e1]? = some p1 → edges[e2]? = some p2 →
      nodes[n]? = some p → nodes[otherNode p1 n]? = some q1 → nodes[otherNode p2 n]? = some q2 → q1.valid = true → q2.valid = true →
      squaredDistance M q1 p ≠ 0 → squaredDistance M q2 p ≠ 0 →
      ∃ p', nodes'[n]? = some p' ∧ (p'.valid = true → OnLine p' p q1 ∨ OnLine p' p q2)) := by
  unfold compute at h
  obtain ⟨types, t1, t2, t3⟩ := classify_ok hT hf sharp
  rw [t1, Res.ok_bind] at h
  unfold orthogonalize at h
  obtain ⟨u', _, h⟩ := Res.bind_eq_ok.1 h
  obtain ⟨z, hz, h⟩ := Res.bind_eq_ok.1 h
  obtain ⟨_, rfl⟩ := Prod.mk.inj (Res.ok.inj h)
  have hk := iterate_kept (M := M) (by show (flagOutside inside types).length = _; rw [flagOutside_length, t2]) (kept_refl M _ nodes) hz
  have hlt : ∀ (n : Nat) l, adj[n]? = some l → n < nodes.length := fun n l hl => by rw [← hT.len]; exact (List.getElem?_eq_some_iff.1 hl).1
  have houtside : ∀ n : Nat, inside[n]? = some false → z.nodes[n]? = nodes[n]? := by
    intro n hn
    have hn' : n < nodes.length := by rw [← hin]; exact (List.getElem?_eq_some_iff.1 hn).1
    have hty : ∀ t : Int, (flagOutside inside types)[n]? = some t → t = 3 := by
      intro t ht
      rw [flagOutside_get hn] at ht
      cases hx : types[n]? with
      | none => rw [hx] at ht; simp at ht
      | some x => rw [hx] at ht; simpa using ht.symm
    refine (hk.fixed n hn' ?_).2 ?_
    · intro t l ht _
      rw [hty t ht]; rfl
    · intro t ht
      rw [hty t ht]; decide
  have hsame : ∀ (n : Nat) l, adj[n]? = some l → expectedType numFaces l ≠ 2 → (expectedType numFaces l ≠ 1 ∨ l.length < 2) → z.nodes[n]? = nodes[n]? := by
    intro n l hl h2 h1
    have hn' := hlt n l hl
    cases hi : inside[n]? with
    | none => rw [List.getElem?_eq_none_iff] at hi; omega
    | some b =>
      cases b with
      | false => exact houtside n hi
      | true =>
        have hty : (flagOutside inside types)[n]? = some (expectedType numFaces l) := by
          rw [flagOutside_get hi, t3 n l hl]; rfl
        refine (hk.fixed n hn' ?_).2 ?_
        · intro t l' ht hl'
          simp only at ht hl'
          rw [hty] at ht
          rw [hl] at hl'
          obtain rfl := Option.some.inj ht
          obtain rfl := Option.some.inj hl'
          unfold movable
          rcases h1 with h1 | h1
          · simp [h1, h2]
          · rw [decide_eq_false (by omega), Bool.and_false]
        · intro t ht
          simp only at ht
          rw [hty] at ht
          obtain rfl := Option.some.inj ht
          exact h2
  have hcorner : ∀ (n : Nat) l, adj[n]? = some l → boundaryOf numFaces l ≠ [] → l.length = 2 ∨ 2 < (boundaryOf numFaces l).length → z.nodes[n]? = nodes[n]? := by
    intro n l hl hb hc
    have hb : (boundaryOf numFaces l).length ≠ 0 := fun hh => hb (List.length_eq_zero_iff.1 hh)
    have : expectedType numFaces l = -1 ∨ expectedType numFaces l = 3 := by
      unfold expectedType
      by_cases h2 : l.length < 2
      · left; rw [if_pos h2]
      · right; rw [if_neg h2, if_neg hb, if_pos hc]
    refine hsame n l hl ?_ (.inl ?_) <;> rcases this with h | h <;> rw [h] <;> decide
  refine ⟨hk.nodesLen, houtside, ?_, hcorner, ?_⟩
  · intro n l hl h2
    have : expectedType numFaces l = -1 := by unfold expectedType; rw [if_pos h2]
    exact hsame n l hl (by rw [this]; decide) (.inr h2)
  · intro n l e1 e2 p1 p2 p q1 q2 hl hb he1 he2 hp hq1 hq2 hv1 hv2 hd1 hd2
    have same : z.nodes[n]? = nodes[n]? → ∃ p', z.nodes[n]? = some p' ∧ (p'.valid = true → OnLine p' p q1 ∨ OnLine p' p q2) :=
      fun hh => ⟨p, by rw [hh, hp], fun _ => .inl ⟨0, le_refl _, zero_le_one, by simp⟩⟩
    cases hi : inside[n]? with
    | none => have := hlt n l hl; rw [List.getElem?_eq_none_iff] at hi; omega
    | some b =>
      cases b with
      | false => exact same (houtside n hi)
      | true =>
        by_cases h2 : l.length = 2
        · exact same (hcorner n l hl (by rw [hb]; simp) (.inl h2))
        · have hlen : 2 ≤ l.length := by
            have h1 : (boundaryOf numFaces l).length ≤ l.length := List.length_filter_le _ _
            rw [hb] at h1
            simpa using h1
          have hex : expectedType numFaces l = 2 := by
            unfold expectedType
            rw [if_neg (by omega), hb, if_neg (by simp), if_neg (by simp [h2])]
          refine hk.border n p q1 q2 ⟨?_, hp, ⟨l, e1, e2, p1, p2, hl, hb, he1, he2, hq1, hq2⟩, ⟨hv1, hv2⟩, hd1, hd2⟩
          show (flagOutside inside types)[n]? = some 2
          rw [flagOutside_get hi, t3 n l hl, hex]; rfl

/-- Undo puts back the nodes; redo gives the result again. -/
theorem undo_restores {M : Metric K} {sched : List Nat} {edges : List Edge} {adj : List (List Nat)} {numFaces : List Nat} {sharp : Nat → Nat → Nat → Bool}
    {inside : List Bool} {f : Factors K} {rounds : Nat} {ws : List (Weights K)} {nodes nodes' : List (Pt K)} {u : List (Nat × Pt K)}
    (hT : Tables edges adj numFaces nodes.length)
    (hf : ∀ (e : Nat) p, edges[e]? = some p → p.1 ≠ missing → p.2 ≠ missing → numFaces.getD e 0 ≠ 0)
    (hin : inside.length = nodes.length)
    (h : compute M sched edges adj numFaces sharp inside f rounds ws nodes = .ok (u, nodes')) :
    ∃ u', swap u nodes' = .ok (u', nodes) ∧ swap u' nodes = .ok (u, nodes') := by
  obtain ⟨k1, k2, _⟩ := keeps_partial hT hf hin h
  unfold compute at h
  obtain ⟨types, _, h⟩ := Res.bind_eq_ok.1 h
  unfold orthogonalize at h
  obtain ⟨u', hu, h⟩ := Res.bind_eq_ok.1 h
  obtain ⟨z, _, h⟩ := Res.bind_eq_ok.1 h
  obtain ⟨rfl, rfl⟩ := Prod.mk.inj (Res.ok.inj h)
  refine saved_swap hu (insideNodes_nodup inside) k1 ?_
  intro n hn
  rw [mem_insideNodes] at hn
  cases hi : inside[n]? with
  | none =>
    rw [List.getElem?_eq_none_iff] at hi
    rw [List.getElem?_eq_none (by omega), List.getElem?_eq_none (by omega)]
  | some b =>
    cases b with
    | false => exact k2 n hi
    | true => exact absurd hi hn

omit [IsStrictOrderedRing K] in
/-- The parallel loops may treat the nodes in any order: the outcome is the same. -/
theorem schedule_irrelevant {sched sched' : List Nat} (hp : sched.Perm sched') (hnd : sched.Nodup) (M : Metric K) (edges : List Edge) (adj : List (List Nat))
    (numFaces : List Nat) (sharp : Nat → Nat → Nat → Bool) (inside : List Bool) (f : Factors K) (rounds : Nat) (ws : List (Weights K)) (nodes : List (Pt K)) :
    compute M sched edges adj numFaces sharp inside f rounds ws nodes = compute M sched' edges adj numFaces sharp inside f rounds ws nodes := by
  unfold compute
  congr 1
  funext types
  unfold orthogonalize
  rw [iterate_perm hp hnd]

omit [IsStrictOrderedRing K] in
/-- Nothing is read or written out of bounds and nothing is thrown, if the weights are large enough. -/
theorem no_crash_partial {M : Metric K} {sched : List Nat} {edges : List Edge} {adj : List (List Nat)} {numFaces : List Nat} {sharp : Nat → Nat → Nat → Bool}
    {inside : List Bool} {f : Factors K} {rounds : Nat} {ws : List (Weights K)} {nodes : List (Pt K)}
    (hT : Tables edges adj numFaces nodes.length)
    (hf : ∀ (e : Nat) p, edges[e]? = some p → p.1 ≠ missing → p.2 ≠ missing → numFaces.getD e 0 ≠ 0)
    (hin : inside.length = nodes.length) (hsched : ∀ n ∈ sched, n < nodes.length)
    (hw : ∀ types, classify edges adj numFaces sharp nodes.length = .ok types →
      ∀ w ∈ ws, Shaped ⟨edges, adj, numFaces, flagOutside inside types⟩ w nodes.length) :
    ∃ u nodes', compute M sched edges adj numFaces sharp inside f rounds ws nodes = .ok (u, nodes') := by
  obtain ⟨types, t1, t2, _⟩ := classify_ok hT hf sharp
  obtain ⟨u, hu⟩ := saved_ok (ns := nodes) (moved := insideNodes inside) (by have := insideNodes_length inside; omega) (by
    intro i hi
    rw [mem_insideNodes] at hi
    have := (List.getElem?_eq_some_iff.1 hi).1
    omega)
  obtain ⟨z, hz⟩ := iterate_ok (net := ⟨edges, adj, numFaces, flagOutside inside types⟩) hT (by show (flagOutside inside types).length = _; rw [flagOutside_length, t2]) M f
    hsched rfl rounds (hw types t1) (z := ⟨nodes, nodes⟩) rfl rfl
  refine ⟨u, z.nodes, ?_⟩
  unfold compute
  rw [t1, Res.ok_bind]
  unfold orthogonalize
  rw [hu, Res.ok_bind, hz, Res.ok_bind]

/-! ## An example: four quadrilaterals -/

/-- `Tables` can be checked. -/
def tablesCheck (edges : List Edge) (adj : List (List Nat)) (numFaces : List Nat) (N : Nat) : Bool :=
  decide (N ≤ missing) && decide (adj.length = N) && decide (numFaces.length = edges.length) &&
  edges.all (fun p => decide (p.1 = missing ∨ p.2 = missing ∨ (p.1 < N ∧ p.2 < N ∧ p.1 ≠ p.2))) &&
  (List.range N).all (fun n => decide ((adj.getD n []).Nodup) && (adj.getD n []).all (fun e => decide (e < edges.length)) &&
    (List.range edges.length).all (fun e => decide (e ∈ adj.getD n []) == decide ((edges.getD e noEdge).1 ≠ missing ∧ (edges.getD e noEdge).2 ≠ missing ∧
      ((edges.getD e noEdge).1 = n ∨ (edges.getD e noEdge).2 = n))))

theorem tables_of_check {edges : List Edge} {adj : List (List Nat)} {numFaces : List Nat} {N : Nat} (h : tablesCheck edges adj numFaces N = true) :
    Tables edges adj numFaces N := by
  unfold tablesCheck at h
  simp only [Bool.and_eq_true, decide_eq_true_eq, List.all_eq_true, List.mem_range, beq_iff_eq] at h
  obtain ⟨⟨⟨⟨h1, h2⟩, h3⟩, h4⟩, h5⟩ := h
  have hget : ∀ (n : Nat) l, adj[n]? = some l → n < N ∧ adj.getD n [] = l := by
    intro n l hl
    refine ⟨by rw [← h2]; exact (List.getElem?_eq_some_iff.1 hl).1, ?_⟩
    rw [List.getD_eq_getElem?_getD, hl]; rfl
  refine ⟨h1, h2, h3, h4, ?_, ?_⟩
  · intro n l hl
    obtain ⟨hn, rfl⟩ := hget n l hl
    exact (h5 n hn).1.1
  · intro n l hl e
    obtain ⟨hn, rfl⟩ := hget n l hl
    obtain ⟨⟨_, a2⟩, a3⟩ := h5 n hn
    constructor
    · intro he
      have hlt := a2 e he
      have := a3 e hlt
      rw [decide_eq_true he] at this
      have := of_decide_eq_true this.symm
      rw [List.getD_eq_getElem?_getD, List.getElem?_eq_getElem hlt, Option.getD_some] at this
      exact ⟨edges[e], List.getElem?_eq_getElem hlt, this⟩
    · rintro ⟨p, p1, p2⟩
      have hlt := (List.getElem?_eq_some_iff.1 p1).1
      have := a3 e hlt
      have hg : edges.getD e noEdge = p := by rw [List.getD_eq_getElem?_getD, p1]; rfl
      rw [hg, decide_eq_true p2] at this
      exact of_decide_eq_true this

def exEdges : List Edge := [(0, 1), (1, 2), (3, 4), (4, 5), (6, 7), (7, 8), (0, 3), (1, 4), (2, 5), (3, 6), (4, 7), (5, 8)]
def exAdj : List (List Nat) := [[0, 6], [0, 1, 7], [1, 8], [2, 6, 9], [2, 3, 7, 10], [3, 8, 11], [4, 9], [4, 5, 10], [5, 11]]
def exNumFaces : List Nat := [1, 1, 2, 2, 1, 1, 1, 2, 1, 1, 2, 1]
def exNodes : List (Pt ℚ) := [⟨0, 0⟩, ⟨3 / 2, 0⟩, ⟨2, 0⟩, ⟨0, 1⟩, ⟨3 / 2, 4 / 3⟩, ⟨2, 1⟩, ⟨0, 2⟩, ⟨1, 2⟩, ⟨2, 2⟩]
/-- The last column is outside the polygon. -/
def exInside : List Bool := [true, true, false, true, true, false, true, true, false]
/-- Weights of the right sizes. -/
def exWeights : Weights ℚ where
  smooth := List.replicate 9 (List.replicate 9 0)
  connected := List.replicate 9 (List.range 9)
  numConnected := [4, 6, 4, 6, 9, 6, 4, 6, 4]
  orth := exAdj.map (fun l => l.map (fun _ => 1))
  rhs := List.replicate 9 (0, 0)

def exRun : List (Nat × Pt ℚ) × List (Pt ℚ) :=
  match compute cartesian (List.range 9) exEdges exAdj exNumFaces (fun _ _ _ => true) exInside ⟨1, 1⟩ 2 [exWeights, exWeights] exNodes with
  | .ok r => r
  | _ => ([], [])

theorem exTables : Tables exEdges exAdj exNumFaces exNodes.length := tables_of_check (by decide +kernel)

theorem exFaces : ∀ (e : Nat) p, exEdges[e]? = some p → p.1 ≠ missing → p.2 ≠ missing → exNumFaces.getD e 0 ≠ 0 := by
  intro e p hp _ _
  have := (List.getElem?_eq_some_iff.1 hp).1
  exact (by decide : ∀ e < exEdges.length, exNumFaces.getD e 0 ≠ 0) e this

/-- The hypotheses hold; node 4 moves and the boundary node 7 moves along the boundary. -/
example : compute cartesian (List.range 9) exEdges exAdj exNumFaces (fun _ _ _ => true) exInside ⟨1, 1⟩ 2 [exWeights, exWeights] exNodes = .ok exRun ∧
    exInside.length = exNodes.length ∧ exRun.2[4]? ≠ exNodes[4]? ∧ exRun.2[1]? ≠ exNodes[1]? ∧ exRun.2[5]? = exNodes[5]? ∧
    classify exEdges exAdj exNumFaces (fun _ _ _ => true) 9 = .ok [3, 2, 3, 2, 1, 2, 3, 2, 3] := by decide +kernel

/-- The conditions on a boundary node. -/
example : exAdj[1]? = some [0, 1, 7] ∧ boundaryOf exNumFaces [0, 1, 7] = [0, 1] ∧ squaredDistance cartesian (⟨0, 0⟩ : Pt ℚ) ⟨3 / 2, 0⟩ ≠ 0 ∧
    (exRun.2[1]?.map Pt.valid) = some true := by decide +kernel

/-- Undo. -/
example : (swap exRun.1 exRun.2 >>= fun r => .ok r.2) = .ok exNodes := by decide +kernel

/-- Another order of the nodes. -/
example : (List.range 9).Perm [8, 0, 7, 1, 6, 2, 5, 3, 4] ∧ (List.range 9).Nodup := by decide

/-- The weights fit. -/
example : ∀ types, classify exEdges exAdj exNumFaces (fun _ _ _ => true) 9 = .ok types →
    ∀ w ∈ [exWeights, exWeights], Shaped ⟨exEdges, exAdj, exNumFaces, flagOutside exInside types⟩ w exNodes.length := by
  intro types h w hw
  have hw : w = exWeights := by simpa using hw
  subst hw
  have key : ∀ n < 9, (∃ r, exWeights.orth[n]? = some r ∧ (exAdj.getD n []).length ≤ r.length) := by decide +kernel
  have cap : ∀ n < 9, max ((exAdj.getD n []).length + 1) (exWeights.numConnected.getD n 0) ≤ 9 := by decide +kernel
  have get : ∀ (n : Nat) l, exAdj[n]? = some l → n < 9 ∧ exAdj.getD n [] = l := by
    intro n l hl
    exact ⟨(List.getElem?_eq_some_iff.1 hl).1, by rw [List.getD_eq_getElem?_getD, hl]; rfl⟩
  have getc : ∀ (n c : Nat), exWeights.numConnected[n]? = some c → n < 9 ∧ exWeights.numConnected.getD n 0 = c := by
    intro n c hc
    exact ⟨(List.getElem?_eq_some_iff.1 hc).1, by rw [List.getD_eq_getElem?_getD, hc]; rfl⟩
  refine ⟨by decide, by decide, ?_, ?_, ?_⟩
  · intro n l hl
    obtain ⟨h1, rfl⟩ := get n l hl
    exact key n h1
  · intro n l c _ hl hc
    obtain ⟨h1, rfl⟩ := get n l hl
    obtain ⟨_, rfl⟩ := getc n c hc
    exact ⟨List.replicate 9 0, by show (List.replicate 9 (List.replicate 9 (0 : ℚ)))[n]? = _; rw [List.getElem?_replicate, if_pos h1], by
      rw [List.length_replicate]; exact cap n h1⟩
  · intro n c hc
    obtain ⟨h1, rfl⟩ := getc n c hc
    refine ⟨List.range 9, by show (List.replicate 9 (List.range 9))[n]? = _; rw [List.getElem?_replicate, if_pos h1], ?_, fun k hk => List.mem_range.1 hk⟩
    rw [List.length_range]
    exact Nat.le_trans (Nat.le_max_right _ _) (cap n h1)

/-! ## What fails -/

/-- The corners of a square cut along a diagonal: the corners at the ends of the diagonal have three edges and a right angle, and may move. -/
theorem square_corner_may_move : ∀ sharp, classify (Faces.runOf Faces.halves).1.edges (Faces.runOf Faces.halves).1.nodesEdges (Faces.runOf Faces.halves).2.numFaces sharp 4 =
    .ok [2, 3, 2, 3] := by
  intro sharp
  have h1 : Tables (Faces.runOf Faces.halves).1.edges (Faces.runOf Faces.halves).1.nodesEdges (Faces.runOf Faces.halves).2.numFaces 4 := tables_of_check (by decide +kernel)
  have h2 : (Faces.runOf Faces.halves).1.edges.length = 5 := by decide +kernel
  have h3 : ∀ e < 5, (Faces.runOf Faces.halves).2.numFaces.getD e 0 ≠ 0 := by decide +kernel
  rw [angles_ignored h1 (fun e p hp _ _ => h3 e (by have := (List.getElem?_eq_some_iff.1 hp).1; omega)) sharp (fun _ _ _ => true)]
  decide +kernel

/-- The square cut along a diagonal, with a hanging edge at two of its corners. -/
def hangingLast : Mesh Polygons.Pt where
  nodes := [some ⟨0, 0⟩, some ⟨2, 0⟩, some ⟨2, 2⟩, some ⟨0, 2⟩, some ⟨3, 0⟩, some ⟨0, 3⟩]
  edges := [(0, 1), (1, 2), (2, 3), (3, 0), (0, 2), (1, 4), (3, 5)]
  nodesEdges := []
  numEdges := []

/-- The same mesh with the edges in another order. -/
def hangingFirst : Mesh Polygons.Pt where
  nodes := hangingLast.nodes
  edges := [(1, 4), (3, 5), (0, 1), (1, 2), (2, 3), (3, 0), (0, 2)]
  nodesEdges := []
  numEdges := []

/-- The types of the nodes after administration. -/
def typesOf (m : Mesh Polygons.Pt) (sharp : Nat → Nat → Nat → Bool) : Res (List Int) :=
  classify (Faces.runOf m).1.edges (Faces.runOf m).1.nodesEdges (Faces.runOf m).2.numFaces sharp m.nodes.length

/-- The types depend on the order of the edges.  If hanging edges come first, the corners 0 and 2 of the square count as nodes inside the mesh
and are not kept on the boundary. -/
theorem types_depend_on_order : typesOf hangingLast (fun _ _ _ => false) = .ok [2, -1, 2, -1, -1, -1] ∧
    typesOf hangingFirst (fun _ _ _ => false) = .ok [1, -1, 1, -1, -1, -1] := by decide +kernel

/-- The example with two boundary nodes in the same place. -/
def doubleNodes : List (Pt ℚ) := exNodes.set 0 ⟨3 / 2, 0⟩

/-- Weights that leave all nodes where they are. -/
def noWeights : Weights ℚ := { exWeights with orth := exAdj.map (fun l => l.map (fun _ => 0)) }

/-- A boundary edge of length zero: its end gets missing coordinates, although nothing has to move. -/
theorem zero_edge_loses_node : (compute cartesian (List.range 9) exEdges exAdj exNumFaces (fun _ _ _ => true) exInside ⟨1, 1⟩ 1 [noWeights] doubleNodes >>=
    fun r => .ok r.2[1]?) = .ok (some Pt.missing) ∧ doubleNodes[1]? = some ⟨3 / 2, 0⟩ := by decide +kernel

/-- Without the edge of length zero all nodes stay in place. -/
example : (compute cartesian (List.range 9) exEdges exAdj exNumFaces (fun _ _ _ => true) exInside ⟨1, 1⟩ 1 [noWeights] exNodes >>=
    fun r => .ok r.2) = .ok exNodes := by decide +kernel

/-- On the sphere, the point of a boundary edge across the antimeridian nearest to a point on it is on the other side of the earth: the point
between 179 and 181 degrees nearest to 179.5 degrees is at 89.5 degrees. -/
theorem antimeridian_snaps_far (cos : ℚ → ℚ) (h0 : cos 0 = 1) :
    (distanceFromLine (spherical cos 1) (⟨359 / 2, 0⟩ : Pt ℚ) ⟨179, 0⟩ ⟨-179, 0⟩).map Prod.snd = some ⟨179 / 2, 0⟩ := by
  have e0 : cos ((0 + 0) / 2) = 1 := by norm_num [h0]
  have v1 : (⟨179, 0⟩ : Pt ℚ).valid = true := by decide +kernel
  have v2 : (⟨-179, 0⟩ : Pt ℚ).valid = true := by decide +kernel
  have w1 : wrapped (⟨-179, 0⟩ : Pt ℚ) ⟨179, 0⟩ = 181 := by decide +kernel
  have w2 : wrapped (⟨179, 0⟩ : Pt ℚ) ⟨359 / 2, 0⟩ = 179 := by decide +kernel
  have w3 : wrapped (⟨179, 0⟩ : Pt ℚ) ⟨-179, 0⟩ = -181 := by decide +kernel
  have q1 : onPole (⟨-179, 0⟩ : Pt ℚ) = false := by decide +kernel
  have q2 : onPole (⟨179, 0⟩ : Pt ℚ) = false := by decide +kernel
  have q3 : onPole (⟨359 / 2, 0⟩ : Pt ℚ) = false := by decide +kernel
  have hsq : squaredDistance (spherical cos 1) (⟨-179, 0⟩ : Pt ℚ) ⟨179, 0⟩ = 4 := by
    simp only [squaredDistance, v1, v2, spherical, q1, q2, w1, e0]
    norm_num
  unfold distanceFromLine
  simp only [hsq]
  rw [if_neg (by norm_num)]
  simp only [Option.map_some, spherical, q1, q2, q3, w2, w3, e0]
  norm_num

end Verif.Ortho
