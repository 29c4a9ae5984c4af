import Verif.InsertEdge.Lemmas
import Verif.Cache.Props
import Mathlib.Data.Rat.Floor
/-!
# C75: inserting an edge between two points
-/
namespace Verif.InsertEdge
open Verif.Mesh Verif.Cache
variable {P B K : Type} [Field K] [LinearOrder K] [IsStrictOrderedRing K]

/-- How far a node may be away to be reused: one per cent of the new edge and of the shortest of the stored lengths. -/
theorem radius_exact (dist : P → P → K) (lengths : List K) (p q : P) :
    radius dist lengths p q * 100 ≤ dist p q ∧ (∀ l ∈ lengths, radius dist lengths p q * 100 ≤ l) ∧
    (radius dist lengths p q * 100 = dist p q ∨ ∃ l ∈ lengths, radius dist lengths p q * 100 = l) := by
  have e : radius dist lengths p q * 100 = min (dist p q) (minLength (dist p q) lengths) := by
    unfold radius
    rw [min_mul_of_nonneg _ _ (by norm_num : (0 : K) ≤ 100)]
    congr 1 <;> (rw [mul_assoc]; norm_num)
  rw [e]
  cases lengths with
  | nil => simp [minLength]
  | cons a l =>
    obtain ⟨h1, h2, h3⟩ := foldl_min_le a l
    simp only [minLength]
    refine ⟨min_le_left _ _, ?_, ?_⟩
    · intro x hx
      rcases List.mem_cons.1 hx with rfl | hx
      · exact (min_le_right _ _).trans h1
      · exact (min_le_right _ _).trans (h2 x hx)
    · rcases min_choice (dist p q) (l.foldl min a) with h | h
      · exact Or.inl h
      · right
        rcases h3 with h3 | h3
        · exact ⟨a, by simp, by rw [h, h3]⟩
        · exact ⟨_, List.mem_cons_of_mem _ h3, h⟩

/-- The call is refused exactly when the points coincide, or one of the stored lengths is not positive, or all nodes have
been deleted. -/
theorem refused_iff {g : Geo P B} {whole : B} {close : List (P × Nat) → P → K → Option Nat} {dist : P → P → K}
    (hw : Whole g whole) (hcl : CloseOk close dist) {s : Cached P B} (hc : Current g whole s) (w : Tidy s.mesh)
    (hn : s.mesh.nodes.length + 2 ≤ missing) (he : s.mesh.edges.length < missing) (lengths : List K) (p q : P) :
    insertEdge g whole close dist lengths s p q = .throw ↔
      dist p q ≤ 0 ∨ (∃ l ∈ lengths, l ≤ 0) ∨ (s.mesh.nodes ≠ [] ∧ ∀ i x, ¬ NodeIs s.mesh i x) := by
  obtain ⟨r1, r2, r3⟩ := radius_exact dist lengths p q
  unfold insertEdge
  by_cases hr : radius dist lengths p q ≤ 0
  · rw [if_pos hr]
    refine iff_of_true rfl ?_
    rcases r3 with h | ⟨l, hl, h⟩
    · left; rw [← h]; linarith
    · right; left; exact ⟨l, hl, by rw [← h]; linarith⟩
  · rw [if_neg hr]
    have hp : 0 < radius dist lengths p q := not_le.1 hr
    obtain ⟨s0, h1, h2, h3⟩ := buildNodes hc
    rw [h1, Res.ok_bind]
    by_cases hs : Searchable s.mesh
    · constructor
      · intro h
        exfalso
        rw [← h2] at hs w hn he
        obtain ⟨i, as, s1, a1, a2, a3⟩ := firstEnd_ok hw hcl h3.current hs (by omega) p (radius dist lengths p q)
        obtain ⟨t1, t2, t3, t4, t5, -, -, t6, -⟩ := a3.tidy w (by omega)
        obtain ⟨j, bs, s2, b1, b2, b3⟩ := secondEnd_ok hw hcl a2.current t6 (by omega) q (radius dist lengths p q)
        obtain ⟨u1, u2, u3, u4, u5, -, -, u6, -⟩ := b3.tidy t1 (by omega)
        obtain ⟨s3, c1, c2, c3⟩ := buildEdges (g := g) (whole := whole) u1
        rw [a1, Res.ok_bind] at h
        simp only at h
        rw [b1, Res.ok_bind] at h
        simp only at h
        rw [c1, Res.ok_bind] at h
        rw [← c2] at u1 u2 u5 u3
        rcases connect_ok u1 (by rw [u5, t5]; omega) (a := i) (b := j) (by omega) u2 with ⟨-, hk⟩ | ⟨-, hk⟩ <;>
          (rw [hk, Res.ok_bind] at h; cases h)
      · intro h
        exfalso
        rcases h with h | ⟨l, hl, h⟩ | ⟨h, h'⟩
        · linarith
        · have := r2 l hl; linarith
        · rcases hs with hs | ⟨i, x, hx⟩
          · exact h hs
          · exact h' i x hx
    · have hnn : s.mesh.nodes ≠ [] := fun h => hs (Or.inl h)
      have hno : ∀ i x, ¬ NodeIs s.mesh i x := fun i x hx => hs (Or.inr ⟨i, x, hx⟩)
      refine iff_of_true ?_ (Or.inr (Or.inr ⟨hnn, hno⟩))
      have hf : firstEnd g whole close s0 p (radius dist lengths p q) = .throw := by
        unfold firstEnd nearNode
        rw [if_neg (by rw [h2]; simpa using hnn)]
        obtain ⟨s1, q1, q2, q3⟩ := buildNodes (s := s0) h3.current
        rw [q1, Res.ok_bind]
        have : s1.nodesTree = [] := by
          rw [List.eq_nil_iff_forall_not_mem]
          rintro ⟨x, i⟩ hx
          rw [q3, q2, h2] at hx
          exact hno i x (mem_buildPoints.1 hx).1
        rw [this]
        rfl
      rw [hf]
      rfl

/-- C75: the ends of the new edge are the nodes closest to the points, if they are close enough, and otherwise new nodes
at the points.  The two ends are different.  If no edge between the two is in the list of the first one, an edge is
added; nothing else changes, the three indices are right and the step is recorded: undoing it gives the contents
before, redoing it those after.  If such an edge is listed, the call changes nothing, records nothing and reports no
edge.  The lists stay usable, so this describes any number of calls one after the other. -/
theorem insert_edge_exact {g : Geo P B} {whole : B} {close : List (P × Nat) → P → K → Option Nat} {dist : P → P → K}
    (hw : Whole g whole) (hcl : CloseOk close dist) (htri : Triangle dist) (hself : ∀ x, dist x x = 0) {s : Cached P B}
    (hc : Current g whole s) (w : Tidy s.mesh) (hs : s.mesh.nodes = [] ∨ ∃ i x, NodeIs s.mesh i x)
    (hn : s.mesh.nodes.length + 2 ≤ missing) (he : s.mesh.edges.length < missing) (lengths : List K)
    (hl : ∀ l ∈ lengths, 0 < l) (p q : P) (hpq : 0 < dist p q) :
    ∃ o, insertEdge g whole close dist lengths s p q = .ok o ∧
      EndAt dist s.mesh o.state.mesh p (radius dist lengths p q) o.first ∧
      EndAt dist s.mesh o.state.mesh q (radius dist lengths p q) o.second ∧ o.first ≠ o.second ∧
      o.state.mesh.nodes = s.mesh.nodes ++ (if o.first < s.mesh.nodes.length then [] else [some p]) ++
        (if o.second < s.mesh.nodes.length then [] else [some q]) ∧
      Current g whole o.state ∧ Tidy o.state.mesh ∧ (∀ n, listAt o.state.mesh n = listAt s.mesh n) ∧
      (Known s.mesh o.first o.second → o.edge = missing ∧ o.recorded = none ∧ o.state.mesh = s.mesh) ∧
      (¬ Known s.mesh o.first o.second → o.edge = s.mesh.edges.length ∧
        o.state.mesh.edges = s.mesh.edges ++ [(o.first, o.second)] ∧
        ∃ as, o.recorded = some as ∧ ∃ bs m1,
          Undo.restoreAll (meshSem P) (committed as) (.ok o.state.mesh) = (bs, .ok m1) ∧ content m1 = content s.mesh ∧
          ∃ cs m2, Undo.commitAll (meshSem P) bs (.ok m1) = (cs, .ok m2) ∧ content m2 = content o.state.mesh) := by
  obtain ⟨r1, r2, r3⟩ := radius_exact dist lengths p q
  have hr : 0 < radius dist lengths p q := by
    rcases r3 with h | ⟨l, hl', h⟩
    · linarith
    · have := hl l hl'; linarith
  have hcount : s.mesh.numEdges.length = s.mesh.nodes.length := by rw [w.counts, List.length_map, w.lists]
  unfold insertEdge
  rw [if_neg (not_le.2 hr)]
  generalize radius dist lengths p q = r at *
  obtain ⟨s0, h1, h2, h3⟩ := buildNodes hc
  rw [h1, Res.ok_bind]
  rw [← h2] at w hs hn he hcount ⊢
  obtain ⟨i, as, s1, a1, a2, a3⟩ := firstEnd_ok hw hcl h3.current hs (by omega) p r
  obtain ⟨t1, t2, t3, t4, t5, t7, t8, t6, t9, x, tx, tx'⟩ := a3.tidy w (by omega)
  obtain ⟨j, bs, s2, b1, b2, b3⟩ := secondEnd_ok hw hcl a2.current t6 (by omega) q r
  obtain ⟨u1, u2, u3, u4, u5, u7, u8, u6, u9, y, uy, uy'⟩ := b3.tidy t1 (by omega)
  obtain ⟨s3, c1, c2, c3⟩ := buildEdges (g := g) (whole := whole) u1
  replace c3 := c3 b2
  rw [hself, max_eq_left hr.le] at tx' uy'
  have hxy : i ≠ j := by
    rintro rfl
    have hy : NodeIs s2.mesh i x := by
      unfold NodeIs at tx ⊢
      rw [u7, List.getElem?_append_left t2, tx]
    have : x = y := by
      unfold NodeIs at hy uy
      rw [hy] at uy
      simpa using uy
    subst this
    have := htri p q x
    linarith
  -- the node found for the second point is an old one
  have hj : j < s1.mesh.nodes.length → j < s0.mesh.nodes.length := by
    intro hj
    rcases a3 with ⟨-, -, q1, -⟩ | ⟨q1, -, q2, -⟩
    · rw [q1] at hj; exact hj
    · rw [q2, insertNode_nodes] at hj
      simp at hj
      omega
  have hend1 : ∀ m', m'.nodes = s2.mesh.nodes → EndAt dist s0.mesh m' p r i := by
    intro m' hm'
    rcases a3 with ⟨q1, q2, -, -⟩ | ⟨q1, q2, q3, -⟩
    · exact Or.inl ⟨q1, q2⟩
    · refine Or.inr ⟨by omega, q2, ?_⟩
      unfold NodeIs
      rw [hm', u7, List.getElem?_append_left t2, q3, insertNode_nodes, q1]
      simp
  have hold : ∀ k z, NodeIs s0.mesh k z → NodeIs s1.mesh k z := by
    intro k z hk
    unfold NodeIs at hk ⊢
    rw [t7, List.getElem?_append_left (List.getElem?_eq_some_iff.1 hk).1, hk]
  have hend2 : ∀ m', m'.nodes = s2.mesh.nodes → EndAt dist s0.mesh m' q r j := by
    intro m' hm'
    rcases b3 with ⟨q1, ⟨z, z1, z2, z3⟩, -, -⟩ | ⟨q1, q2, q3, -⟩
    · refine Or.inl ⟨hj q1, z, ?_, z2, fun k v hk => z3 k v (hold k v hk)⟩
      unfold NodeIs at z1 ⊢
      rw [t7, List.getElem?_append_left (hj q1)] at z1
      exact z1
    · refine Or.inr ⟨by omega, fun k v hk => q2 k v (hold k v hk), ?_⟩
      unfold NodeIs
      rw [hm', q3, insertNode_nodes, q1]
      simp
  have hnodes : s2.mesh.nodes = s0.mesh.nodes ++ (if i < s0.mesh.nodes.length then [] else [some p]) ++
      (if j < s0.mesh.nodes.length then [] else [some q]) := by
    have e : (if j < s1.mesh.nodes.length then [] else [some q]) = (if j < s0.mesh.nodes.length then [] else [some q]) := by
      by_cases hjj : j < s0.mesh.nodes.length
      · rw [if_pos hjj, if_pos (by omega)]
      · rw [if_neg hjj, if_neg (fun h => hjj (hj h))]
    rw [u7, e, t7]
  have hlists : ∀ n, listAt s2.mesh n = listAt s0.mesh n := fun n => (u8 n).trans (t8 n)
  have hedges : s2.mesh.edges = s0.mesh.edges := u5.trans t5
  have hedgeAt : ∀ k, edgeAt s2.mesh k = edgeAt s0.mesh k := fun k => by unfold edgeAt; rw [hedges]
  have hknown : Known s2.mesh i j ↔ Known s0.mesh i j := by
    unfold Known
    simp only [hlists, hedgeAt]
  have hunch : Known s0.mesh i j → s2.mesh = s0.mesh := by
    rintro ⟨k, hk, hk'⟩
    have hb := w.bounds k
    have hij : i < s0.mesh.nodes.length ∧ j < s0.mesh.nodes.length := by
      rcases hb with hb | hb
      · rw [hb] at hk'
        have := w.nodesFit
        simp [joins, noEdge] at hk'
        omega
      · rcases hk' with h | h
        · rw [h] at hb; exact hb
        · rw [h] at hb; exact ⟨hb.2, hb.1⟩
    have e1 : s1.mesh = s0.mesh := by
      rcases a3 with ⟨-, -, q1, -⟩ | ⟨q1, -⟩
      · exact q1
      · omega
    rcases b3 with ⟨-, -, q1, -⟩ | ⟨q1, -⟩
    · rw [q1, e1]
    · rw [e1] at q1; omega
  rw [a1, Res.ok_bind]
  simp only
  rw [b1, Res.ok_bind]
  simp only
  rw [c1, Res.ok_bind]
  have v1 : Tidy s3.mesh := by rw [c2]; exact u1
  rcases connect_ok v1 (by rw [c2, hedges]; omega) (a := i) (b := j) (by rw [c2]; omega) (by rw [c2]; exact u2) with ⟨hk, hko⟩ | ⟨hk, hko⟩
  · rw [c2, hknown] at hk
    rw [hko, Res.ok_bind]
    refine ⟨_, rfl, hend1 _ (by simp only [c2]), hend2 _ (by simp only [c2]), hxy, by simp only [c2]; exact hnodes, c3.current, v1, ?_, ?_, ?_⟩
    · simp only [c2]; exact hlists
    · intro _
      simp only [if_true, c2]
      exact ⟨trivial, trivial, hunch hk⟩
    · intro h; exact absurd hk h
  · rw [c2, hknown] at hk
    rw [hko, Res.ok_bind]
    refine ⟨_, rfl, hend1 _ (by simp only [c2]), hend2 _ (by simp only [c2]), hxy, by simp only [c2]; exact hnodes, ?_, ?_, ?_, ?_, ?_⟩
    · exact Ready.current c3
    · exact v1.addEdge (by rw [c2, hedges]; omega) (by rw [c2]; omega) (by rw [c2]; exact u2)
    · simp only [c2]; exact hlists
    · intro h; exact absurd h hk
    · intro _
      refine ⟨by simp only [c2, hedges], by simp only [c2, hedges], as ++ bs ++ [.addEdge s3.mesh.edges.length (i, j)], ?_, ?_⟩
      · simp only
        rw [if_neg (by rw [c2, hedges]; omega)]
      · have hg : Good s3.mesh [.addEdge s3.mesh.edges.length (i, j)] { s3.mesh with edges := s3.mesh.edges ++ [(i, j)] } := by
          apply connectNodesU_good (s := i) (t := j)
          rcases findEdge_tidy v1 (a := i) (b := j) (by rw [c2]; omega) (by rw [c2]; exact u2) with ⟨hf, -⟩ | ⟨k, k1, k2, k3, k4⟩
          · simp [connectNodesU, hf]
          · exact absurd (hknown.1 (by rw [← c2]; exact ⟨k, k4, k3⟩)) hk
        have hgg : Good s0.mesh (as ++ bs ++ [.addEdge s3.mesh.edges.length (i, j)]) { s3.mesh with edges := s3.mesh.edges ++ [(i, j)] } := by
          refine (t9.trans u9).trans ?_
          rw [← c2]
          exact hg
        exact hgg.undo_redo hcount

/-- In a mesh whose lists name all edges, an edge is known when there is one: an existing edge is never drawn again. -/
theorem known_iff {m : Mesh P} (w : WF m) {a b : Nat} (ha : a < m.nodes.length) : Known m a b ↔ ∃ i, joins (edgeAt m i) a b := by
  constructor
  · rintro ⟨i, -, h⟩
    exact ⟨i, h⟩
  · rintro ⟨i, h⟩
    refine ⟨i, w.complete i a ?_ ?_, h⟩
    · intro h0
      rw [h0] at h
      have := w.nodesFit
      simp [joins, noEdge] at h
      omega
    · rcases h with h | h <;> rw [h] <;> simp [touches]

/-! ### A concrete plane -/

/-- A distance with rational values: the sum of the differences of the coordinates. -/
def walk (p q : ℚ × ℚ) : ℚ := |p.1 - q.1| + |p.2 - q.2|

/-- The entry with the least distance, the first of equal ones. -/
def best (p : ℚ × ℚ) : List ((ℚ × ℚ) × Nat) → Option ((ℚ × ℚ) × Nat)
  | [] => none
  | v :: t => match best p t with
    | none => some v
    | some w => if walk p v.1 ≤ walk p w.1 then some v else some w

/-- The entry with the least distance, if it is not too far away. -/
def closeBy (t : List ((ℚ × ℚ) × Nat)) (p : ℚ × ℚ) (r : ℚ) : Option Nat :=
  match best p t with
  | none => none
  | some v => if walk p v.1 ≤ r then some v.2 else none

theorem best_spec (p : ℚ × ℚ) : ∀ t : List ((ℚ × ℚ) × Nat), (best p t = none ∧ t = []) ∨
    ∃ v ∈ t, best p t = some v ∧ ∀ w ∈ t, walk p v.1 ≤ walk p w.1 := by
  intro t
  induction t with
  | nil => exact Or.inl ⟨rfl, rfl⟩
  | cons v t ih =>
    right
    rcases ih with ⟨h, rfl⟩ | ⟨w, hw, h1, h2⟩
    · exact ⟨v, by simp, by simp [best], by simp⟩
    · by_cases hc : walk p v.1 ≤ walk p w.1
      · refine ⟨v, by simp, by rw [best, h1]; simp [hc], ?_⟩
        intro x hx
        rcases List.mem_cons.1 hx with rfl | hx
        · exact le_refl _
        · exact le_trans hc (h2 x hx)
      · refine ⟨w, List.mem_cons_of_mem _ hw, by rw [best, h1]; simp [hc], ?_⟩
        intro x hx
        rcases List.mem_cons.1 hx with rfl | hx
        · exact le_of_lt (not_le.1 hc)
        · exact h2 x hx

theorem closeBy_ok : CloseOk closeBy walk := by
  intro t p r
  unfold closeBy
  rcases best_spec p t with ⟨h, rfl⟩ | ⟨v, hv, h1, h2⟩
  · simp [h]
  · rw [h1]
    simp only
    split
    · rename_i hr
      refine ⟨?_, by intro h; cases h⟩
      intro i hi
      simp only [Option.some.injEq] at hi
      subst hi
      exact ⟨v.1, hv, hr, h2⟩
    · rename_i hr
      refine ⟨(by intro i h; cases h), ?_⟩
      intro _ w hw
      exact le_trans (le_of_lt (not_le.1 hr)) (h2 w hw)

theorem walk_triangle : Triangle walk := by
  intro p q x
  unfold walk
  have h1 := abs_sub_le p.1 x.1 q.1
  have h2 := abs_sub_le p.2 x.2 q.2
  rw [abs_sub_comm x.1 q.1] at h1
  rw [abs_sub_comm x.2 q.2] at h2
  linarith

/-- The plane without faces. -/
abbrev flat : Geo (ℚ × ℚ) (Option (ℚ × ℚ)) := plane fun _ => []

theorem flat_whole : Whole flat none := ⟨fun _ => rfl, rfl⟩

/-- Three nodes, two of them joined. -/
def three : Mesh (ℚ × ℚ) := ⟨[some (0, 0), some (10, 0), some (0, 10)], [(0, 1)], [[0], [0], []], [1, 1, 0]⟩

theorem three_tidy : Tidy three := by
  refine ⟨by decide, by decide, ?_, rfl, rfl, ?_⟩
  · intro i
    match i with
    | 0 => exact Or.inr (by decide)
    | i + 1 => exact Or.inl rfl
  · intro n i hi
    match n with
    | 0 =>
      have : i = 0 := by simpa [listAt, three] using hi
      subst this; exact ⟨by decide, Or.inr (by simp [edgeAt, three, touches])⟩
    | 1 =>
      have : i = 0 := by simpa [listAt, three] using hi
      subst this; exact ⟨by decide, Or.inr (by simp [edgeAt, three, touches])⟩
    | 2 => exact absurd hi (by simp [listAt, three])
    | n + 3 => exact absurd hi (by simp [listAt, three])

/-- The hypotheses are met by three nodes in a plane. -/
example : ∃ o, insertEdge flat none closeBy walk [10] (fresh three none) (0, 1 / 20) (20, 0) = .ok o ∧
    EndAt walk three o.state.mesh (20, 0) (radius walk [10] (0, 1 / 20) (20, 0)) o.second := by
  obtain ⟨o, h1, -, h2, -⟩ := insert_edge_exact (s := fresh three none) flat_whole closeBy_ok walk_triangle (by intro x; simp [walk])
    (fun h => by cases h) three_tidy (Or.inr ⟨0, (0, 0), rfl⟩) (by decide) (by decide) [10] (by simp) (0, 1 / 20) (20, 0)
    (by decide +kernel)
  exact ⟨o, h1, h2⟩

/-- The indices, nodes and edges after a call. -/
structure Shown where
  first : Nat
  second : Nat
  edge : Nat
  nodes : List (Option (ℚ × ℚ))
  edges : List Edge
  deriving DecidableEq

/-- What a call shows. -/
def shown (r : Res (Out (ℚ × ℚ) (Option (ℚ × ℚ)))) : Option Shown :=
  match r with
  | .ok o => some ⟨o.first, o.second, o.edge, o.state.mesh.nodes, o.state.mesh.edges⟩
  | _ => none

/-- And this is what comes out: node 0 is reused, node 3 is new. -/
example : shown (insertEdge flat none closeBy walk [10] (fresh three none) (0, 1 / 20) (20, 0)) =
    some ⟨0, 3, 1, three.nodes ++ [some (20, 0)], [(0, 1), (0, 3)]⟩ := by decide +kernel

/-- An edge that is there already. -/
example : shown (insertEdge flat none closeBy walk [10] (fresh three none) (10, 0) (0, 0)) =
    some ⟨1, 0, missing, three.nodes, [(0, 1)]⟩ := by decide +kernel

end Verif.InsertEdge
