import Verif.Mesh.CompactLemmas
import Verif.Mesh.MergeLemmas
/-!
# Lemmas about the node-edge administration
-/
namespace Verif.Mesh
variable {P : Type}

/-- Edge `i` of a list; beyond the end a deleted edge. -/
def eAt (edges : List Edge) (i : Nat) : Edge := (edges[i]?).getD noEdge

instance (e : Edge) (n : Nat) : Decidable (touches e n) := by unfold touches; infer_instance
instance (e : Edge) (x y : Nat) : Decidable (joins e x y) := by unfold joins; infer_instance

/-- The edges among the first `k` that touch node `n`, in ascending order. -/
def incidentUpTo (edges : List Edge) (n k : Nat) : List Nat :=
  (List.range k).filter (fun i => decide (touches (eAt edges i) n))

theorem incidentUpTo_succ (edges : List Edge) (n k : Nat) :
    incidentUpTo edges n (k + 1) = incidentUpTo edges n k ++ (if touches (eAt edges k) n then [k] else []) := by
  unfold incidentUpTo
  rw [List.range_succ, List.filter_append]
  congr 1
  by_cases h : touches (eAt edges k) n <;> simp [h]

theorem incidentUpTo_mono (edges : List Edge) (n : Nat) {k l : Nat} (h : k ≤ l) :
    (incidentUpTo edges n k).length ≤ (incidentUpTo edges n l).length := by
  induction l with
  | zero => have : k = 0 := by omega
            subst this; exact Nat.le_refl _
  | succ l ih =>
    by_cases hk : k = l + 1
    · subst hk; exact Nat.le_refl _
    · have := ih (by omega)
      rw [incidentUpTo_succ, List.length_append]
      omega

theorem pushEdge_get (adj : List (List Nat)) {n : Nat} (e k : Nat) (hn : n < adj.length) :
    (pushEdge adj n e)[k]?.getD [] = if k = n then (adj[n]?.getD []) ++ [e] else adj[k]?.getD [] := by
  unfold pushEdge
  by_cases h : k = n
  · subst h; simp [hn]
  · simp [Ne.symm h, h]

theorem pushEdge_length (adj : List (List Nat)) (n e : Nat) : (pushEdge adj n e).length = adj.length := by
  simp [pushEdge]

structure AdminPre (edges : List Edge) (N : Nat) : Prop where
  fit : N ≤ missing
  bounds : ∀ i, eAt edges i = noEdge ∨ ((eAt edges i).1 < N ∧ (eAt edges i).2 < N)
  noLoop : ∀ i, eAt edges i ≠ noEdge → (eAt edges i).1 ≠ (eAt edges i).2
  noDup : ∀ i j, i ≠ j → eAt edges i ≠ noEdge → ¬ joins (eAt edges j) (eAt edges i).1 (eAt edges i).2
  degree : ∀ n, n < N → (incidentUpTo edges n edges.length).length ≤ maxEdgesPerNode

theorem alreadyAdded_false {edges : List Edge} {N : Nat} (h : AdminPre edges N) {k a b : Nat}
    (hk : joins (eAt edges k) a b) (hne : eAt edges k ≠ noEdge) :
    alreadyAdded edges (incidentUpTo edges a k) b = false := by
  unfold alreadyAdded
  rw [List.any_eq_false]
  intro i hi
  rw [incidentUpTo, List.mem_filter] at hi
  have hik : i < k := by simpa using hi.1
  have hit : touches (eAt edges i) a := by simpa using hi.2
  cases he : edges[i]? with
  | none => simp
  | some c =>
    have hc : eAt edges i = c := by simp [eAt, he]
    have hl := h.noLoop k hne
    simp only [Bool.or_eq_true, beq_iff_eq]
    intro hb
    apply h.noDup k i (by omega) hne
    rw [hc] at hit ⊢
    simp only [touches, joins, Prod.ext_iff] at *
    omega

theorem adminStep_ok {edges : List Edge} {N : Nat} (h : AdminPre edges N) {k : Nat} (hk : k < edges.length)
    {adj : List (List Nat)} (hlen : adj.length = N)
    (hadj : ∀ n, n < N → adj[n]?.getD [] = incidentUpTo edges n k) :
    (adminStep edges adj k).length = N ∧
      ∀ n, n < N → (adminStep edges adj k)[n]?.getD [] = incidentUpTo edges n (k + 1) := by
  have he : edges[k]? = some (eAt edges k) := by simp [eAt, hk]
  unfold adminStep
  rw [he]
  generalize hek : eAt edges k = e
  obtain ⟨a, b⟩ := e
  simp only
  cases h.bounds k with
  | inl hno =>
    rw [hek] at hno
    simp only [noEdge, Prod.mk.injEq] at hno
    rw [if_pos (Or.inl hno.1)]
    refine ⟨hlen, ?_⟩
    intro n hn
    rw [hadj n hn, incidentUpTo_succ]
    have hf := h.fit
    have : ¬ touches (eAt edges k) n := by
      rw [hek]; simp only [touches]; omega
    simp [this]
  | inr hb =>
    rw [hek] at hb
    simp only at hb
    have hf := h.fit
    have hne : eAt edges k ≠ noEdge := by
      rw [hek]; simp only [noEdge, ne_eq, Prod.mk.injEq]; omega
    have hab : a ≠ b := by have := h.noLoop k hne; rw [hek] at this; exact this
    rw [if_neg (by omega)]
    have hcap : ∀ n, n < N → touches (eAt edges k) n → (incidentUpTo edges n k).length < maxEdgesPerNode := by
      intro n hn ht
      have h1 := incidentUpTo_mono edges n (show k + 1 ≤ edges.length from hk)
      have h2 := h.degree n hn
      rw [incidentUpTo_succ, if_pos ht, List.length_append] at h1
      simp at h1
      omega
    have ta : touches (eAt edges k) a := by rw [hek]; exact Or.inl rfl
    have tb : touches (eAt edges k) b := by rw [hek]; exact Or.inr rfl
    have ca := hcap a hb.1 ta
    have cb := hcap b hb.2 tb
    rw [hadj a hb.1, hadj b hb.2, if_neg (by omega)]
    have j1 : joins (eAt edges k) a b := by rw [hek]; exact Or.inl rfl
    have j2 : joins (eAt edges k) b a := joins_comm.1 j1
    rw [alreadyAdded_false h j1 hne]
    simp only [Bool.false_eq_true, if_false]
    have g1 : (pushEdge adj a k)[b]?.getD [] = incidentUpTo edges b k := by
      rw [pushEdge_get adj k b (by omega), if_neg (Ne.symm hab), hadj b hb.2]
    rw [g1, alreadyAdded_false h j2 hne]
    simp only [Bool.false_eq_true, if_false]
    refine ⟨by rw [pushEdge_length, pushEdge_length, hlen], ?_⟩
    intro n hn
    rw [pushEdge_get _ k n (by rw [pushEdge_length]; omega), g1, pushEdge_get adj k n (by omega), hadj a hb.1,
      hadj n hn, incidentUpTo_succ]
    by_cases h1 : n = b
    · subst h1; simp [tb]
    · by_cases h2 : n = a
      · subst h2; simp [h1, ta]
      · have : ¬ touches (eAt edges k) n := by
          rw [hek]; simp only [touches]; omega
        simp [h1, h2, this]

theorem nodeAdministration_ok {edges : List Edge} {N : Nat} (h : AdminPre edges N) :
    (nodeAdministration edges N).length = N ∧
      ∀ n, n < N → (nodeAdministration edges N)[n]?.getD [] = incidentUpTo edges n edges.length := by
  have : ∀ k, k ≤ edges.length →
      ((List.range k).foldl (adminStep edges) (List.replicate N [])).length = N ∧
      ∀ n, n < N → ((List.range k).foldl (adminStep edges) (List.replicate N []))[n]?.getD [] = incidentUpTo edges n k := by
    intro k
    induction k with
    | zero =>
      intro _
      refine ⟨by simp, ?_⟩
      intro n hn
      simp [incidentUpTo, hn]
    | succ k ih =>
      intro hk
      obtain ⟨i1, i2⟩ := ih (by omega)
      rw [List.range_succ, List.foldl_append]
      exact adminStep_ok h (by omega) i1 i2
  exact this edges.length (Nat.le_refl _)

/-- Result of `SetUnConnectedNodesAndEdgesToInvalid`. -/
theorem setUnconnectedInvalid_ok {m : Mesh P} (hn : m.nodes.length ≤ missing) (hb : inBounds m = true) :
    ∃ m1, setUnconnectedInvalid m = .ok m1 ∧ m1.nodes = connectedNodes m ∧
      m1.edges.length = m.edges.length ∧
      ∀ i, edgeAt m1 i = if (seg m.nodes (edgeAt m i)).isSome then edgeAt m i else noEdge := by
  have segNo : seg m.nodes noEdge = none := by
    have : m.nodes[missing]? = none := by simp; omega
    simp [seg, noEdge, this]
  unfold setUnconnectedInvalid
  simp only [hb, Bool.not_true, Bool.false_eq_true, if_false]
  split
  · rename_i hc
    refine ⟨_, rfl, rfl, rfl, ?_⟩
    intro i
    show edgeAt m i = _
    cases hi : m.edges[i]? with
    | none => simp [edgeAt, hi]
    | some e =>
      have he : e ∈ m.edges := List.mem_of_getElem? hi
      have hz := hc.1
      unfold numInvalidEdges at hz
      rw [List.countP_eq_zero] at hz
      have := hz e he
      rw [validEdge_iff_seg hn] at this
      have hea : edgeAt m i = e := by simp [edgeAt, hi]
      rw [hea]
      cases hs : seg m.nodes e with
      | none => simp [hs] at this
      | some _ => simp
  · refine ⟨_, rfl, rfl, by simp, ?_⟩
    intro i
    unfold edgeAt
    simp only [List.getElem?_map]
    cases hi : m.edges[i]? with
    | none => simp [segNo]
    | some e =>
      have he : e ∈ m.edges := List.mem_of_getElem? hi
      simp only [Option.map_some, Option.getD_some]
      rw [validEdge_iff_seg (by rw [connectedNodes_length]; exact hn), seg_connectedNodes hn he]

end Verif.Mesh
