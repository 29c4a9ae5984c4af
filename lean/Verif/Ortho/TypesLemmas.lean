import Verif.Ortho.Spec
import Mathlib.Data.List.Nodup
import Mathlib.Tactic.Linarith
/-!
# Lemmas on the types of the nodes
-/
namespace Verif.Ortho
open Verif.Mesh

/-- The boundary edges among the first `k` that end at `n`. -/
def endsUpTo (edges : List Edge) (numFaces : List Nat) (n k : Nat) : List Nat :=
  (List.range k).filter (fun e => decide (numFaces.getD e 0 = 1) && (decide ((edges.getD e noEdge).1 ≠ missing) && (decide ((edges.getD e noEdge).2 ≠ missing) &&
    (decide ((edges.getD e noEdge).1 = n) || decide ((edges.getD e noEdge).2 = n)))))

theorem endsUpTo_succ (edges : List Edge) (numFaces : List Nat) (n k : Nat) :
    (endsUpTo edges numFaces n (k + 1)).length = (endsUpTo edges numFaces n k).length +
      if numFaces.getD k 0 = 1 ∧ (edges.getD k noEdge).1 ≠ missing ∧ (edges.getD k noEdge).2 ≠ missing ∧
        ((edges.getD k noEdge).1 = n ∨ (edges.getD k noEdge).2 = n) then 1 else 0 := by
  unfold endsUpTo
  rw [List.range_succ, List.filter_append, List.length_append]
  congr 1
  by_cases h : numFaces.getD k 0 = 1 ∧ (edges.getD k noEdge).1 ≠ missing ∧ (edges.getD k noEdge).2 ≠ missing ∧
        ((edges.getD k noEdge).1 = n ∨ (edges.getD k noEdge).2 = n)
  · rw [if_pos h]
    have : (decide (numFaces.getD k 0 = 1) && (decide ((edges.getD k noEdge).1 ≠ missing) && (decide ((edges.getD k noEdge).2 ≠ missing) &&
      (decide ((edges.getD k noEdge).1 = n) || decide ((edges.getD k noEdge).2 = n))))) = true := by
      simp only [Bool.and_eq_true, Bool.or_eq_true, decide_eq_true_eq]; exact h
    rw [List.filter_cons, if_pos this]; rfl
  · rw [if_neg h]
    have : ¬ (decide (numFaces.getD k 0 = 1) && (decide ((edges.getD k noEdge).1 ≠ missing) && (decide ((edges.getD k noEdge).2 ≠ missing) &&
      (decide ((edges.getD k noEdge).1 = n) || decide ((edges.getD k noEdge).2 = n))))) = true := by
      simp only [Bool.and_eq_true, Bool.or_eq_true, decide_eq_true_eq]; exact h
    rw [List.filter_cons, if_neg this]; rfl

theorem endsUpTo_eq {edges : List Edge} {adj : List (List Nat)} {numFaces : List Nat} {N : Nat} (h : Tables edges adj numFaces N) {n : Nat} {l : List Nat}
    (hl : adj[n]? = some l) : (endsUpTo edges numFaces n edges.length).length = (boundaryOf numFaces l).length := by
  apply List.Perm.length_eq
  refine (List.perm_ext_iff_of_nodup (List.nodup_range.filter _) ((h.nodup n l hl).filter _)).2 ?_
  intro e
  simp only [List.mem_filter, List.mem_range, Bool.and_eq_true, Bool.or_eq_true, decide_eq_true_eq, beq_iff_eq]
  rw [h.mem n l hl e]
  constructor
  · rintro ⟨h1, h2, h3⟩
    simp only [List.getD_eq_getElem?_getD, List.getElem?_eq_getElem h1, Option.getD_some] at h3
    exact ⟨⟨_, List.getElem?_eq_getElem h1, h3⟩, h2⟩
  · rintro ⟨⟨p, h1, h2⟩, h3⟩
    refine ⟨(List.getElem?_eq_some_iff.1 h1).1, h3, ?_⟩
    simp only [List.getD_eq_getElem?_getD, h1, Option.getD_some]
    exact h2

/-- After `k` edges, each type is the number of boundary edges met. -/
def Counted (edges : List Edge) (numFaces : List Nat) (N k : Nat) (types : List Int) : Prop :=
  types.length = N ∧ ∀ n, n < N → types[n]? = some ((endsUpTo edges numFaces n k).length : Int)

theorem classifyEdge_ok {edges : List Edge} {adj : List (List Nat)} {numFaces : List Nat} {N : Nat} (h : Tables edges adj numFaces N)
    (hf : ∀ (e : Nat) p, edges[e]? = some p → p.1 ≠ missing → p.2 ≠ missing → numFaces.getD e 0 ≠ 0) {k : Nat} (hk : k < edges.length) {types : List Int}
    (hc : Counted edges numFaces N k types) : ∃ t', classifyEdge edges numFaces k types = .ok t' ∧ Counted edges numFaces N (k + 1) t' := by
  obtain ⟨h1, h2⟩ := hc
  have hp : edges[k]? = some edges[k] := List.getElem?_eq_getElem hk
  have hD : edges.getD k noEdge = edges[k] := by simp [hk]
  unfold classifyEdge
  rw [vget_eq_ok.2 hp, Res.ok_bind]
  by_cases hm : edges[k].1 = missing ∨ edges[k].2 = missing
  · rw [if_pos hm]
    refine ⟨types, rfl, h1, ?_⟩
    intro n hn
    rw [h2 n hn, endsUpTo_succ, if_neg]
    · rfl
    · rw [hD]
      rintro ⟨_, q1, q2, _⟩
      rcases hm with hm | hm
      · exact q1 hm
      · exact q2 hm
  · rw [if_neg hm]
    rw [not_or] at hm
    rcases h.valid _ (List.getElem_mem hk) with hv | hv | ⟨v1, v2, v3⟩
    · exact absurd hv hm.1
    · exact absurd hv hm.2
    rw [vget_eq_ok.2 (h2 _ v1), Res.ok_bind, vget_eq_ok.2 (h2 _ v2), Res.ok_bind, if_neg (by omega)]
    have hkf : k < numFaces.length := by rw [h.numFaces]; exact hk
    have hFD : numFaces.getD k 0 = numFaces[k] := by simp [hkf]
    rw [vget_ok hkf, Res.ok_bind]
    have h0 := hf k _ hp hm.1 hm.2
    rw [hFD] at h0
    rw [if_neg h0]
    by_cases hb : numFaces[k] = 1
    · rw [if_pos hb]
      unfold bump
      rw [vget_eq_ok.2 (h2 _ v1), Res.ok_bind, vset_ok _ (by omega), Res.ok_bind]
      have : (types.set edges[k].1 (((endsUpTo edges numFaces edges[k].1 k).length : Int) + 1))[edges[k].2]? =
          some ((endsUpTo edges numFaces edges[k].2 k).length : Int) := by
        rw [List.getElem?_set_ne v3]; exact h2 _ v2
      rw [vget_eq_ok.2 this, Res.ok_bind, vset_ok _ (by simp; omega)]
      refine ⟨_, rfl, by simp [h1], ?_⟩
      intro n hn
      rw [endsUpTo_succ, hD, hFD]
      by_cases e2 : edges[k].2 = n
      · subst e2
        rw [List.getElem?_set_self (by simp; omega), if_pos ⟨hb, hm.1, hm.2, Or.inr rfl⟩]
        push_cast; rfl
      · rw [List.getElem?_set_ne e2]
        by_cases e1 : edges[k].1 = n
        · subst e1
          rw [List.getElem?_set_self (by omega), if_pos ⟨hb, hm.1, hm.2, Or.inl rfl⟩]
          push_cast; rfl
        · rw [List.getElem?_set_ne e1, h2 n hn, if_neg]
          · rfl
          · rintro ⟨_, _, _, q⟩
            rcases q with q | q
            · exact e1 q
            · exact e2 q
    · rw [if_neg hb]
      refine ⟨types, rfl, h1, ?_⟩
      intro n hn
      rw [h2 n hn, endsUpTo_succ, if_neg]
      · rfl
      · rw [hFD]; rintro ⟨q, _⟩; exact hb q

/-- The first node found is never stored, as `missing` is not 0. -/
theorem boundaryEnds_first {edges : List Edge} {numFaces : List Nat} {n : Nat} (l : List Nat) {s : Nat} (h1 : ∀ e ∈ l, e < numFaces.length)
    (h2 : ∀ e ∈ l, e < edges.length) : ∃ s', boundaryEnds edges numFaces n l missing s = .ok (missing, s') := by
  induction l with
  | nil => exact ⟨s, rfl⟩
  | cons e l ih =>
    simp only [boundaryEnds]
    rw [vget_ok (h1 e List.mem_cons_self), Res.ok_bind]
    by_cases hc : numFaces[e]'(h1 e List.mem_cons_self) ≠ 1
    · rw [if_pos hc]
      exact ih (fun e he => h1 e (List.mem_cons_of_mem _ he)) (fun e he => h2 e (List.mem_cons_of_mem _ he))
    · rw [if_neg hc, vget_ok (h2 e List.mem_cons_self), Res.ok_bind, if_neg (by decide)]
      exact ⟨_, rfl⟩

theorem refineType_ok {edges : List Edge} {adj : List (List Nat)} {numFaces : List Nat} {N : Nat} (h : Tables edges adj numFaces N) (sharp : Nat → Nat → Nat → Bool)
    {n : Nat} {l : List Nat} (hl : adj[n]? = some l) :
    ∃ t, refineType edges numFaces sharp n l ((boundaryOf numFaces l).length : Int) = .ok t ∧
      (if l.length < 2 then -1 else t) = expectedType numFaces l := by
  unfold refineType expectedType
  have hle : ∀ e ∈ l, e < edges.length := by
    intro e he
    obtain ⟨p, hp, _⟩ := (h.mem n l hl e).1 he
    exact (List.getElem?_eq_some_iff.1 hp).1
  by_cases h12 : ((boundaryOf numFaces l).length : Int) = 1 ∨ ((boundaryOf numFaces l).length : Int) = 2
  · rw [if_pos h12]
    have h0 : ¬ (boundaryOf numFaces l).length = 0 := by omega
    by_cases h2 : l.length = 2
    · rw [if_pos h2]
      refine ⟨3, rfl, ?_⟩
      rw [if_neg (by omega), if_neg (by omega), if_neg h0, if_pos (Or.inl h2)]
    · rw [if_neg h2]
      obtain ⟨s, hs⟩ := boundaryEnds_first (edges := edges) (numFaces := numFaces) (n := n) l (s := missing) (fun e he => by rw [h.numFaces]; exact hle e he) hle
      rw [hs, Res.ok_bind, if_neg (by simp)]
      refine ⟨2, rfl, ?_⟩
      by_cases hlt : l.length < 2
      · rw [if_pos hlt, if_pos hlt]
      · rw [if_neg hlt, if_neg hlt, if_neg h0, if_neg (by omega)]
  · rw [if_neg h12]
    by_cases h3 : ((boundaryOf numFaces l).length : Int) > 2
    · rw [if_pos h3]
      refine ⟨3, rfl, ?_⟩
      by_cases hlt : l.length < 2
      · rw [if_pos hlt, if_pos hlt]
      · rw [if_neg hlt, if_neg hlt, if_neg (by omega), if_pos (Or.inr (by omega))]
    · rw [if_neg h3, if_pos (by omega)]
      refine ⟨1, rfl, ?_⟩
      have h0 : (boundaryOf numFaces l).length = 0 := by omega
      by_cases hlt : l.length < 2
      · rw [if_pos hlt, if_pos hlt]
      · rw [if_neg hlt, if_neg hlt, if_pos h0]

theorem classify_ok {edges : List Edge} {adj : List (List Nat)} {numFaces : List Nat} {N : Nat} (h : Tables edges adj numFaces N)
    (hf : ∀ (e : Nat) p, edges[e]? = some p → p.1 ≠ missing → p.2 ≠ missing → numFaces.getD e 0 ≠ 0) (sharp : Nat → Nat → Nat → Bool) :
    ∃ types, classify edges adj numFaces sharp N = .ok types ∧ types.length = N ∧
      ∀ (n : Nat) l, adj[n]? = some l → types[n]? = some (expectedType numFaces l) := by
  obtain ⟨t1, a1, a2, a3⟩ := forRange_inv (f := classifyEdge edges numFaces) (Counted edges numFaces N) (Nat.zero_le edges.length)
    (s := List.replicate N 0) ⟨by simp, by intro n hn; simp [hn, endsUpTo]⟩ (fun i t _ hi hc => classifyEdge_ok h hf hi hc)
  obtain ⟨t2, b1, b2, b3, b4⟩ := forRange_inv (f := classifyNode edges adj numFaces sharp)
    (fun k (t : List Int) => t.length = N ∧ (∀ n, k ≤ n → n < N → t[n]? = t1[n]?) ∧
      ∀ (n : Nat) l, n < k → adj[n]? = some l → t[n]? = some (expectedType numFaces l)) (Nat.zero_le N) (s := t1)
    ⟨a2, fun n _ _ => rfl, fun n l hn => absurd hn (Nat.not_lt_zero _)⟩ (by
      rintro i t _ hi ⟨c1, c2, c3⟩
      have hlen : i < adj.length := by rw [h.len]; exact hi
      have hl : adj[i]? = some adj[i] := List.getElem?_eq_getElem hlen
      have ht : t[i]? = some ((boundaryOf numFaces adj[i]).length : Int) := by
        rw [c2 i (Nat.le_refl _) hi, a3 i hi, endsUpTo_eq h hl]
      obtain ⟨q, r1, r2⟩ := refineType_ok h sharp hl
      unfold classifyNode
      rw [vget_eq_ok.2 ht, Res.ok_bind, vget_eq_ok.2 hl, Res.ok_bind, r1, Res.ok_bind, vset_ok _ (by omega)]
      refine ⟨_, rfl, by simp [c1], ?_, ?_⟩
      · intro n h1 h2
        rw [List.getElem?_set_ne (by omega)]
        exact c2 n (by omega) h2
      · intro n l h1 h2
        by_cases hn : n = i
        · subst hn
          rw [h2] at hl
          obtain rfl := Option.some.inj hl
          rw [List.getElem?_set_self (by omega), r2]
        · rw [List.getElem?_set_ne (by omega)]
          exact c3 n l (by omega) h2)
  refine ⟨t2, ?_, b2, ?_⟩
  · unfold classify
    rw [a1, Res.ok_bind, b1]
  · intro n l hl
    exact b4 n l (by rw [← h.len]; exact (List.getElem?_eq_some_iff.1 hl).1) hl

end Verif.Ortho
