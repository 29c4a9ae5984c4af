import Verif.Move.Model
import Mathlib.Tactic.Linarith
import Mathlib.Tactic.Ring
import Mathlib.Tactic.FieldSimp
import Mathlib.Data.List.Nodup
/-!
# Lemmas about moving a node
-/
namespace Verif.Move
variable {K : Type} [Field K] [LinearOrder K]

/-- What happens to one node. -/
def moved (w : K → K) (delta : Pos K → Pos K → Option (K × K)) (old : Pos K) (v : K × K) (p : Pos K) : Pos K :=
  match displacement w delta old v p with
  | none => p
  | some d => p.shift d

theorem applyAll_displacements (w : K → K) (delta : Pos K → Pos K → Option (K × K)) (old : Pos K) (v : K × K) :
    ∀ (post pre : List (Pos K)), applyAll (displacements w delta old v pre.length post) (pre ++ post) =
      .ok (pre ++ post.map (moved w delta old v)) := by
  intro post
  induction post with
  | nil => intro pre; simp [displacements, applyAll]
  | cons p ps ih =>
    intro pre
    have ih' := ih (pre ++ [moved w delta old v p])
    simp only [List.length_append, List.length_cons, List.length_nil, Nat.zero_add, List.append_assoc, List.singleton_append] at ih'
    unfold displacements
    cases hd : displacement w delta old v p with
    | none =>
      have hm : moved w delta old v p = p := by unfold moved; rw [hd]
      rw [hm] at ih'
      simp only [ih', List.map_cons, hm]
    | some d =>
      have hm : moved w delta old v p = p.shift d := by unfold moved; rw [hd]
      rw [hm] at ih'
      simp only [applyAll]
      have hg : vget (pre ++ p :: ps) pre.length = .ok p := by rw [vget_eq_ok]; simp
      have hs : vset (pre ++ p :: ps) pre.length (p.shift d) = .ok (pre ++ p.shift d :: ps) := by
        rw [vset_eq_ok]; simp
      rw [hg, Res.ok_bind, hs, Res.ok_bind, ih']
      simp [hm]

theorem displacements_keys (w : K → K) (delta : Pos K → Pos K → Option (K × K)) (old : Pos K) (v : K × K) :
    ∀ (ps : List (Pos K)) (i : Nat), ((displacements w delta old v i ps).map Prod.fst).Nodup ∧
      (∀ k ∈ (displacements w delta old v i ps).map Prod.fst, i ≤ k ∧ k < i + ps.length) ∧
      (displacements w delta old v i ps).length ≤ ps.length ∧
      ∀ k, k < ps.length → (i + k) ∉ (displacements w delta old v i ps).map Prod.fst →
        (ps[k]?).map (moved w delta old v) = ps[k]? := by
  intro ps
  induction ps with
  | nil => intro i; simp [displacements]
  | cons p ps ih =>
    intro i
    obtain ⟨h1, h2, h3, h4⟩ := ih (i + 1)
    unfold displacements
    cases hd : displacement w delta old v p with
    | none =>
      refine ⟨h1, ?_, by simp only [List.length_cons]; omega, ?_⟩
      · intro k hk
        have := h2 k hk
        simp only [List.length_cons]; omega
      · intro k hk hn
        cases k with
        | zero => simp [moved, hd]
        | succ k =>
          simp only [List.getElem?_cons_succ]
          refine h4 k (by simpa using hk) ?_
          have e : i + (k + 1) = i + 1 + k := by omega
          rw [e] at hn; exact hn
    | some d =>
      refine ⟨?_, ?_, by simp only [List.length_cons]; omega, ?_⟩
      · simp only [List.map_cons, List.nodup_cons]
        refine ⟨fun hm => ?_, h1⟩
        have := h2 i hm
        omega
      · intro k hk
        simp only [List.map_cons, List.mem_cons] at hk
        simp only [List.length_cons]
        rcases hk with rfl | hk
        · omega
        · have := h2 k hk
          omega
      · intro k hk hn
        simp only [List.map_cons, List.mem_cons, not_or] at hn
        cases k with
        | zero => exact absurd rfl hn.1
        | succ k =>
          simp only [List.getElem?_cons_succ]
          refine h4 k (by simpa using hk) ?_
          have e : i + (k + 1) = i + 1 + k := by omega
          rw [e] at hn; exact hn.2

/-- Node `k`. -/
def val (ns : List (Pos K)) (k : Nat) : Pos K := (ns[k]?).getD .nan

omit [Field K] [LinearOrder K] in
theorem vget_val {ns : List (Pos K)} {k : Nat} (h : k < ns.length) : vget ns k = .ok (val ns k) := by
  rw [vget_eq_ok]; simp [val, h]

omit [Field K] [LinearOrder K] in
theorem ext_val {a b : List (Pos K)} (hl : a.length = b.length) (h : ∀ k, k < a.length → val a k = val b k) : a = b := by
  refine List.ext_getElem hl fun k h1 h2 => ?_
  have := h k h1
  simpa [val, h1, h2] using this

omit [Field K] [LinearOrder K] in
theorem pick_ok (ns : List (Pos K)) : ∀ is : List Nat, (∀ i ∈ is, i < ns.length) →
    pick ns is = .ok (is.map (fun i => (i, val ns i))) := by
  intro is
  induction is with
  | nil => intro _; rfl
  | cons i is ih =>
    intro h
    simp only [pick]
    rw [vget_val (h i (by simp)), Res.ok_bind, ih (fun k hk => h k (List.mem_cons_of_mem _ hk)), Res.ok_bind]
    rfl

omit [Field K] [LinearOrder K] in
theorem val_set {ns : List (Pos K)} {i j : Nat} {p : Pos K} (h : i < ns.length) :
    val (ns.set i p) j = if j = i then p else val ns j := by
  unfold val
  rw [List.getElem?_set]
  by_cases hj : j = i
  · subst hj; simp [h]
  · rw [if_neg (fun c => hj c.symm), if_neg hj]

omit [Field K] [LinearOrder K] in
theorem swapLoop_ok (f : Nat → Pos K) : ∀ (keys : List Nat) (ns : List (Pos K)), keys.Nodup → (∀ i ∈ keys, i < ns.length) →
    ∃ ns2, swapLoop (keys.map (fun i => (i, f i))) ns = .ok (keys.map (fun i => (i, val ns i)), ns2) ∧
      ns2.length = ns.length ∧ ∀ j, val ns2 j = if j ∈ keys then f j else val ns j := by
  intro keys
  induction keys with
  | nil => intro ns _ _; exact ⟨ns, rfl, rfl, by simp⟩
  | cons i is ih =>
    intro ns hnd hlt
    have hi := hlt i (by simp)
    rw [List.nodup_cons] at hnd
    obtain ⟨ns2, h1, h2, h3⟩ := ih (ns.set i (f i)) hnd.2 (fun k hk => by
      rw [List.length_set]; exact hlt k (List.mem_cons_of_mem _ hk))
    refine ⟨ns2, ?_, by rw [h2, List.length_set], ?_⟩
    · simp only [List.map_cons, swapLoop]
      rw [vget_val hi, Res.ok_bind, vset_ok _ hi, Res.ok_bind, h1, Res.ok_bind]
      simp only [Res.ok.injEq, Prod.mk.injEq, and_true, List.cons.injEq, true_and]
      refine List.map_congr_left fun k hk => ?_
      rw [val_set hi, if_neg]
      rintro rfl
      exact hnd.1 hk
    · intro j
      rw [h3, val_set hi]
      by_cases hji : j = i
      · subst hji; simp [hnd.1]
      · simp [hji]

omit [Field K] [LinearOrder K] in
/-- Saving covers the changed nodes: undo gives the old nodes and redo the new ones. -/
theorem saved_swap {ns ns1 : List (Pos K)} {keys : List Nat} (hnd : keys.Nodup) (hlt : ∀ i ∈ keys, i < ns.length)
    (hlen : keys.length ≤ ns.length) (hl : ns1.length = ns.length)
    (hs : ∀ k, k < ns.length → k ∉ keys → val ns1 k = val ns k) :
    ∃ s s', saved ns keys = .ok s ∧ swap s ns1 = .ok (s', ns) ∧ swap s' ns = .ok (s, ns1) := by
  have main : ∀ ks : List Nat, ks.Nodup → (∀ i ∈ ks, i < ns.length) → ks.length ≤ ns.length →
      (∀ k, k < ns.length → k ∉ ks → val ns1 k = val ns k) →
      pick ns ks = .ok (ks.map fun i => (i, val ns i)) ∧
      swap (ks.map fun i => (i, val ns i)) ns1 = .ok (ks.map fun i => (i, val ns1 i), ns) ∧
      swap (ks.map fun i => (i, val ns1 i)) ns = .ok (ks.map fun i => (i, val ns i), ns1) := by
    intro ks h1 h2 h3 h4
    refine ⟨pick_ok ns ks h2, ?_, ?_⟩
    · obtain ⟨n2, q1, q2, q3⟩ := swapLoop_ok (val ns) ks ns1 h1 (fun i hi => by rw [hl]; exact h2 i hi)
      unfold swap
      rw [if_neg (by rw [List.length_map, hl]; omega), q1]
      have : n2 = ns := by
        refine ext_val (by rw [q2, hl]) fun k hk => ?_
        rw [q3]
        split
        · rfl
        · next hn => exact h4 k (by rw [q2, hl] at hk; exact hk) hn
      rw [this]
    · obtain ⟨n2, q1, q2, q3⟩ := swapLoop_ok (val ns1) ks ns h1 h2
      unfold swap
      rw [if_neg (by rw [List.length_map]; omega), q1]
      have : n2 = ns1 := by
        refine ext_val (by rw [q2, hl]) fun k hk => ?_
        rw [q3]
        split
        · rfl
        · next hn => exact (h4 k (by rw [q2] at hk; exact hk) hn).symm
      rw [this]
  unfold saved
  rw [if_neg (by omega)]
  split
  · obtain ⟨a, b, c⟩ := main (List.range ns.length) List.nodup_range (fun i hi => List.mem_range.1 hi)
      (by simp) (fun k hk hn => absurd (List.mem_range.2 hk) hn)
    exact ⟨_, _, a, b, c⟩
  · obtain ⟨a, b, c⟩ := main keys hnd hlt hlen hs
    exact ⟨_, _, a, b, c⟩

/-- `moveNode` moves every node by its displacement; the action it returns undoes and redoes that. -/
theorem moveNode_spec (w : K → K) (delta : Pos K → Pos K → Option (K × K)) (ns : List (Pos K)) (new : Pos K) {i : Nat}
    (hi : i < ns.length) :
    ∃ s s' ns1, moveNode w delta ns new i = .ok (s, ns1) ∧
      ns1 = (match delta (val ns i) new with
        | none => ns
        | some v => ns.map (moved w delta (val ns i) v)) ∧
      swap s ns1 = .ok (s', ns) ∧ swap s' ns = .ok (s, ns1) := by
  unfold moveNode
  rw [if_neg (by omega), vget_val hi, Res.ok_bind]
  cases hv : delta (val ns i) new with
  | none =>
    obtain ⟨s, s', h1, h2, h3⟩ := saved_swap (ns := ns) (ns1 := ns) (keys := []) (by simp) (by simp) (by simp) rfl
      (fun _ _ _ => rfl)
    refine ⟨s, s', ns, ?_, rfl, h2, h3⟩
    simp only [List.map_nil, h1, Res.ok_bind, applyAll]
  | some v =>
    have ha := applyAll_displacements w delta (val ns i) v ns []
    simp only [List.length_nil, List.nil_append] at ha
    obtain ⟨k1, k2, k3, k4⟩ := displacements_keys w delta (val ns i) v ns 0
    obtain ⟨s, s', h1, h2, h3⟩ := saved_swap (ns := ns) (ns1 := ns.map (moved w delta (val ns i) v)) k1
      (fun k hk => by have := (k2 k hk).2; omega) (by simpa using k3) (by simp)
      (fun k hk hn => by
        have := k4 k hk (by rw [Nat.zero_add]; exact hn)
        unfold val at this ⊢
        rw [List.getElem?_map, this])
    refine ⟨s, s', _, ?_, rfl, h2, h3⟩
    simp only [h1, Res.ok_bind, ha]

end Verif.Move
