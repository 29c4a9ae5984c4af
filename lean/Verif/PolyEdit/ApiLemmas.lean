import Verif.PolyEdit.Lemmas
/-!
# Lemmas about the API loops
-/
namespace Verif.PolyEdit
open Verif.Polygons

/-! ## Copying -/

theorem putFrom_ok (ps l : List Pt) (c : Nat) (h : c + ps.length ≤ l.length) :
    putFrom ps c l = .ok (l.take c ++ ps ++ l.drop (c + ps.length)) := by
  induction ps generalizing l c with
  | nil => simp [putFrom]
  | cons v vs ih =>
    rw [List.length_cons] at h
    rw [putFrom, vset_ok v (by omega), Res.ok_bind, ih _ _ (by simp; omega)]
    congr 1
    have e1 : List.take (c + 1) (l.set c v) = l.take c ++ [v] := by
      rw [List.take_add_one, List.getElem?_set_self (by omega), List.take_set_of_le (by omega)]
      rfl
    have e2 : List.drop (c + 1 + vs.length) (l.set c v) = l.drop (c + (vs.length + 1)) := by
      rw [List.drop_set_of_lt (by omega)]
      congr 1
      omega
    rw [e1, e2, List.length_cons]
    simp

theorem vset_out {α : Type} {l : List α} {i : Nat} (a : α) (h : l.length ≤ i) : vset l i a = .ub := by
  unfold vset
  rw [if_neg (by omega)]

theorem vget_out {α : Type} {l : List α} {i : Nat} (h : l.length ≤ i) : vget l i = .ub := by
  unfold vget
  rw [List.getElem?_eq_none (by omega)]

theorem copyBack_ok {snapped : List Pt} : ∀ (k i : Nat) (l : List Pt), i + k ≤ snapped.length → i + k ≤ l.length →
    copyBack snapped i k l = .ok (l.take i ++ ((snapped.take (i + k)).drop i) ++ l.drop (i + k))
  | 0, i, l, h1, h2 => by
    rw [copyBack]
    congr 1
    simp
  | k + 1, i, l, h1, h2 => by
    rw [copyBack, vget_ok (by omega), Res.ok_bind, vset_ok _ (by omega), Res.ok_bind, copyBack_ok k (i + 1) _ (by omega) (by simp; omega)]
    congr 1
    rw [show i + 1 + k = i + (k + 1) by omega]
    rw [List.take_add_one, List.getElem?_set_self (by omega), List.take_set_of_le (by omega), List.drop_set_of_lt (by omega)]
    have : (snapped.take (i + (k + 1))).drop i = snapped[i] :: (snapped.take (i + (k + 1))).drop (i + 1) := by
      rw [List.drop_eq_getElem_cons (by simp; omega), List.getElem_take]
    rw [this]
    simp

theorem copyBack_ub {snapped : List Pt} : ∀ (k i : Nat) (l : List Pt), i ≤ snapped.length → snapped.length < i + k →
    copyBack snapped i k l = .ub
  | 0, i, _, h1, h2 => by omega
  | k + 1, i, l, h1, h2 => by
    rw [copyBack]
    by_cases hi : i < snapped.length
    · rw [vget_ok hi, Res.ok_bind]
      by_cases ho : i < l.length
      · rw [vset_ok _ ho, Res.ok_bind]
        exact copyBack_ub k (i + 1) _ (by omega) (by omega)
      · rw [vset_out _ (by omega)]
        rfl
    · rw [vget_out (by omega)]
      rfl

/-! ## Points handed in -/

theorem withoutRepeats_eq (p : Pt) (l : List Pt) (h : NoRepeats (p :: l)) : withoutRepeats p l = l := by
  induction l generalizing p with
  | nil => rfl
  | cons q l ih =>
    rw [withoutRepeats, if_neg (by rw [h 0 p q rfl rfl]; simp)]
    rw [ih q (fun k a b ha hb => h (k + 1) a b (by rw [List.getElem?_cons_succ]; exact ha) (by rw [List.getElem?_cons_succ]; exact hb))]

theorem pointVector_eq {l : List Pt} (h : NoRepeats l) : pointVector l = l := by
  cases l with
  | nil => rfl
  | cons p l => rw [pointVector, withoutRepeats_eq p l h]

/-! ## Offsets -/

theorem computeOffset_ok (len : Vec ℚ → ℚ) (d : ℚ) (both : Bool) {r : List Pt} (h : 2 ≤ r.length) :
    ∃ out back, computeOffset len d both r = .ok (if both then out ++ outerSep :: back else out) ∧ out.length = r.length ∧ back.length = r.length := by
  unfold computeOffset
  rw [normals_ok len (by rw [List.length_map]; exact h), Res.ok_bind]
  refine ⟨_, _, rfl, ?_, ?_⟩
  · rw [List.length_map, moved_length _ (corners_length _ _ _ _), List.length_map]
  · rw [List.length_map, moved_length _ (corners_length _ _ _ _), List.length_map]

theorem enclosuresLoop_ub (len : Vec ℚ → ℚ) (d : ℚ) (es : List Enclosure) (h : ∀ e ∈ es, ∀ r ∈ e.outer :: e.inner, 2 ≤ r.length) (inner : Nat)
    (l : List Pt) (hl : inner + (es.map fun e => e.outer.length).sum ≤ l.length) (hh : ∃ e ∈ es, e.inner ≠ []) :
    enclosuresLoop len d false es inner l.length l = .ub := by
  induction es generalizing inner l with
  | nil => obtain ⟨e, he, -⟩ := hh; cases he
  | cons e es ih =>
    obtain ⟨out, back, h1, h2, -⟩ := computeOffset_ok len d false (h e (by simp) e.outer (by simp))
    simp only [Bool.false_eq_true, if_false] at h1
    simp only [List.map_cons, List.sum_cons] at hl
    rw [enclosuresLoop, h1, Res.ok_bind, putFrom_ok out l inner (by omega), Res.ok_bind]
    have hlen : (l.take inner ++ out ++ l.drop (inner + out.length)).length = l.length := by
      simp only [List.length_append, List.length_take, List.length_drop]
      omega
    cases hi : e.inner with
    | nil =>
      rw [holesLoop, Res.ok_bind]
      have := ih (fun e he => h e (by simp [he])) (inner + out.length) (l.take inner ++ out ++ l.drop (inner + out.length)) (by rw [hlen]; omega)
        (by
          obtain ⟨f, hf, hn⟩ := hh
          rcases List.mem_cons.1 hf with rfl | hf
          · exact absurd hi hn
          · exact ⟨f, hf, hn⟩)
      rw [hlen] at this
      exact this
    | cons r rs =>
      have ho := h e (by simp) e.outer (by simp)
      obtain ⟨out', back', h1', -, -⟩ := computeOffset_ok len d false (h e (by simp) r (by rw [hi]; simp))
      rw [holesLoop, h1', Res.ok_bind]
      have hput : putFrom out l.length (l.take inner ++ out ++ l.drop (inner + out.length)) = .ub := by
        cases out with
        | nil => simp only [List.length_nil] at h2; omega
        | cons p ps =>
          rw [putFrom, vset_out _ (by rw [hlen])]
          rfl
      simp only
      rw [hput]
      rfl

/-! ## Snapping -/

/-- Node `k` has been moved after `i` rounds. -/
def seenBy (n start i k : Nat) : Prop := (start ≤ k ∧ k < start + i) ∨ k + n < start + i

instance (n start i k : Nat) : Decidable (seenBy n start i k) := by unfold seenBy; infer_instance

/-- The nodes after `i` rounds. -/
def state (nearest : Pt → Pt) (r : List Pt) (start i : Nat) : List Pt :=
  r.mapIdx fun k p => if seenBy r.length start i k then nearest p else p

theorem cur_eq {n start i : Nat} (hs : start < n) (hi : i < n) : (start + i) % n = if start + i < n then start + i else start + i - n := by
  split
  · rename_i h
    exact Nat.mod_eq_of_lt h
  · rename_i h
    rw [Nat.mod_eq_sub_mod (by omega), Nat.mod_eq_of_lt (by omega)]

theorem state_step (nearest : Pt → Pt) {r : List Pt} {start i : Nat} (hs : start < r.length) (hi : i < r.length)
    (hc : (start + i) % r.length < r.length) :
    (state nearest r start i)[(start + i) % r.length]? = some r[(start + i) % r.length] ∧
      (state nearest r start i).set ((start + i) % r.length) (nearest r[(start + i) % r.length]) = state nearest r start (i + 1) := by
  have hcur := cur_eq hs hi
  generalize (start + i) % r.length = cur at hc hcur
  constructor
  · unfold state
    rw [List.getElem?_mapIdx, List.getElem?_eq_getElem hc]
    simp only [Option.map_some]
    rw [if_neg]
    unfold seenBy
    split at hcur <;> omega
  · apply List.ext_getElem?
    intro k
    unfold state
    rw [List.getElem?_set, List.length_mapIdx, List.getElem?_mapIdx, List.getElem?_mapIdx]
    by_cases hk : k < r.length
    · rw [List.getElem?_eq_getElem hk]
      simp only [Option.map_some]
      by_cases e : cur = k
      · subst e
        rw [if_pos rfl, if_pos hc, if_pos]
        unfold seenBy
        split at hcur <;> omega
      · rw [if_neg e]
        have : seenBy r.length start i k ↔ seenBy r.length start (i + 1) k := by
          unfold seenBy
          split at hcur <;> omega
        simp only [this]
    · rw [List.getElem?_eq_none (by omega)]
      simp only [Option.map_none]
      rw [if_neg (by omega)]

theorem snapLoop_ok (nearest : Pt → Pt) {r : List Pt} (hv : ∀ p ∈ r, p.isValid = true) {start fin : Nat} (hs : start < r.length)
    (stop : Nat) (hstop : (start + stop) % r.length = fin) (hstop' : stop < r.length)
    (k i : Nat) (hk : i + k = r.length) (hi : i ≤ stop) :
    snapLoop nearest start fin i k (state nearest r start i) = .ok (state nearest r start (stop + 1)) := by
  induction k generalizing i with
  | zero => omega
  | succ k ih =>
    have hn : 0 < r.length := by omega
    have hlen : (state nearest r start i).length = r.length := by unfold state; rw [List.length_mapIdx]
    have hc := Nat.mod_lt (start + i) hn
    obtain ⟨h1, h2⟩ := state_step nearest hs (by omega : i < r.length) hc
    rw [snapLoop]
    simp only [hlen]
    have hg : vget (state nearest r start i) ((start + i) % r.length) = .ok r[(start + i) % r.length] := by
      unfold vget
      rw [h1]
    rw [hg, Res.ok_bind, hv _ (List.getElem_mem hc), if_pos rfl, vset_ok _ (by rw [hlen]; exact hc), Res.ok_bind, h2]
    by_cases c : i = stop
    · subst c
      rw [if_pos hstop]
    · rw [if_neg]
      · exact ih (i + 1) (by omega) (by omega)
      · rw [← hstop, cur_eq hs (by omega), cur_eq hs hstop']
        split <;> split <;> omega

theorem snapRing_ok (nearest : Pt → Pt) {r : List Pt} (hv : ∀ p ∈ r, p.isValid = true) {start fin : Nat} (hs : start < r.length)
    (hf : fin < r.length) :
    snapRing nearest start fin r = .ok (r.mapIdx fun k p => if (start ≤ fin ∧ start ≤ k ∧ k ≤ fin) ∨ (fin < start ∧ (start ≤ k ∨ k ≤ fin)) then nearest p else p) := by
  unfold snapRing
  rw [if_neg (by omega), if_neg (by omega)]
  have h0 : r = state nearest r start 0 := by
    unfold state
    apply List.ext_getElem?
    intro k
    rw [List.getElem?_mapIdx]
    by_cases hk : k < r.length
    · rw [List.getElem?_eq_getElem hk]
      simp only [Option.map_some]
      rw [if_neg]
      unfold seenBy
      omega
    · rw [List.getElem?_eq_none (by omega)]
      rfl
  obtain ⟨stop, hst⟩ : ∃ stop, (start ≤ fin ∧ stop = fin - start) ∨ (fin < start ∧ stop = fin + r.length - start) := by
    by_cases c : start ≤ fin
    · exact ⟨_, Or.inl ⟨c, rfl⟩⟩
    · exact ⟨_, Or.inr ⟨by omega, rfl⟩⟩
  have hstop' : stop < r.length := by omega
  have hstop : (start + stop) % r.length = fin := by
    rw [cur_eq hs hstop']
    split <;> omega
  have e := snapLoop_ok nearest hv hs stop hstop hstop' r.length 0 (by omega) (by omega)
  rw [← h0] at e
  rw [e]
  congr 1
  unfold state
  apply List.ext_getElem?
  intro k
  rw [List.getElem?_mapIdx, List.getElem?_mapIdx]
  by_cases hk : k < r.length
  · rw [List.getElem?_eq_getElem hk]
    simp only [Option.map_some]
    have : seenBy r.length start (stop + 1) k ↔ (start ≤ fin ∧ start ≤ k ∧ k ≤ fin) ∨ (fin < start ∧ (start ≤ k ∨ k ≤ fin)) := by
      unfold seenBy
      omega
    simp only [this]
  · rw [List.getElem?_eq_none (by omega)]
    rfl

/-! ## Selecting -/

theorem includedLoop_ok (inside : List Pt → Pt → Bool) (es : List Enclosure) (f : Pt → Bool)
    (hf : ∀ p, isPointInPolygon inside es p 0 = .ok (f p)) (ps : List Pt) (c : Nat) (l : List ℚ) (h : c + ps.length ≤ l.length) :
    includedLoop inside es ps c l = .ok (l.take c ++ ps.map (fun p => if f p then 1 else 0) ++ l.drop (c + ps.length)) := by
  induction ps generalizing l c with
  | nil => simp [includedLoop]
  | cons v vs ih =>
    rw [List.length_cons] at h
    rw [includedLoop, hf, Res.ok_bind, vset_ok _ (by omega), Res.ok_bind, ih _ _ (by simp; omega)]
    congr 1
    have e1 : ∀ q : ℚ, List.take (c + 1) (l.set c q) = l.take c ++ [q] := by
      intro q
      rw [List.take_add_one, List.getElem?_set_self (by omega), List.take_set_of_le (by omega)]
      rfl
    have e2 : ∀ q : ℚ, List.drop (c + 1 + vs.length) (l.set c q) = l.drop (c + (vs.length + 1)) := by
      intro q
      rw [List.drop_set_of_lt (by omega)]
      congr 1
      omega
    rw [e1, e2, List.length_cons]
    simp

end Verif.PolyEdit
