import Verif.Regions.FloodLemmas
/-!
# Lemmas about the labelling of all regions
-/
namespace Verif.Regions
open Verif.Mesh

/-- Invariant of the labelling after `k` regions. -/
structure LInv (fe : List (List Nat)) (k : Nat) (l : List Nat) : Prop where
  len : l.length = fe.length
  range : ∀ i, lab l i = missing ∨ (1 ≤ lab l i ∧ lab l i ≤ k)
  closed : ∀ i j, lab l i ≠ missing → Adjacent fe i j → lab l j ≠ missing
  same : ∀ i j, lab l i ≠ missing → lab l j ≠ missing → (lab l i = lab l j ↔ Joined fe i j)
  first : ∀ j, 1 ≤ j → j ≤ k → ∃ s, lab l s = j ∧ ∀ i, i < s → lab l i < j
  budget : k + l.count missing ≤ fe.length

/-- The regions with their number of faces. -/
def sizes (k : Nat) (l : List Nat) : List (Nat × Nat) := (List.range k).map (fun j => (j + 1, l.count (j + 1)))

theorem firstUnlabelled_none {l : List Nat} (h : ∀ i, i < l.length → lab l i ≠ missing) :
    firstUnlabelled l = missing := by
  unfold firstUnlabelled
  have : l.findIdx? (fun x => x == missing) = none := by
    rw [List.findIdx?_eq_none_iff]
    intro x hx
    obtain ⟨i, hi, he⟩ := List.getElem_of_mem hx
    have := h i hi
    rw [lab_lt hi, he] at this
    simpa using this
  rw [this]

theorem firstUnlabelled_some {l : List Nat} (h : ∃ i, i < l.length ∧ lab l i = missing) :
    firstUnlabelled l < l.length ∧ lab l (firstUnlabelled l) = missing ∧
      ∀ i, i < firstUnlabelled l → lab l i ≠ missing := by
  unfold firstUnlabelled
  cases hf : l.findIdx? (fun x => x == missing) with
  | none =>
    rw [List.findIdx?_eq_none_iff] at hf
    obtain ⟨i, hi, he⟩ := h
    have := hf l[i] (List.getElem_mem hi)
    rw [lab_lt hi] at he
    simp [he] at this
  | some i =>
    rw [List.findIdx?_eq_some_iff_getElem] at hf
    obtain ⟨h1, h2, h3⟩ := hf
    refine ⟨h1, by rw [lab_lt h1]; simpa using h2, ?_⟩
    intro j hj
    have hj' : j < i := hj
    have := h3 j hj'
    rw [lab_lt (by omega)]
    simpa using this

theorem count_congr {l l' : List Nat} (hl : l.length = l'.length) (v : Nat)
    (h : ∀ i, i < l.length → (lab l i = v ↔ lab l' i = v)) : l.count v = l'.count v := by
  rw [List.count_eq_countP, List.count_eq_countP]
  induction l generalizing l' with
  | nil =>
    cases l' with
    | nil => rfl
    | cons => simp at hl
  | cons a t ih =>
    cases l' with
    | nil => simp at hl
    | cons b t' =>
      have h0 := h 0 (by simp)
      simp only [lab, List.getElem?_cons_zero, Option.getD_some] at h0
      rw [List.countP_cons, List.countP_cons, ih (by simpa using hl) (fun i hi => by
        have := h (i + 1) (by simpa using hi)
        simpa [lab] using this)]
      by_cases ha : a = v
      · have hb := h0.1 ha
        simp [ha, hb]
      · have hb : ¬ b = v := fun hc => ha (h0.2 hc)
        simp [ha, hb]

theorem sizes_succ (k : Nat) (l : List Nat) : sizes (k + 1) l = sizes k l ++ [(k + 1, l.count (k + 1))] := by
  simp [sizes, List.range_succ]

theorem labelLoop_spec {fe : List (List Nat)} {ef : List (Nat × Nat)} (t : Tables fe ef) :
    ∀ (rounds k : Nat) (l : List Nat), LInv fe k l → l.count missing < rounds →
      ∃ k' l', labelLoop fe ef rounds (k + 1) l (sizes k l) = .ok ⟨l', sizes k' l', true⟩ ∧ LInv fe k' l' ∧
        ∀ i, i < fe.length → lab l' i ≠ missing
  | 0, _, _, _, h => absurd h (by omega)
  | rounds + 1, k, l, inv, hk => by
    simp only [labelLoop]
    have hfit := t.fit
    by_cases hex : ∃ i, i < l.length ∧ lab l i = missing
    · obtain ⟨f1, f2, f3⟩ := firstUnlabelled_some hex
      unfold labelSingleDomainRegion
      have hfl : firstUnlabelled l < fe.length := by rw [← inv.len]; exact f1
      have hfm : firstUnlabelled l ≠ missing := by omega
      simp only [ne_eq, hfm, not_false_eq_true, if_true]
      have hcpos : 0 < l.count missing := by
        rw [List.count_pos_iff]
        rw [lab_lt f1] at f2
        exact f2 ▸ List.getElem_mem f1
      have hb := inv.budget
      have hkm : k + 1 ≠ missing := by omega
      obtain ⟨l', g1, g2, g3, g4, g5⟩ := labelConnectedRegion_spec t (r := k + 1) (l0 := l)
        (start := firstUnlabelled l) hkm inv.len hfl f2
        (fun i => by cases inv.range i with
          | inl h => omega
          | inr h => omega)
        inv.closed
      rw [g1, Res.ok_bind]
      have hst : lab l' (firstUnlabelled l) = k + 1 := g4 _ .refl
      have hl1 : firstUnlabelled l < l'.length := by omega
      have hcnt : 0 < l'.count (k + 1) := by
        rw [List.count_pos_iff, ← hst, lab_lt hl1]
        exact List.getElem_mem hl1
      have hcases : ∀ i, (lab l i ≠ missing ∧ lab l' i = lab l i) ∨
          (lab l i = missing ∧ Joined fe (firstUnlabelled l) i ∧ lab l' i = k + 1) ∨
          (lab l i = missing ∧ ¬ Joined fe (firstUnlabelled l) i ∧ lab l' i = missing) := by
        intro i
        by_cases h1 : lab l i = missing
        · by_cases h2 : Joined fe (firstUnlabelled l) i
          · exact Or.inr (Or.inl ⟨h1, h2, g4 i h2⟩)
          · exact Or.inr (Or.inr ⟨h1, h2, g5 i h1 h2⟩)
        · exact Or.inl ⟨h1, g3 i h1⟩
      have hold : ∀ i, lab l i ≠ missing → ¬ Joined fe (firstUnlabelled l) i := by
        intro i hi hj
        have := g3 i hi
        rw [g4 i hj] at this
        have := inv.range i
        omega
      have hmiss : l'.count missing < l.count missing := by
        have hne : l' ≠ l := by
          intro h
          rw [h] at hst
          omega
        -- every missing entry of `l'` is missing in `l`, and `start` is not missing any more
        have hset : l'.count missing ≤ (l.set (firstUnlabelled l) 0).count missing := by
          have hlen' : l'.length = (l.set (firstUnlabelled l) 0).length := by
            rw [List.length_set, g2, inv.len]
          rw [List.count_eq_countP, List.count_eq_countP]
          have := List.countP_mono_left (p := fun i => decide (lab l' i = missing))
            (q := fun i => decide (lab (l.set (firstUnlabelled l) 0) i = missing)) (l := List.range l'.length)
            (by
              intro i hi h
              have hil : i < l'.length := by simpa using hi
              have h' : lab l' i = missing := by simpa using h
              have : lab (l.set (firstUnlabelled l) 0) i = missing := by
                rw [lab_set i 0 f1]
                rw [if_neg (by rintro rfl; rw [hst] at h'; exact hkm h')]
                rcases hcases i with ⟨a, b⟩ | ⟨a, b, c⟩ | ⟨a, b, c⟩
                · rw [b] at h'; exact absurd h' a
                · exact a
                · exact a
              simpa using this)
          have hrange : ∀ (x : List Nat), (List.range x.length).countP (fun i => decide (lab x i = missing)) =
              x.countP (fun a => a == missing) := by
            intro x
            have e : (List.range x.length).map (lab x) = x := by
              apply List.ext_getElem
              · simp
              · intro i h1 h2
                simp [lab_lt h2]
            conv => rhs; rw [← e]
            rw [List.countP_map]
            congr 1
          rw [hrange l', hlen', hrange] at this
          exact this
        have h0 : (l.set (firstUnlabelled l) 0).count missing + 1 = l.count missing := by
          have e : l[firstUnlabelled l] = missing := by rw [← lab_lt f1]; exact f2
          rw [List.count_set f1, e]
          have hz : ((0 : Nat) == missing) = false := by decide
          simp only [beq_self_eq_true, if_true, hz, Bool.false_eq_true, if_false]
          omega
        omega
      have inv' : LInv fe (k + 1) l' := by
        refine ⟨g2, ?_, ?_, ?_, ?_, by omega⟩
        · intro i
          rcases hcases i with ⟨a, b⟩ | ⟨a, b, c⟩ | ⟨a, b, c⟩
          · rw [b]; have := inv.range i; omega
          · rw [c]; omega
          · exact Or.inl c
        · intro i j hi hij
          rcases hcases i with ⟨a, b⟩ | ⟨a, b, c⟩ | ⟨a, b, c⟩
          · have := inv.closed i j a hij
            rw [g3 j this]; exact this
          · rw [g4 j (b.trans (.single hij))]; exact hkm
          · exact absurd c hi
        · intro i j hi hj
          rcases hcases i with ⟨a, b⟩ | ⟨a, b, c⟩ | ⟨a, b, c⟩
          · rcases hcases j with ⟨a', b'⟩ | ⟨a', b', c'⟩ | ⟨a', b', c'⟩
            · rw [b, b']; exact inv.same i j a a'
            · rw [b, c']
              constructor
              · intro h; have := inv.range i; omega
              · intro h; exact absurd (b'.trans h.symm) (hold i a)
            · exact absurd c' hj
          · rcases hcases j with ⟨a', b'⟩ | ⟨a', b', c'⟩ | ⟨a', b', c'⟩
            · rw [c, b']
              constructor
              · intro h; have := inv.range j; omega
              · intro h; exact absurd (b.trans h) (hold j a')
            · rw [c, c']
              exact ⟨fun _ => b.symm.trans b', fun _ => rfl⟩
            · exact absurd c' hj
          · exact absurd c hi
        · intro j h1 h2
          by_cases hjk : j = k + 1
          · subst hjk
            refine ⟨firstUnlabelled l, hst, ?_⟩
            intro i hi
            have := f3 i hi
            rw [g3 i this]
            have := inv.range i
            omega
          · obtain ⟨s, s1, s2⟩ := inv.first j h1 (by omega)
            have hsne : lab l s ≠ missing := by
              rw [s1]
              intro h
              have := inv.budget
              omega
            refine ⟨s, by rw [g3 s hsne, s1], ?_⟩
            intro i hi
            have := s2 i hi
            rw [g3 i (by
              intro h
              rw [h] at this
              have := inv.budget
              omega)]
            exact this
      have hsz : sizes k l = sizes k l' := by
        unfold sizes
        apply List.map_congr_left
        intro j hj
        have hj' : j < k := by simpa using hj
        have : l.count (j + 1) = l'.count (j + 1) := by
          apply count_congr (by rw [inv.len, g2])
          intro i _
          rcases hcases i with ⟨a, b⟩ | ⟨a, b, c⟩ | ⟨a, b, c⟩
          · rw [b]
          · rw [a, c]; omega
          · rw [a, c]
        rw [this]
      simp only [List.isEmpty_nil, Bool.not_true, Bool.false_eq_true, if_false, hcnt, if_true]
      have := labelLoop_spec t rounds (k + 1) l' inv' (by omega)
      rw [sizes_succ] at this
      rw [hsz]
      exact this
    · have hall : ∀ i, i < l.length → lab l i ≠ missing := fun i hi h => hex ⟨i, hi, h⟩
      unfold labelSingleDomainRegion
      rw [firstUnlabelled_none hall]
      simp only [ne_eq, not_true_eq_false, if_false, Res.ok_bind, List.isEmpty_nil, Bool.not_true,
        Bool.false_eq_true, gt_iff_lt, Nat.lt_irrefl]
      exact ⟨k, l, rfl, inv, fun i hi => hall i (by rw [inv.len]; exact hi)⟩

/-- The result of the labelling. -/
theorem labelAll_spec {fe : List (List Nat)} {ef : List (Nat × Nat)} (t : Tables fe ef) :
    ∃ k l, labelAllDomainRegions fe ef = .ok ⟨l, sizes k l, true⟩ ∧ LInv fe k l ∧
      ∀ i, i < fe.length → lab l i ≠ missing := by
  unfold labelAllDomainRegions
  have hlab : ∀ i, lab (List.replicate fe.length missing) i = missing := by
    intro i
    unfold lab
    by_cases h : i < fe.length
    · simp [h]
    · simp [h]
  have := labelLoop_spec t (fe.length + 1) 0 (List.replicate fe.length missing)
    ⟨by simp, fun i => Or.inl (hlab i), fun i j h => absurd (hlab i) h, fun i j h => absurd (hlab i) h,
      fun j h1 h2 => by omega, by simp⟩ (by simp)
  simpa [sizes] using this

/-- The largest region: its size is attained, no other is larger, and the earlier ones are
smaller. -/
theorem mainRegion_spec (f : Nat → Nat) : ∀ (len start : Nat) (best : Nat × Nat),
    (mainRegion ((List.range' start len).map (fun j => (j, f j))) best = best ∧
      ∀ j, start ≤ j → j < start + len → f j ≤ best.2) ∨
    (∃ j, start ≤ j ∧ j < start + len ∧
      mainRegion ((List.range' start len).map (fun j => (j, f j))) best = (j, f j) ∧ best.2 < f j ∧
      (∀ i, start ≤ i → i < start + len → f i ≤ f j) ∧ ∀ i, start ≤ i → i < j → f i < f j)
  | 0, start, best => Or.inl ⟨rfl, fun j h1 h2 => by omega⟩
  | len + 1, start, best => by
    simp only [List.range'_succ, List.map_cons, mainRegion]
    by_cases h : f start > best.2
    · rw [if_pos h]
      right
      rcases mainRegion_spec f len (start + 1) (start, f start) with ⟨h1, h2⟩ | ⟨j, h1, h2, h3, h4, h5, h6⟩
      · refine ⟨start, by omega, by omega, h1, h, ?_, fun i h3 h4 => by omega⟩
        intro i h3 h4
        by_cases hi : i = start
        · rw [hi]; exact Nat.le_refl _
        · exact h2 i (by omega) (by omega)
      · refine ⟨j, by omega, by omega, h3, ?_, ?_, ?_⟩
        · simp only at h4; omega
        · intro i g1 g2
          by_cases hi : i = start
          · rw [hi]; simp only at h4; omega
          · exact h5 i (by omega) (by omega)
        · intro i g1 g2
          by_cases hi : i = start
          · rw [hi]; exact h4
          · exact h6 i (by omega) g2
    · rw [if_neg h]
      rcases mainRegion_spec f len (start + 1) best with ⟨h1, h2⟩ | ⟨j, h1, h2, h3, h4, h5, h6⟩
      · left
        refine ⟨h1, ?_⟩
        intro i g1 g2
        by_cases hi : i = start
        · rw [hi]; omega
        · exact h2 i (by omega) (by omega)
      · right
        refine ⟨j, by omega, by omega, h3, h4, ?_, ?_⟩
        · intro i g1 g2
          by_cases hi : i = start
          · rw [hi]; omega
          · exact h5 i (by omega) (by omega)
        · intro i g1 g2
          by_cases hi : i = start
          · rw [hi]; omega
          · exact h6 i (by omega) g2

theorem sizes_eq (k : Nat) (l : List Nat) :
    sizes k l = (List.range' 1 k).map (fun j => (j, l.count j)) := by
  unfold sizes
  rw [List.range'_eq_map_range, List.map_map]
  apply List.map_congr_left
  intro j _
  simp [Nat.add_comm]

/-- The number of faces with a label is the size of the region. -/
theorem count_region {fe : List (List Nat)} {k : Nat} {l : List Nat} (inv : LInv fe k l)
    (hall : ∀ i, i < fe.length → lab l i ≠ missing) {f : Nat} (hf : f < fe.length) {r : List Nat}
    (hr : IsRegion fe f r) : r.length = l.count (lab l f) := by
  have hperm : r.Perm ((List.range fe.length).filter (fun i => lab l i = lab l f)) := by
    rw [List.perm_ext_iff_of_nodup hr.1 (List.nodup_range.filter _)]
    intro g
    rw [hr.2]
    simp only [List.mem_filter, List.mem_range, decide_eq_true_eq]
    constructor
    · rintro ⟨h1, h2⟩
      exact ⟨h1, ((inv.same f g (hall f hf) (hall g h1)).2 h2).symm⟩
    · rintro ⟨h1, h2⟩
      exact ⟨h1, (inv.same f g (hall f hf) (hall g h1)).1 h2.symm⟩
  rw [hperm.length_eq, ← List.countP_eq_length_filter, List.count_eq_countP, ← inv.len]
  have e : (List.range l.length).map (lab l) = l := by
    apply List.ext_getElem
    · simp
    · intro i h1 h2
      simp [lab_lt h2]
  generalize lab l f = v
  conv => rhs; rw [← e]
  rw [List.countP_map]
  congr 1

end Verif.Regions
