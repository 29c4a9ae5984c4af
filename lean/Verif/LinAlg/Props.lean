import Verif.LinAlg.Lemmas
import Mathlib.Order.Defs.LinearOrder
/-!
# C33: matrix row/column editing is exact
-/
namespace Verif.LinAlg
variable {α : Type}

/-- Every row has as many entries as the matrix has columns. -/
def Rect (m : Mat α) : Prop := ∀ r ∈ m.rows, r.length = m.cols

/-- Remove the entries numbered `b` to `e`. -/
def without (b e : Nat) (l : List α) : List α := l.take b ++ l.drop (e + 1)

/-- Insert `x` so that it gets number `i`. -/
def withAt (i : Nat) (x : α) (l : List α) : List α := l.take i ++ x :: l.drop i

/-- Erasing rows keeps exactly the other rows, in order; a range that is empty or leaves the matrix is
rejected. -/
theorem erase_rows_exact (m : Mat α) (b e : Int) :
    (¬ (0 ≤ b ∧ b ≤ e ∧ e < m.rows.length) → eraseRows m b e = .throw) ∧
    ∀ i j : Nat, b = i → e = j → i ≤ j → j < m.rows.length →
      eraseRows m b e = .ok ⟨m.cols, without i j m.rows⟩ := by
  constructor
  · intro h
    unfold eraseRows
    rw [if_pos (by omega)]
  · rintro i j rfl rfl h1 h2
    unfold eraseRows
    rw [if_neg (by omega)]
    simp [eraseBody_ok m.rows i j h1 h2, without]

/-- Erasing columns does the same to every row. -/
theorem erase_cols_exact (m : Mat α) (hm : Rect m) (b e : Int) :
    (¬ (0 ≤ b ∧ b ≤ e ∧ e < m.cols) → eraseCols m b e = .throw) ∧
    ∀ i j : Nat, b = i → e = j → i ≤ j → j < m.cols →
      eraseCols m b e = .ok ⟨m.cols - (j - i + 1), m.rows.map (without i j)⟩ := by
  constructor
  · intro h
    unfold eraseCols
    rw [if_pos (by omega)]
  · rintro i j rfl rfl h1 h2
    unfold eraseCols
    rw [if_neg (by omega)]
    simp only [Int.toNat_natCast]
    rw [mapRows_ok (g := without i j) m.rows (fun r hr => eraseBody_ok r i j h1 (by rw [hm r hr]; exact h2))]
    simp

/-- Erasing keeps the matrix rectangular. -/
theorem erase_keeps_rect (m m' : Mat α) (hm : Rect m) (b e : Int) :
    (eraseRows m b e = .ok m' → Rect m') ∧ (eraseCols m b e = .ok m' → Rect m') := by
  constructor
  · intro h
    by_cases c : 0 ≤ b ∧ b ≤ e ∧ e < m.rows.length
    · rw [(erase_rows_exact m b e).2 b.toNat e.toNat (by omega) (by omega) (by omega) (by omega)] at h
      cases h
      intro r hr
      simp only [without, List.mem_append] at hr
      rcases hr with hr | hr
      · exact hm r (List.mem_of_mem_take hr)
      · exact hm r (List.mem_of_mem_drop hr)
    · rw [(erase_rows_exact m b e).1 c] at h; simp at h
  · intro h
    by_cases c : 0 ≤ b ∧ b ≤ e ∧ e < m.cols
    · rw [(erase_cols_exact m hm b e).2 b.toNat e.toNat (by omega) (by omega) (by omega) (by omega)] at h
      cases h
      intro r hr
      simp only [List.mem_map] at hr
      obtain ⟨q, hq, rfl⟩ := hr
      simp only [without, List.length_append, List.length_take, List.length_drop, hm q hq]
      omega
    · rw [(erase_cols_exact m hm b e).1 c] at h; simp at h

/-- Inserting puts the row at the given number and moves later rows down; numbers beyond the end are
rejected. -/
theorem insert_row_exact (m : Mat α) (v : List α) (hv : v.length = m.cols) (i : Int) :
    (¬ (0 ≤ i ∧ i ≤ m.rows.length) → insertRow m v i = .throw) ∧
    ∀ k : Nat, i = k → k ≤ m.rows.length → insertRow m v i = .ok ⟨m.cols, withAt k v m.rows⟩ := by
  constructor
  · intro h; unfold insertRow; rw [if_pos (by omega)]
  · rintro k rfl h
    unfold insertRow
    rw [if_neg (by omega), if_neg (by omega)]
    simp [withAt]

theorem insert_col_exact (m : Mat α) (v : List α) (hv : v.length = m.rows.length) (i : Int) :
    (¬ (0 ≤ i ∧ i ≤ m.cols) → insertCol m v i = .throw) ∧
    ∀ k : Nat, i = k → k ≤ m.cols →
      insertCol m v i = .ok ⟨m.cols + 1, List.zipWith (fun r x => withAt k x r) m.rows v⟩ := by
  constructor
  · intro h; unfold insertCol; rw [if_pos (by omega)]
  · rintro k rfl h
    unfold insertCol
    rw [if_neg (by omega), insertInRow_ok _ _ _ hv]
    simp [withAt]

theorem without_withAt (k : Nat) (x : α) (l : List α) (h : k ≤ l.length) : without k k (withAt k x l) = l := by
  unfold without withAt
  have hk : (l.take k).length = k := by rw [List.length_take]; omega
  rw [List.take_append_of_le_length (by omega), List.take_of_length_le (by omega), List.drop_append, hk,
    List.drop_eq_nil_of_le (by omega)]
  simp

/-- Erasing the row or column just inserted restores the matrix. -/
theorem erase_inserted (m : Mat α) (hm : Rect m) (v w : List α) (hv : v.length = m.cols) (hw : w.length = m.rows.length)
    (i k : Nat) (hi : i ≤ m.rows.length) (hk : k ≤ m.cols) :
    (insertRow m v i >>= fun m' => eraseRows m' i i) = .ok m ∧
    (insertCol m w k >>= fun m' => eraseCols m' k k) = .ok m := by
  constructor
  · rw [(insert_row_exact m v hv i).2 i rfl hi, Res.ok_bind]
    rw [(erase_rows_exact _ i i).2 i i rfl rfl (Nat.le_refl _) (by simp [withAt]; omega)]
    simp only [without_withAt i v m.rows hi]
  · rw [(insert_col_exact m w hw k).2 k rfl hk, Res.ok_bind]
    have hz : ∀ (rs : List (List α)) (w : List α), (∀ r ∈ rs, r.length = m.cols) → w.length = rs.length →
        (∀ r ∈ List.zipWith (fun r x => withAt k x r) rs w, r.length = m.cols + 1) ∧
        (List.zipWith (fun r x => withAt k x r) rs w).map (without k k) = rs := by
      intro rs
      induction rs with
      | nil => intro w _ _; simp
      | cons r rs ih =>
        intro w h1 h2
        cases w with
        | nil => simp at h2
        | cons x w =>
          obtain ⟨a, b⟩ := ih w (fun q hq => h1 q (List.mem_cons_of_mem _ hq)) (by simpa using h2)
          have hr := h1 r List.mem_cons_self
          constructor
          · intro q hq
            simp only [List.zipWith_cons_cons, List.mem_cons] at hq
            rcases hq with rfl | hq
            · simp only [withAt, List.length_append, List.length_take, List.length_cons, List.length_drop]; omega
            · exact a q hq
          · simp only [List.zipWith_cons_cons, List.map_cons, b, without_withAt k x r (by omega)]
    obtain ⟨a, b⟩ := hz m.rows w hm hw
    have hrect : Rect (⟨m.cols + 1, List.zipWith (fun r x => withAt k x r) m.rows w⟩ : Mat α) := a
    rw [(erase_cols_exact _ hrect k k).2 k k rfl rfl (Nat.le_refl _) (by show k < m.cols + 1; omega)]
    simp only [b]
    congr 1
    cases m
    simp

/-- Swapping two rows exchanges them and leaves the others; out of range numbers are rejected. -/
theorem swap_rows_exact (m : Mat α) (a b : Nat) :
    (¬ (a < m.rows.length ∧ b < m.rows.length) → swapRows m a b = .throw) ∧
    (a < m.rows.length → b < m.rows.length → ∃ rs, swapRows m a b = .ok ⟨m.cols, rs⟩ ∧
      ∀ i : Nat, rs[i]? = m.rows[if i = a then b else if i = b then a else i]?) := by
  constructor
  · intro h; unfold swapRows; rw [if_pos (by omega)]
  · intro ha hb
    unfold swapRows
    rw [if_neg (by omega)]
    by_cases e : a = b
    · subst e
      refine ⟨m.rows, by simp, ?_⟩
      intro i
      split
      · rename_i h; rw [h]
      · rfl
    · rw [if_neg (by omega)]
      simp only [Int.toNat_natCast, swapAt_ok m.rows a b ha hb, Res.ok_bind]
      refine ⟨_, rfl, ?_⟩
      intro i
      rw [List.getElem?_set, List.getElem?_set]
      by_cases h1 : i = a
      · subst h1; simp [Ne.symm e, ha, hb]
      · by_cases h2 : i = b
        · subst h2; simp [h1, ha, hb]
        · simp [h1, h2, Ne.symm h1, Ne.symm h2]

/-! ### Resizing -/

/-- Resizing gives the requested size; every entry within the new size is the old one where there was
one and preservation was asked for, else the fill value.  Missing: growing columns while shrinking
rows, see `resize_overruns`. -/
theorem resize_exact_partial (m : Mat α) (hm : Rect m) (r c : Nat) (preserve : Bool) (fill : α)
    (h : preserve = true → ¬ (m.cols < c ∧ r < m.rows.length)) :
    ∃ f, resizeFill m r c preserve fill = .ok (decide (r ≠ m.rows.length ∨ c ≠ m.cols), r, c, f) ∧
      ∀ i j, i < r → j < c → f i j =
        if preserve then
          (match m.rows[i]? with
          | some row => (match row[j]? with | some x => some x | none => some fill)
          | none => some fill)
        else some fill := by
  unfold resizeFill
  rw [if_neg (by omega)]
  simp only [Int.toNat_natCast]
  have hdec : (decide (r ≠ m.rows.length) || decide (c ≠ m.cols)) = decide (r ≠ m.rows.length ∨ c ≠ m.cols) := by
    simp [Bool.decide_or]
  have old : ∀ i j, i < m.rows.length → j < m.cols → ∃ row x, m.rows[i]? = some row ∧ row[j]? = some x ∧
      conservative m i j = some x := by
    intro i j hi hj
    have hl := hm m.rows[i] (List.getElem_mem hi)
    refine ⟨m.rows[i], m.rows[i][j]'(by omega), by simp [hi], by simp [hl, hj], by simp [conservative, hi, hl, hj]⟩
  cases preserve with
  | false => exact ⟨fun _ _ => some fill, by simp, by simp⟩
  | true =>
    simp only [Bool.not_true, Bool.false_eq_true, if_false, if_true, hdec]
    by_cases hs : r ≠ m.rows.length ∨ c ≠ m.cols
    · rw [if_neg (by simp only [decide_eq_true hs]; decide), if_neg (h rfl)]
      refine ⟨_, rfl, ?_⟩
      intro i j hi hj
      by_cases h1 : i < m.rows.length
      · have hl := hm m.rows[i] (List.getElem_mem h1)
        by_cases h2 : j < m.cols
        · obtain ⟨row, x, e1, e2, e3⟩ := old i j h1 h2
          rw [e1]; simp only [e2]
          rw [if_neg (by omega), if_neg (by omega)]; exact e3
        · rw [if_pos (by omega)]
          simp [h1, hl, h2]
      · rw [if_neg (by omega), if_pos (by omega)]
        simp [h1]
    · rw [if_pos (by simp only [decide_eq_false hs]; decide)]
      refine ⟨_, rfl, ?_⟩
      intro i j hi hj
      obtain ⟨row, x, e1, e2, e3⟩ := old i j (by omega) (by omega)
      rw [e1]; simp only [e2]; exact e3

/-- Keeping the contents while adding a column and removing a row writes outside the matrix. -/
theorem resize_overruns (m : Mat α) (fill : α) (h : 0 < m.rows.length) :
    resizeFill m (m.rows.length - 1 : Nat) (m.cols + 1 : Nat) true fill = .ub := by
  unfold resizeFill
  rw [if_neg (by omega)]
  simp only [Int.toNat_natCast, Bool.not_true, Bool.false_eq_true, if_false]
  rw [if_neg (by simp), if_pos (by omega)]

/-! ### Sorting and reordering a row -/

/-- Reordering by a permutation terminates and puts entry number `order[i]` in place `i`. -/
theorem reorder_exact (row : List α) (order : List Nat) (h : order.Perm (List.range row.length)) (fuel : Nat)
    (hf : row.length ≤ fuel) :
    ∃ r, reorderRow fuel row order = some (.ok r) ∧ r.length = row.length ∧
      ∀ i k : Nat, order[i]? = some k → r[i]? = row[k]? := by
  have hl : order.length = row.length := by rw [h.length_eq, List.length_range]
  have hr : ∀ p k : Nat, order[p]? = some k → k < row.length := by
    intro p k hk
    have := h.mem_iff.1 (List.mem_of_getElem? hk)
    simpa using this
  have hnd : order.Nodup := h.nodup_iff.2 List.nodup_range
  have hi : ∀ p q k : Nat, order[p]? = some k → order[q]? = some k → p = q := by
    intro p q k h1 h2
    obtain ⟨hp, e1⟩ := List.getElem?_eq_some_iff.1 h1
    obtain ⟨hq, e2⟩ := List.getElem?_eq_some_iff.1 h2
    exact (List.getElem_inj (h₀ := hp) (h₁ := hq) hnd).1 (e1.trans e2.symm)
  have inv : LoopInv order row row (List.replicate row.length false) := by
    refine ⟨rfl, by simp, ?_, fun _ _ => rfl, ?_⟩
    · intro p k hp; simp [List.getElem?_replicate] at hp
    · intro p hp; simp [List.getElem?_replicate] at hp
  obtain ⟨r, sw, h1, h2, _, h4⟩ := loop_ok order row hl hr hi fuel hf (List.range row.length) (by simp) row _ inv
  refine ⟨r, ?_, h2.rlen, ?_⟩
  · unfold reorderRow; rw [if_neg (by omega)]; exact h1
  · intro i k hk
    obtain ⟨hp, _⟩ := List.getElem?_eq_some_iff.1 hk
    exact h2.done i k (h4 i (by simp; omega)) hk

/-- An order of the wrong size is rejected. -/
theorem reorder_rejects (row : List α) (order : List Nat) (h : order.length ≠ row.length) (fuel : Nat) :
    reorderRow fuel row order = some .throw := by
  unfold reorderRow; rw [if_pos h]

/-- An order that is not a permutation can make the loop run forever. -/
theorem reorder_may_not_terminate (a b : α) (fuel : Nat) : reorderRow fuel [a, b] [1, 1] = none := by
  have key : ∀ fuel : Nat, ∀ row : List α, row.length = 2 → ∀ sw : List Bool, sw.length = 2 → ∀ last, last < 2 →
      reorderCycle [1, 1] 0 fuel row sw last 1 = none := by
    intro fuel
    induction fuel with
    | zero => intro row _ sw _ last _; simp [reorderCycle]
    | succ n ih =>
      intro row hr sw hs last hl
      rw [reorderCycle]
      rw [if_neg (by decide)]
      simp only [swapAt_ok row last 1 (by omega) (by omega), vset_ok true (show 1 < sw.length by omega)]
      exact ih _ (by simpa using hr) _ (by simpa using hs) 1 (by omega)
  have := key fuel [a, b] rfl [true, false] rfl 0 (by omega)
  unfold reorderRow
  rw [if_neg (by simp)]
  show reorderLoop [1, 1] fuel [0, 1] [a, b] [false, false] = none
  rw [reorderLoop]
  simp only [vget, vset, List.getElem?_cons_zero, List.length_cons, List.length_nil, List.set_cons_zero]
  simp [this]

section
variable [LinearOrder α]

/-- Sorting gives a permutation of the indices by which the row is ascending; equal entries keep
their order. -/
theorem sort_exact (row : List α) :
    (sortRow (fun x y => decide (x < y)) row).Perm (List.range row.length) ∧
    (sortRow (fun x y => decide (x < y)) row).Pairwise (fun a b => ∀ x y, row[a]? = some x → row[b]? = some y → x ≤ y) ∧
    ∀ a b : Nat, a < b → b < row.length → row[a]? = row[b]? →
      [a, b].Sublist (sortRow (fun x y => decide (x < y)) row) := by
  refine ⟨List.mergeSort_perm _ _, ?_, ?_⟩
  · refine List.Pairwise.imp ?_ (List.pairwise_mergeSort (le := _) ?_ ?_ (List.range row.length))
    · intro a b hab x y hx hy
      rw [hx, hy] at hab
      simpa using hab
    · intro a b c
      cases row[a]? <;> cases row[b]? <;> cases row[c]? <;> simp
      exact fun h1 h2 => le_trans h1 h2
    · intro a b
      cases row[a]? <;> cases row[b]? <;> simp
      exact le_total _ _
  · intro a b hab hb he
    refine List.pair_sublist_mergeSort ?_ ?_ ?_ ?_
    · intro a b c
      cases row[a]? <;> cases row[b]? <;> cases row[c]? <;> simp
      exact fun h1 h2 => le_trans h1 h2
    · intro a b
      cases row[a]? <;> cases row[b]? <;> simp
      exact le_total _ _
    · rw [he]; cases row[b]? <;> simp
    · rw [List.range_eq_range']
      have h1 : List.range' 0 row.length = List.range' 0 b ++ List.range' b (row.length - b) := by
        have := List.range'_append_1 (s := 0) (m := b) (n := row.length - b)
        rw [Nat.zero_add] at this
        rw [this]; congr 1; omega
      rw [h1]
      refine List.Sublist.append (l₁ := [a]) (r₁ := [b]) ?_ ?_
      · rw [List.singleton_sublist]; simp [hab]
      · rw [List.singleton_sublist]; simp; omega

/-- Sorting the indices of a row and reordering it by them sorts the row: same entries, ascending. -/
theorem sort_then_reorder (row : List α) (fuel : Nat) (hf : row.length ≤ fuel) :
    ∃ r, reorderRow fuel row (sortRow (fun x y => decide (x < y)) row) = some (.ok r) ∧ r.Perm row ∧
      r.Pairwise (· ≤ ·) := by
  obtain ⟨hp, hs, hst⟩ := sort_exact row
  clear hst
  obtain ⟨r, h1, h2, h3⟩ := reorder_exact row _ hp fuel hf
  generalize sortRow (fun x y => decide (x < y)) row = o at *
  have hol : o.length = row.length := by rw [hp.length_eq, List.length_range]
  have hlt : ∀ k ∈ o, k < row.length := fun k hk => by simpa using hp.mem_iff.1 hk
  have hr : r = o.filterMap (fun k => row[k]?) := by
    have e : o.filterMap (fun k => row[k]?) = o.pmap (fun k (hk : k < row.length) => row[k]) hlt := by
      clear h3 hs h1 hp hol
      induction o with
      | nil => rfl
      | cons k o ih =>
        have hk := hlt k List.mem_cons_self
        simp only [List.filterMap_cons, List.getElem?_eq_getElem hk, List.pmap_cons]
        rw [ih]
    rw [e]
    apply List.ext_getElem
    · simp [h2, hol]
    · intro i hi1 hi2
      have hio : i < o.length := by simpa using hi2
      have := h3 i o[i] (List.getElem?_eq_getElem hio)
      rw [List.getElem?_eq_getElem hi1, List.getElem?_eq_getElem (hlt _ (List.getElem_mem hio))] at this
      simpa using this
  refine ⟨r, h1, ?_, ?_⟩
  · rw [hr]
    have := hp.filterMap (fun k => row[k]?)
    refine this.trans ?_
    have e : ∀ l : List α, (List.range l.length).filterMap (fun k => l[k]?) = l := by
      intro l
      induction l with
      | nil => rfl
      | cons x l ih =>
        rw [List.length_cons, List.range_succ_eq_map, List.filterMap_cons]
        simp only [List.getElem?_cons_zero, List.filterMap_map]
        congr 1
    rw [e]
  · rw [hr, List.pairwise_filterMap]
    refine hs.imp ?_
    intro a b hab x hx y hy
    exact hab x y hx hy

end

/-! ### Concrete cases -/

/-- A matrix of three rows and two columns. -/
def sample : Mat Nat := ⟨2, [[1, 2], [3, 4], [5, 6]]⟩

example : Rect sample := by unfold Rect; decide
example : eraseRows sample 0 1 = .ok ⟨2, [[5, 6]]⟩ ∧ eraseCols sample 0 0 = .ok ⟨1, [[2], [4], [6]]⟩ := by decide
example : insertCol sample [7, 8, 9] 1 = .ok ⟨3, [[1, 7, 2], [3, 8, 4], [5, 9, 6]]⟩ := by decide
example : [2, 0, 3, 1].Perm (List.range 4) := by decide
example : reorderRow 4 [10, 11, 12, 13] [2, 0, 3, 1] = some (.ok [12, 10, 13, 11]) := by decide

end Verif.LinAlg
