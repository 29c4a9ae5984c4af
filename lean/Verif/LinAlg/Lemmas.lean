import Verif.LinAlg.Model
/-!
# Lemmas about matrix editing
-/
namespace Verif.LinAlg
variable {α : Type}

theorem moveUp_ok (n dst src : Nat) (l : List α) (h1 : dst ≤ src) (h2 : src + n = l.length) :
    ∃ l', moveUp n dst src l = .ok l' ∧ l'.length = l.length ∧ l'.take (dst + n) = l.take dst ++ l.drop src := by
  induction n generalizing dst src l with
  | zero =>
    refine ⟨l, rfl, rfl, ?_⟩
    rw [List.drop_eq_nil_of_le (by omega)]
    simp
  | succ n ih =>
    have hs : src < l.length := by omega
    obtain ⟨l', e, hl, ht⟩ := ih (dst + 1) (src + 1) (l.set dst l[src]) (by omega) (by simp; omega)
    refine ⟨l', ?_, by simpa using hl, ?_⟩
    · rw [moveUp, vget_ok hs, Res.ok_bind, vset_ok _ (by omega), Res.ok_bind]
      exact e
    · rw [show dst + (n + 1) = dst + 1 + n by omega, ht, List.drop_set_of_lt (by omega), List.drop_eq_getElem_cons hs]
      rw [List.take_succ_eq_append_getElem (by simp; omega), List.take_set_of_le (Nat.le_refl _)]
      simp

theorem eraseBody_ok (l : List α) (b e : Nat) (h1 : b ≤ e) (h2 : e < l.length) :
    eraseBody l b e = .ok (l.take b ++ l.drop (e + 1)) := by
  obtain ⟨l', h, _, ht⟩ := moveUp_ok (l.length - (e - b + 1) - b) b (e + 1) l (by omega) (by omega)
  unfold eraseBody
  simp only [h, Res.ok_bind]
  rw [← ht]
  congr 2
  omega

theorem mapRows_ok {f : List α → Res (List α)} {g : List α → List α} (rs : List (List α))
    (h : ∀ r ∈ rs, f r = .ok (g r)) : mapRows f rs = .ok (rs.map g) := by
  induction rs with
  | nil => rfl
  | cons r rs ih =>
    simp [mapRows, h r List.mem_cons_self, ih (fun q hq => h q (List.mem_cons_of_mem _ hq))]

theorem insertInRow_ok (i : Nat) (rs : List (List α)) (v : List α) (h : v.length = rs.length) :
    insertInRow i rs v = .ok (List.zipWith (fun r x => r.take i ++ [x] ++ r.drop i) rs v) := by
  induction rs generalizing v with
  | nil => cases v with
    | nil => rfl
    | cons => simp at h
  | cons r rs ih => cases v with
    | nil => simp at h
    | cons x v => simp [insertInRow, ih v (by simpa using h)]

theorem swapAt_ok (l : List α) (a b : Nat) (ha : a < l.length) (hb : b < l.length) :
    swapAt l a b = .ok ((l.set a l[b]).set b l[a]) := by
  simp [swapAt, vget_ok ha, vget_ok hb, vset_ok _ ha, vset_ok (l := l.set a l[b]) (i := b) _ (by simpa using hb)]

/-! ### Reordering -/

/-- State of the `while` loop: `sw` marks the places already visited, `last` the one just written,
which holds the entry that belongs where the cycle closes. -/
structure CycleInv (order : List Nat) (orig : List α) (i : Nat) (row : List α) (sw : List Bool) (last : Nat) : Prop where
  rlen : row.length = orig.length
  slen : sw.length = orig.length
  si : sw[i]? = some true
  sl : sw[last]? = some true
  done : ∀ p k : Nat, sw[p]? = some true → p ≠ last → order[p]? = some k → row[p]? = orig[k]?
  held : row[last]? = orig[i]?
  rest : ∀ p : Nat, sw[p]? = some false → row[p]? = orig[p]?
  pre : ∀ q : Nat, sw[q]? = some true → q ≠ i → ∃ p : Nat, p ≠ last ∧ sw[p]? = some true ∧ order[p]? = some q

/-- State of the `for` loop. -/
structure LoopInv (order : List Nat) (orig : List α) (row : List α) (sw : List Bool) : Prop where
  rlen : row.length = orig.length
  slen : sw.length = orig.length
  done : ∀ p k : Nat, sw[p]? = some true → order[p]? = some k → row[p]? = orig[k]?
  rest : ∀ p : Nat, sw[p]? = some false → row[p]? = orig[p]?
  pre : ∀ q : Nat, sw[q]? = some true → ∃ p : Nat, sw[p]? = some true ∧ order[p]? = some q

theorem count_set_true (sw : List Bool) (j : Nat) (h : sw[j]? = some false) :
    (sw.set j true).count false + 1 = sw.count false := by
  induction sw generalizing j with
  | nil => simp at h
  | cons b sw ih =>
    cases j with
    | zero => simp at h; subst h; simp
    | succ j =>
      have := ih j (by simpa using h)
      simp only [List.set_cons_succ, List.count_cons]
      omega

theorem cycle_ok (order : List Nat) (orig : List α) (hl : order.length = orig.length)
    (hr : ∀ p k : Nat, order[p]? = some k → k < orig.length)
    (hi : ∀ p q k : Nat, order[p]? = some k → order[q]? = some k → p = q) (i : Nat) (fuel : Nat) (row : List α)
    (sw : List Bool) (last j : Nat) (inv : CycleInv order orig i row sw last) (hj : order[last]? = some j)
    (hf : sw.count false ≤ fuel) :
    ∃ row' sw', reorderCycle order i fuel row sw last j = some (.ok (row', sw')) ∧ LoopInv order orig row' sw' ∧
      ∀ p : Nat, sw[p]? = some true → sw'[p]? = some true := by
  induction fuel generalizing row sw last j with
  | zero =>
    by_cases e : i = j
    · refine ⟨row, sw, by simp [reorderCycle, e], ⟨inv.rlen, inv.slen, ?_, inv.rest, ?_⟩, fun _ h => h⟩
      · intro p k hp hk
        by_cases hpl : p = last
        · subst hpl; rw [hj] at hk; simp at hk; subst hk; rw [← e]; exact inv.held
        · exact inv.done p k hp hpl hk
      · intro q hq
        by_cases hqi : q = i
        · exact ⟨last, inv.sl, by rw [hqi, e]; exact hj⟩
        · obtain ⟨p, _, h1, h2⟩ := inv.pre q hq hqi; exact ⟨p, h1, h2⟩
    · exfalso
      have hjl : j < sw.length := by rw [inv.slen]; exact hr _ _ hj
      have hno : sw[j]? ≠ some true := by
        intro ht
        obtain ⟨p, h1, _, h2⟩ := inv.pre j ht (Ne.symm e)
        exact h1 (hi _ _ _ h2 hj)
      have hfalse : sw[j]? = some false := by
        rw [List.getElem?_eq_getElem hjl] at hno ⊢
        cases h : sw[j] <;> simp_all
      have := count_set_true sw j hfalse
      omega
  | succ fuel ih =>
    by_cases e : i = j
    · refine ⟨row, sw, by simp [reorderCycle, e], ⟨inv.rlen, inv.slen, ?_, inv.rest, ?_⟩, fun _ h => h⟩
      · intro p k hp hk
        by_cases hpl : p = last
        · subst hpl; rw [hj] at hk; simp at hk; subst hk; rw [← e]; exact inv.held
        · exact inv.done p k hp hpl hk
      · intro q hq
        by_cases hqi : q = i
        · exact ⟨last, inv.sl, by rw [hqi, e]; exact hj⟩
        · obtain ⟨p, _, h1, h2⟩ := inv.pre q hq hqi; exact ⟨p, h1, h2⟩
    · have hjo : j < orig.length := hr _ _ hj
      have hjl : j < sw.length := by rw [inv.slen]; exact hjo
      have hno : sw[j]? ≠ some true := by
        intro ht
        obtain ⟨p, h1, _, h2⟩ := inv.pre j ht (Ne.symm e)
        exact h1 (hi _ _ _ h2 hj)
      have hfalse : sw[j]? = some false := by
        rw [List.getElem?_eq_getElem hjl] at hno ⊢
        cases h : sw[j] <;> simp_all
      have hlast : last < sw.length := by
        rcases Nat.lt_or_ge last sw.length with h | h
        · exact h
        · have := inv.sl; rw [List.getElem?_eq_none h] at this; simp at this
      have hne : last ≠ j := by rintro rfl; rw [inv.sl] at hfalse; simp at hfalse
      have hlr : last < row.length := by rw [inv.rlen, ← inv.slen]; exact hlast
      have hjr : j < row.length := by rw [inv.rlen]; exact hjo
      have hjord : j < order.length := by rw [hl]; exact hjo
      have hget : ∀ p : Nat, ((row.set last row[j]).set j row[last])[p]? =
          if p = j then row[last]? else if p = last then row[j]? else row[p]? := by
        intro p
        rw [List.getElem?_set, List.getElem?_set]
        by_cases h1 : p = j
        · subst h1; simp [hjr, hlr]
        · rw [if_neg (Ne.symm h1), if_neg h1]
          by_cases h2 : p = last
          · subst h2; simp [hlr, hjr]
          · rw [if_neg (Ne.symm h2), if_neg h2]
      have hsw : ∀ p : Nat, (sw.set j true)[p]? = if p = j then some true else sw[p]? := by
        intro p
        rw [List.getElem?_set]
        by_cases h1 : p = j
        · subst h1; simp [hjl]
        · rw [if_neg (Ne.symm h1), if_neg h1]
      have inv' : CycleInv order orig i ((row.set last row[j]).set j row[last]) (sw.set j true) j := by
        refine ⟨by simpa using inv.rlen, by simpa using inv.slen, ?_, ?_, ?_, ?_, ?_, ?_⟩
        · rw [hsw, if_neg e]; exact inv.si
        · rw [hsw, if_pos rfl]
        · intro p k hp hpj hk
          rw [hsw, if_neg hpj] at hp
          rw [hget, if_neg hpj]
          by_cases hpl : p = last
          · subst hpl
            rw [hj] at hk; simp at hk; subst hk
            rw [if_pos rfl]; exact inv.rest j hfalse
          · rw [if_neg hpl]; exact inv.done p k hp hpl hk
        · rw [hget, if_pos rfl]; exact inv.held
        · intro p hp
          by_cases hpj : p = j
          · rw [hsw, if_pos hpj] at hp; simp at hp
          · rw [hsw, if_neg hpj] at hp
            have hpl : p ≠ last := by rintro rfl; rw [inv.sl] at hp; simp at hp
            rw [hget, if_neg hpj, if_neg hpl]; exact inv.rest p hp
        · intro q hq hqi
          by_cases hqj : q = j
          · subst hqj
            exact ⟨last, hne, by rw [hsw, if_neg hne]; exact inv.sl, hj⟩
          · rw [hsw, if_neg hqj] at hq
            obtain ⟨p, h1, h2, h3⟩ := inv.pre q hq hqi
            have hpj : p ≠ j := by rintro rfl; exact hno h2
            exact ⟨p, hpj, by rw [hsw, if_neg hpj]; exact h2, h3⟩
      obtain ⟨row', sw', h1, h2, h3⟩ := ih _ _ j order[j] inv' (List.getElem?_eq_getElem hjord)
        (by have := count_set_true sw j hfalse; omega)
      refine ⟨row', sw', ?_, h2, ?_⟩
      · rw [reorderCycle, if_neg e]
        simp only [swapAt_ok row last j hlr hjr, vset_ok true hjl, vget_ok hjord]
        exact h1
      · intro p hp
        apply h3
        rw [hsw]; split
        · rfl
        · exact hp

theorem loop_ok (order : List Nat) (orig : List α) (hl : order.length = orig.length)
    (hr : ∀ p k : Nat, order[p]? = some k → k < orig.length)
    (hi : ∀ p q k : Nat, order[p]? = some k → order[q]? = some k → p = q) (fuel : Nat) (hf : orig.length ≤ fuel)
    (is : List Nat) (his : ∀ i ∈ is, i < orig.length) (row : List α) (sw : List Bool) (inv : LoopInv order orig row sw) :
    ∃ row' sw', reorderLoop order fuel is row sw = some (.ok row') ∧ LoopInv order orig row' sw' ∧
      (∀ p : Nat, sw[p]? = some true → sw'[p]? = some true) ∧ ∀ i ∈ is, sw'[i]? = some true := by
  induction is generalizing row sw with
  | nil => exact ⟨row, sw, rfl, inv, fun _ h => h, by simp⟩
  | cons i is ih =>
    have hio : i < orig.length := his i List.mem_cons_self
    have his' : ∀ i ∈ is, i < orig.length := fun k hk => his k (List.mem_cons_of_mem _ hk)
    have hsl : i < sw.length := by rw [inv.slen]; exact hio
    have hol : i < order.length := by rw [hl]; exact hio
    cases hb : sw[i] with
    | true =>
      obtain ⟨row', sw', h1, h2, h3, h4⟩ := ih his' row sw inv
      refine ⟨row', sw', ?_, h2, h3, ?_⟩
      · rw [reorderLoop, vget_ok hsl, hb]; exact h1
      · intro k hk
        rcases List.mem_cons.1 hk with rfl | hk
        · exact h3 _ (by rw [List.getElem?_eq_getElem hsl, hb])
        · exact h4 k hk
    | false =>
      have hfalse : sw[i]? = some false := by rw [List.getElem?_eq_getElem hsl, hb]
      have hsw : ∀ p : Nat, (sw.set i true)[p]? = if p = i then some true else sw[p]? := by
        intro p
        rw [List.getElem?_set]
        by_cases h1 : p = i
        · subst h1; simp [hsl]
        · rw [if_neg (Ne.symm h1), if_neg h1]
      have cinv : CycleInv order orig i row (sw.set i true) i := by
        refine ⟨inv.rlen, by simpa using inv.slen, by rw [hsw, if_pos rfl], by rw [hsw, if_pos rfl], ?_,
          inv.rest i hfalse, ?_, ?_⟩
        · intro p k hp hpi hk
          rw [hsw, if_neg hpi] at hp
          exact inv.done p k hp hk
        · intro p hp
          by_cases hpi : p = i
          · rw [hsw, if_pos hpi] at hp; simp at hp
          · rw [hsw, if_neg hpi] at hp; exact inv.rest p hp
        · intro q hq hqi
          rw [hsw, if_neg hqi] at hq
          obtain ⟨p, h1, h2⟩ := inv.pre q hq
          have hpi : p ≠ i := by rintro rfl; rw [hfalse] at h1; simp at h1
          exact ⟨p, hpi, by rw [hsw, if_neg hpi]; exact h1, h2⟩
      have hcount : (sw.set i true).count false ≤ fuel := by
        have h1 : (sw.set i true).count false ≤ (sw.set i true).length := List.count_le_length
        rw [List.length_set, inv.slen] at h1
        omega
      obtain ⟨row1, sw1, h1, h2, h3⟩ := cycle_ok order orig hl hr hi i fuel row (sw.set i true) i order[i] cinv
        (List.getElem?_eq_getElem hol) hcount
      obtain ⟨row', sw', g1, g2, g3, g4⟩ := ih his' row1 sw1 h2
      refine ⟨row', sw', ?_, g2, ?_, ?_⟩
      · rw [reorderLoop, vget_ok hsl, hb]
        simp only [vget_ok hol, vset_ok true hsl, h1]
        exact g1
      · intro p hp
        apply g3; apply h3
        rw [hsw]; split
        · rfl
        · exact hp
      · intro k hk
        rcases List.mem_cons.1 hk with rfl | hk
        · apply g3; apply h3; rw [hsw, if_pos rfl]
        · exact g4 k hk

end Verif.LinAlg
