import Verif.GridOrtho.Rect
/-!
# The quotient of the sides of a face

Models lines 325-386 and 414-522 of `CurvilinearGridOrthogonalization.cpp` for grids of which all faces of the block are there and which have no corner in the inside
of the block, so that no sum is cut off.
-/
namespace Verif.GridOrtho

section
variable {K : Type} [Field K] [DecidableEq K]

/-- A coefficient and its counter along a grid line. -/
abbrev Along (K : Type) := Nat → K × Nat

/-- One addition, `CurvilinearGridOrthogonalization.cpp:432-434, 486-488`. -/
def addBefore (z : Along K) (k : Nat) : Along K := fun i => if i = k then ((z k).1 + (z (k - 1)).1, (z (k - 1)).2 + 1) else z i

/-- The sums from the first to each face, `CurvilinearGridOrthogonalization.cpp:421-437, 476-491`. -/
def sumUp (lo up : Nat) (z : Along K) : Along K := (List.range' (lo + 1) (up - (lo + 1))).foldl addBefore z

/-- One copy, `CurvilinearGridOrthogonalization.cpp:444-452, 498-506`: behind the last face there is the missing value. -/
def copyNext (up : Nat) (z : Along K) (k : Nat) : Along K := if k + 1 < up then fun i => if i = k then z (k + 1) else z i else z

/-- The last sum copied to all faces, `CurvilinearGridOrthogonalization.cpp:439-454, 493-508`. -/
def copyDown (lo up : Nat) (z : Along K) : Along K := (List.range' lo (up - lo)).reverse.foldl (copyNext up) z

/-- The mean, `CurvilinearGridOrthogonalization.cpp:455-467, 510-522`. -/
def mean (lo up : Nat) (a : Nat → K) (k : Nat) : K :=
  let z := copyDown lo up (sumUp lo up fun i => (a i, 0))
  (z k).1 * (1 / ((z k).2 + 1))

/-- `ComputeDistance` in the plane; 0 if there is none. -/
def distance (root : K → K) (p q : Pos K) : K :=
  match p, q with
  | some p, some q => root ((q.1 - p.1) * (q.1 - p.1) + (q.2 - p.2) * (q.2 - p.2))
  | _, _ => 0

/-- The mean of bottom and upper side, `CurvilinearGridOrthogonalization.cpp:335-340`. -/
def width (root : K → K) (c : Nodes K) (n m : Nat) : K := (distance root (c n m) (c (n + 1) m) + distance root (c n (m + 1)) (c (n + 1) (m + 1))) * (1 / 2)

/-- The mean of left and right side, `CurvilinearGridOrthogonalization.cpp:337-341`. -/
def height (root : K → K) (c : Nodes K) (n m : Nat) : K := (distance root (c n m) (c n (m + 1)) + distance root (c (n + 1) m) (c (n + 1) (m + 1))) * (1 / 2)

/-- A side and the mean of the sides, `CurvilinearGridOrthogonalization.cpp:363-366`; the mean is there twice, as the coefficients `a` and `c`. -/
def mixed (f x mean : K) : Option K := do
  let t ← quot (x * mean) mean
  some (f * t + (1 - f) * mean)

/-- The quotient, `CurvilinearGridOrthogonalization.cpp:325-386`; none if a node of the block is not a number (in the code only where it is used). -/
def ratioOf (root : K → K) (f : K) (lo up : Nat × Nat) (c : Nodes K) (n m : Nat) : Option K :=
  if (List.range (up.1 + 1)).all fun i => (List.range (up.2 + 1)).all fun j => (c i j).isSome then do
    let t ← mixed f (width root c n m) (mean lo.1 up.1 (fun i => width root c i m) n)
    let e ← mixed f (height root c n m) (mean lo.2 up.2 (fun j => height root c n j) m)
    quot e t
  else none

/-! ## The mean is the mean -/

/-- The sum of `n` values. -/
def total (a : Nat → K) (lo : Nat) : Nat → K
  | 0 => 0
  | n + 1 => total a lo n + a (lo + n)

omit [DecidableEq K] in
theorem sumUp_eq {a : Nat → K} {lo : Nat} : ∀ {d k : Nat}, k < lo + 1 + d → lo ≤ k →
    ((List.range' (lo + 1) d).foldl addBefore fun i => (a i, 0)) k = (total a lo (k - lo + 1), k - lo) ∧
    ∀ i, lo + 1 + d ≤ i → ((List.range' (lo + 1) d).foldl addBefore fun i => (a i, 0)) i = (a i, 0) := by
  intro d
  induction d with
  | zero =>
    intro k h1 h2
    have : k = lo := by omega
    subst this
    simp [total]
  | succ d ih =>
    intro k h1 h2
    rw [List.range'_concat, List.foldl_append]
    simp only [List.foldl_cons, List.foldl_nil, Nat.one_mul]
    refine ⟨?_, fun i hi => ?_⟩
    · unfold addBefore
      by_cases hk : k = lo + 1 + d
      · rw [if_pos hk]
        have e1 := (ih (k := lo + 1 + d - 1) (by omega) (by omega)).1
        have e2 := (ih (k := lo + 1 + d - 1) (by omega) (by omega)).2 (lo + 1 + d) (by omega)
        unfold addBefore at e1 e2
        rw [e1, e2]
        have e3 : k - lo + 1 = (d + 1) + 1 := by omega
        have e4 : lo + 1 + d - 1 - lo + 1 = d + 1 := by omega
        have e5 : lo + 1 + d = lo + (d + 1) := by omega
        have e6 : total a lo (d + 1 + 1) = total a lo (d + 1) + a (lo + (d + 1)) := rfl
        rw [e3, e4, e6, e5]
        refine Prod.ext ?_ ?_
        · simp only; ring
        · simp only; omega
      · rw [if_neg hk]
        exact (ih (by omega) h2).1
    · unfold addBefore
      rw [if_neg (by omega)]
      exact (ih (k := lo) (by omega) (by omega)).2 i (by omega)

omit [Field K] [DecidableEq K] in
theorem copyDown_eq {lo : Nat} {z : Along K} : ∀ {d k : Nat}, lo ≤ k → k < lo + d → ∀ e, lo + d ≤ e → (∀ i, lo + d ≤ i → i < e → z i = z (e - 1)) →
    ((List.range' lo d).reverse.foldl (copyNext e) z) k = z (e - 1) := by
  intro d
  induction d generalizing z with
  | zero => intro k h1 h2; omega
  | succ d ih =>
    intro k h1 h2 e he hz
    rw [List.range'_concat, List.reverse_append, List.reverse_singleton, List.singleton_append, List.foldl_cons, Nat.one_mul]
    have hw : ∀ i, lo + d ≤ i → i < e → copyNext e z (lo + d) i = z (e - 1) := by
      intro i h1 h2
      unfold copyNext
      split
      · by_cases hi : i = lo + d
        · simp only
          rw [if_pos hi]
          exact hz _ (by omega) (by omega)
        · simp only
          rw [if_neg hi]
          exact hz _ (by omega) (by omega)
      · have : i = e - 1 := by omega
        rw [this]
    have hl : copyNext e z (lo + d) (e - 1) = z (e - 1) := hw _ (by omega) (by omega)
    by_cases hk : k = lo + d
    · subst hk
      have keep : ∀ (l : List Nat) (w : Along K), (∀ x ∈ l, x < lo + d) → (l.foldl (copyNext e) w) (lo + d) = w (lo + d) := by
        intro l
        induction l with
        | nil => intro w _; rfl
        | cons x l ihl =>
          intro w hx
          rw [List.foldl_cons, ihl _ fun y hy => hx y (by simp [hy])]
          have := hx x (by simp)
          unfold copyNext
          split
          · simp only; rw [if_neg (by omega)]
          · rfl
      rw [keep]
      · exact hw _ (by omega) (by omega)
      · intro x hx
        rw [List.mem_reverse, List.mem_range'_1] at hx
        omega
    · rw [ih h1 (by omega) e (by omega) (by rw [hl]; exact hw), hl]

/-- The mean is the sum divided by the number. -/
theorem mean_eq {lo up k : Nat} {a : Nat → K} (h1 : lo ≤ k) (h2 : k < up) : mean lo up a k = total a lo (up - lo) / ((up - lo : Nat) : K) := by
  have h3 : copyDown lo up (sumUp lo up fun i => (a i, 0)) k = (total a lo (up - lo), up - lo - 1) := by
    unfold copyDown
    rw [copyDown_eq h1 (by omega) up (by omega) (fun i _ _ => by omega)]
    unfold sumUp
    rw [(sumUp_eq (k := up - 1) (by omega) (by omega)).1]
    refine Prod.ext ?_ ?_
    · simp only
      congr 1
      omega
    · simp only; omega
  unfold mean
  simp only [h3]
  have e : (((up - lo - 1 : Nat) : K) + 1) = ((up - lo : Nat) : K) := by
    have : up - lo = (up - lo - 1) + 1 := by omega
    rw [this]
    push_cast
    ring
  rw [e]
  ring

omit [DecidableEq K] in
theorem total_const {a : Nat → K} {lo : Nat} {x : K} : ∀ {n : Nat}, (∀ i, lo ≤ i → i < lo + n → a i = x) → total a lo n = n * x := by
  intro n
  induction n with
  | zero => intro _; simp [total]
  | succ n ih =>
    intro h
    rw [total, ih fun i h1 h2 => h i h1 (by omega), h _ (by omega) (by omega)]
    push_cast
    ring

end

section
variable {K : Type} [Field K] [LinearOrder K] [IsStrictOrderedRing K]

theorem total_pos {a : Nat → K} {lo : Nat} : ∀ {n : Nat}, 0 < n → (∀ i, lo ≤ i → i < lo + n → 0 < a i) → 0 < total a lo n := by
  intro n
  induction n with
  | zero => intro h; omega
  | succ n ih =>
    intro _ h
    rw [total]
    have h1 := h (lo + n) (by omega) (by omega)
    by_cases hn : n = 0
    · subst hn
      simpa [total] using h1
    · have := ih (by omega) fun i h1 h2 => h i h1 (by omega)
      linarith

theorem mean_pos {lo up k : Nat} {a : Nat → K} (h1 : lo ≤ k) (h2 : k < up) (h : ∀ i, lo ≤ i → i < up → 0 < a i) : 0 < mean lo up a k := by
  rw [mean_eq h1 h2]
  have e1 : 0 < total a lo (up - lo) := total_pos (by omega) fun i h3 h4 => h i h3 (by omega)
  have e2 : (0 : K) < ((up - lo : Nat) : K) := by
    have : 0 < up - lo := by omega
    exact_mod_cast this
  positivity

theorem mixed_pos {f x y : K} (h0 : 0 ≤ f) (h1 : f ≤ 1) (hx : 0 < x) (hy : 0 < y) : ∃ r, mixed f x y = some r ∧ 0 < r := by
  unfold mixed
  rw [quot_pos hy.ne']
  refine ⟨_, rfl, ?_⟩
  rw [mul_div_assoc, div_self hy.ne', mul_one]
  rcases h0.lt_or_eq with h | h
  · have e1 : 0 < f * x := by positivity
    have e2 : 0 ≤ (1 - f) * y := mul_nonneg (by linarith) hy.le
    linarith
  · rw [← h]
    linarith

/-- The quotient is a positive number if no two neighbouring nodes coincide. -/
theorem ratioOf_good {root : K → K} {f : K} {lo up : Nat × Nat} {c : Nodes K} {n m : Nat} (h0 : 0 ≤ f) (h1 : f ≤ 1)
    (hs : ∀ i j, i ≤ up.1 → j ≤ up.2 → (c i j).isSome) (hn : lo.1 ≤ n) (hn' : n < up.1) (hm : lo.2 ≤ m) (hm' : m < up.2)
    (hw : ∀ i, lo.1 ≤ i → i < up.1 → 0 < width root c i m) (hh : ∀ j, lo.2 ≤ j → j < up.2 → 0 < height root c n j) : Good (ratioOf root f lo up c n m) := by
  unfold ratioOf
  rw [if_pos]
  · obtain ⟨t, e1, p1⟩ := mixed_pos h0 h1 (hw n hn hn') (mean_pos (a := fun i => width root c i m) hn hn' hw)
    obtain ⟨e, e2, p2⟩ := mixed_pos h0 h1 (hh m hm hm') (mean_pos (a := fun j => height root c n j) hm hm' hh)
    simp only [e1, e2, Option.bind_eq_bind, Option.bind_some, quot_pos p1.ne']
    exact ⟨e / t, rfl, by positivity⟩
  · simp only [List.all_eq_true, List.mem_range]
    intro i hi j hj
    exact hs i j (by omega) (by omega)

/-- The quotient of a rectangular grid. -/
theorem ratioOf_rect {root : K → K} (hroot : ∀ x, 0 < x → root (x * x) = x) {f h k : K} (hh : 0 < h) (hk : 0 < k)
    {lo up : Nat × Nat} {n m : Nat} (hn : lo.1 ≤ n) (hn' : n < up.1) (hm : lo.2 ≤ m) (hm' : m < up.2) : ratioOf root f lo up (rectangle h k) n m = some (k / h) := by
  have ew : ∀ i j, width root (rectangle h k) i j = h := by
    intro i j
    unfold width distance rectangle
    simp only
    push_cast
    have e1 : (h * ((i : K) + 1) - h * i) * (h * ((i : K) + 1) - h * i) + (k * (j : K) - k * j) * (k * (j : K) - k * j) = h * h := by ring
    have e2 : (h * ((i : K) + 1) - h * i) * (h * ((i : K) + 1) - h * i) + (k * ((j : K) + 1) - k * (j + 1)) * (k * ((j : K) + 1) - k * (j + 1)) = h * h := by ring
    rw [e1, e2, hroot h hh]
    ring
  have eh : ∀ i j, height root (rectangle h k) i j = k := by
    intro i j
    unfold height distance rectangle
    simp only
    push_cast
    have e1 : (h * (i : K) - h * i) * (h * (i : K) - h * i) + (k * ((j : K) + 1) - k * j) * (k * ((j : K) + 1) - k * j) = k * k := by ring
    have e2 : (h * ((i : K) + 1) - h * (i + 1)) * (h * ((i : K) + 1) - h * (i + 1)) + (k * ((j : K) + 1) - k * j) * (k * ((j : K) + 1) - k * j) = k * k := by ring
    rw [e1, e2, hroot k hk]
    ring
  have em : ∀ {lo up i : Nat} {x : K}, lo ≤ i → i < up → mean lo up (fun _ => x) i = x := by
    intro lo up i x h1 h2
    rw [mean_eq h1 h2, total_const (x := x) fun _ _ _ => rfl]
    have : ((up - lo : Nat) : K) ≠ 0 := by
      have : up - lo ≠ 0 := by omega
      exact_mod_cast this
    rw [mul_comm, mul_div_assoc, div_self this, mul_one]
  have ex : ∀ x : K, 0 < x → mixed f x x = some x := by
    intro x hx
    unfold mixed
    rw [quot_pos hx.ne']
    simp only [Option.bind_eq_bind, Option.bind_some]
    rw [mul_div_assoc, div_self hx.ne']
    congr 1
    ring
  unfold ratioOf
  rw [if_pos]
  · simp only [ew, eh]
    rw [em hn hn', em hm hm', ex h hh, ex k hk]
    simp only [Option.bind_eq_bind, Option.bind_some]
    exact quot_pos hh.ne'
  · simp [rectangle]

end

end Verif.GridOrtho
