import Verif.ErrorReport.Model
/-!
# C34: every failure is reported
-/
namespace Verif.ErrorReport

/-! ### Specification -/

/-- What a C program sees in an array: the characters before the first NUL. -/
def cstr (b : List Nat) : List Nat := b.takeWhile (fun c => c != 0)

/-- The documented exit codes, `Exceptions.hpp:51-63`. -/
def documented : Option Exc → Int
  | none => 0
  | some (.kernel .meshKernel _) => 1
  | some (.kernel .notImplemented _) => 2
  | some (.kernel .algorithm _) => 3
  | some (.kernel .constraint _) => 4
  | some (.geometry ..) => 5
  | some (.kernel .linearAlgebra _) => 6
  | some (.kernel .range _) => 7
  | some (.stdlib _) => 8
  | some .unknown => 9

/-- The text of an exception. -/
def text : Exc → List Nat
  | .geometry w _ _ => cstr w
  | .kernel _ w => cstr w
  | .stdlib w => cstr w
  | .unknown => unknownText

/-- The text of the latest failure in a history (oldest first), `t` if there is none. -/
def latest (t : List Nat) : List (Option Exc) → List Nat
  | [] => t
  | none :: cs => latest t cs
  | some e :: cs => latest (text e) cs

/-- The place named by the latest geometry failure. -/
def latestPlace (p : Nat × Int) : List (Option Exc) → Nat × Int
  | [] => p
  | some (.geometry _ i l) :: cs => latestPlace (i, l) cs
  | _ :: cs => latestPlace p cs

/-! ### Lemmas -/

theorem strncpy_ok (n : Nat) (src dst : List Nat) (h : n ≤ dst.length) :
    strncpy n src dst =
      .ok ((cstr src).take n ++ List.replicate (n - (cstr src).length) 0 ++ dst.drop n) := by
  induction n generalizing src dst with
  | zero => simp [strncpy]
  | succ n ih =>
    cases dst with
    | nil => simp at h
    | cons d dst =>
      have h' : n ≤ dst.length := by simpa using h
      have hnil := ih [] dst h'
      cases src with
      | nil =>
        rw [strncpy, hnil]
        simp [cstr, List.replicate_succ]
      | cons c src =>
        rw [strncpy]
        by_cases hc : c = 0
        · rw [if_pos hc, hnil]
          subst hc
          simp [cstr, List.replicate_succ]
        · rw [if_neg hc, ih src dst h']
          simp [cstr, hc]

theorem takeWhile_append_zero (l r : List Nat) (h : ∀ c ∈ l, c ≠ 0) : cstr (l ++ 0 :: r) = l := by
  induction l with
  | nil => simp [cstr]
  | cons c l ih =>
    have hc : c ≠ 0 := h c List.mem_cons_self
    have := ih (fun x hx => h x (List.mem_cons_of_mem _ hx))
    simp only [cstr] at this
    simp [cstr, hc, this]

theorem cstr_ne_zero (w : List Nat) : ∀ c ∈ cstr w, c ≠ 0 := by
  induction w with
  | nil => simp [cstr]
  | cons x w ih =>
    by_cases hx : x = 0
    · simp [cstr, hx]
    · have e : cstr (x :: w) = x :: cstr w := by simp [cstr, hx]
      rw [e]
      intro c hc
      rcases List.mem_cons.1 hc with rfl | hc
      · exact hx
      · exact ih c hc

/-- The invariant: the buffer has its declared size and ends with NUL. -/
structure Inv (s : State) : Prop where
  size : s.buffer.length = bufferSize
  last : s.buffer.drop maxChars = [0]

theorem inv_init : Inv init := by constructor <;> decide +kernel

theorem copy_spec (s : State) (h : Inv s) (w : List Nat) :
    ∃ b, strncpy maxChars w s.buffer = .ok b ∧ b.length = bufferSize ∧ b.drop maxChars = [0] ∧
      cstr b = (cstr w).take maxChars := by
  refine ⟨_, strncpy_ok _ _ _ (by rw [h.size]; decide), ?_, ?_, ?_⟩
  · rw [h.last]
    simp only [List.length_append, List.length_take, List.length_replicate, List.length_singleton, maxChars, bufferSize]
    omega
  · rw [h.last, List.drop_append_of_le_length (by simp; omega), List.drop_eq_nil_of_le (by simp; omega)]
    rfl
  · rw [h.last]
    have hne : ∀ c ∈ (cstr w).take maxChars, c ≠ 0 := fun c hc => cstr_ne_zero w c (List.mem_of_mem_take hc)
    cases hk : maxChars - (cstr w).length with
    | zero =>
      simp only [List.replicate_zero, List.append_nil]
      exact takeWhile_append_zero _ [] hne
    | succ k =>
      rw [List.replicate_succ, List.append_assoc, List.cons_append]
      exact takeWhile_append_zero _ _ hne

theorem cstr_unknownText : cstr unknownText = unknownText := by decide +kernel

theorem call_spec (s : State) (h : Inv s) (c : Option Exc) :
    ∃ s', call s c = .ok (documented c, s') ∧ Inv s' ∧
      cstr s'.buffer = (match c with | none => cstr s.buffer | some e => (text e).take maxChars) ∧
      (s'.index, s'.location) = latestPlace (s.index, s.location) [c] := by
  cases c with
  | none => exact ⟨s, rfl, h, rfl, rfl⟩
  | some e =>
    cases e with
    | geometry w i l =>
      obtain ⟨b, e1, e2, e3, e4⟩ := copy_spec s h w
      exact ⟨⟨b, i, l⟩, by simp [call, handle, e1, documented], ⟨e2, e3⟩, e4, rfl⟩
    | kernel k w =>
      obtain ⟨b, e1, e2, e3, e4⟩ := copy_spec s h w
      exact ⟨{ s with buffer := b }, by cases k <;> simp [call, handle, e1, documented, kindCode], ⟨e2, e3⟩, e4, rfl⟩
    | stdlib w =>
      obtain ⟨b, e1, e2, e3, e4⟩ := copy_spec s h w
      exact ⟨{ s with buffer := b }, by simp [call, handle, e1, documented], ⟨e2, e3⟩, e4, rfl⟩
    | unknown =>
      obtain ⟨b, e1, e2, e3, e4⟩ := copy_spec s h unknownText
      exact ⟨{ s with buffer := b }, by simp [call, handle, e1, documented], ⟨e2, e3⟩,
        by rw [e4, cstr_unknownText]; rfl, rfl⟩

theorem run_spec (cs : List (Option Exc)) (s : State) (h : Inv s) (t : List Nat)
    (ht : cstr s.buffer = t.take maxChars) :
    ∃ s', run s cs = .ok (cs.map documented, s') ∧ Inv s' ∧ cstr s'.buffer = (latest t cs).take maxChars ∧
      (s'.index, s'.location) = latestPlace (s.index, s.location) cs := by
  induction cs generalizing s t with
  | nil => exact ⟨s, rfl, h, ht, rfl⟩
  | cons c cs ih =>
    obtain ⟨s1, e1, i1, m1, p1⟩ := call_spec s h c
    cases c with
    | none =>
      obtain ⟨s2, e2, i2, m2, p2⟩ := ih s1 i1 t (by rw [m1, ht])
      refine ⟨s2, by simp [run, e1, e2], i2, m2, ?_⟩
      rw [p2, p1]; rfl
    | some e =>
      obtain ⟨s2, e2, i2, m2, p2⟩ := ih s1 i1 (text e) m1
      refine ⟨s2, by simp [run, e1, e2], i2, m2, ?_⟩
      rw [p2, p1]
      cases e <;> rfl

/-! ### Properties -/

/-- After any sequence of calls, failing or not: no memory is overrun; each call returned the
documented code of its own outcome; and a caller who passes a buffer of at least 512 characters reads
the text of the latest failure, cut to 511 characters, with the rest of their buffer untouched. -/
theorem failures_reported (cs : List (Option Exc)) (caller : List Nat) (hc : bufferSize ≤ caller.length) :
    ∃ s out, run init cs = .ok (cs.map documented, s) ∧ getError s caller = .ok out ∧
      out.length = caller.length ∧ cstr out = (latest [] cs).take 511 ∧
      out.drop bufferSize = caller.drop bufferSize := by
  obtain ⟨s, e, i, m, _⟩ := run_spec cs init inv_init [] (by decide +kernel)
  have hb : s.buffer = s.buffer.take maxChars ++ [0] := by rw [← i.last, List.take_append_drop]
  refine ⟨s, s.buffer ++ caller.drop s.buffer.length, e, ?_, ?_, ?_, ?_⟩
  · unfold getError
    rw [if_neg (by rw [i.size]; omega)]
  · rw [List.length_append, List.length_drop, i.size]; omega
  · rw [show (511 : Nat) = maxChars from rfl, ← m]
    have hz : ∀ l r : List Nat, cstr (l ++ [0] ++ r) = cstr (l ++ [0]) := by
      intro l r
      induction l with
      | nil => simp [cstr]
      | cons x l ih =>
        simp only [cstr, List.cons_append, List.takeWhile_cons] at ih ⊢
        split
        · rw [ih]
        · rfl
    rw [hb]
    exact hz _ _
  · rw [List.drop_append_of_le_length (by rw [i.size]; exact Nat.le_refl _), i.size,
      List.drop_eq_nil_of_le (by rw [i.size]; exact Nat.le_refl _), List.nil_append]

/-- The class an exception is caught as, forgetting its text and place. -/
def cls : Exc → Option (Option (Option Kind))
  | .kernel k _ => some (some (some k))
  | .geometry .. => some (some none)
  | .stdlib _ => some none
  | .unknown => none

/-- At any point of any history a call returns zero exactly when it did not fail, and two failures
return the same code exactly when they are of the same class. -/
theorem exit_codes (cs : List (Option Exc)) (e e' : Exc) :
    ∃ codes s n n' s0 s1 s2, run init cs = .ok (codes, s) ∧ call s none = .ok (0, s0) ∧
      call s (some e) = .ok (n, s1) ∧ call s (some e') = .ok (n', s2) ∧ n ≠ 0 ∧ n' ≠ 0 ∧
      (n = n' ↔ cls e = cls e') := by
  obtain ⟨s, r, i, _⟩ := run_spec cs init inv_init [] (by decide +kernel)
  obtain ⟨s1, h1, _⟩ := call_spec s i (some e)
  obtain ⟨s2, h2, _⟩ := call_spec s i (some e')
  have nz : ∀ e : Exc, documented (some e) ≠ 0 := by
    intro e; cases e <;> simp [documented] <;> (rename_i k _; cases k <;> simp)
  refine ⟨_, s, _, _, s, s1, s2, r, rfl, h1, h2, nz e, nz e', ?_⟩
  have hk : ∀ k k' : Kind, ∀ w w', (documented (some (.kernel k w)) = documented (some (.kernel k' w')) ↔ k = k') := by
    intro k k' w w'; cases k <;> cases k' <;> simp [documented]
  have hn : ∀ k : Kind, ∀ w, documented (some (.kernel k w)) ≠ 5 ∧ documented (some (.kernel k w)) ≠ 8 ∧
      documented (some (.kernel k w)) ≠ 9 := by
    intro k w; cases k <;> simp [documented]
  have d5 : ∀ w i l, documented (some (.geometry w i l)) = 5 := fun _ _ _ => rfl
  have d8 : ∀ w, documented (some (.stdlib w)) = 8 := fun _ => rfl
  have d9 : documented (some .unknown) = 9 := rfl
  cases e <;> cases e' <;> simp [d5, d8, d9, hk, hn, cls, fun k w => (hn k w).1.symm, fun k w => (hn k w).2.1.symm,
    fun k w => (hn k w).2.2.symm]

/-- A caller's buffer shorter than 512 characters is overrun, in every state. -/
theorem short_buffer_overrun (cs : List (Option Exc)) (caller : List Nat) (hc : caller.length < bufferSize) :
    ∃ s, run init cs = .ok (cs.map documented, s) ∧ getError s caller = .ub := by
  obtain ⟨s, e, i, _⟩ := run_spec cs init inv_init [] (by decide +kernel)
  exact ⟨s, e, by unfold getError; rw [if_pos (by rw [i.size]; exact hc)]⟩

/-- The place reported by the geometry query is that of the latest geometry failure; failures of
other kinds and successes leave it alone. -/
theorem geometry_place (cs : List (Option Exc)) :
    ∃ codes s, run init cs = .ok (codes, s) ∧ getGeometryError s = latestPlace (0, 3) cs := by
  obtain ⟨s, e, _, _, p⟩ := run_spec cs init inv_init [] (by decide +kernel)
  exact ⟨_, s, e, p⟩

/-! ### Concrete cases -/

/-- A long message, then a short one, then a success. -/
def history : List (Option Exc) :=
  [some (.geometry (List.replicate 600 65) 7 1), some (.kernel .range [66, 67]), none]

example : latest [] history = [66, 67] ∧ latestPlace (0, 3) history = (7, 1) ∧
    history.map documented = [5, 7, 0] := by decide
example : bufferSize ≤ (List.replicate 600 1).length := by decide +kernel

end Verif.ErrorReport
