import Verif.Curvi.Grid
import Mathlib.Tactic.Ring
/-!
# Lemmas about grid indexing and conversion
-/
namespace Verif.Curvi
variable {P : Type}

/-- The part of the matrix not hidden by the offsets is at least two by two. -/
structure WF (g : Grid P) : Prop where
  n : g.sn + g.en + 2 ≤ g.rows
  m : g.sm + g.em + 2 ≤ g.cols

/-- The visible node `(n, m)`. -/
def Grid.node (g : Grid P) (n m : Nat) : P := g.cell (n + g.sn) (m + g.sm)

theorem WF.two_le_numN {g : Grid P} (h : WF g) : 2 ≤ g.numN := by have := h.n; unfold Grid.numN; omega
theorem WF.two_le_numM {g : Grid P} (h : WF g) : 2 ≤ g.numM := by have := h.m; unfold Grid.numM; omega

theorem getNode_ok {g : Grid P} {n m : Nat} (hn : n < g.numN) (hm : m < g.numM) :
    getNode g n m = .ok (g.node n m) := by
  unfold Grid.numN at hn; unfold Grid.numM at hm
  unfold getNode Grid.node
  rw [if_neg (by omega), if_neg (by omega), if_pos (by omega)]

theorem setNode_ok {g : Grid P} {n m : Nat} (p : P) (hn : n < g.numN) (hm : m < g.numM) :
    setNode g n m p = .ok { g with cell := upd g.cell (n + g.sn) (m + g.sm) p } := by
  unfold Grid.numN at hn; unfold Grid.numM at hm
  unfold setNode
  rw [if_neg (by omega), if_neg (by omega), if_pos (by omega)]

theorem isValid_iff (g : Grid P) : g.isValid = true ↔ 1 < g.numM ∧ 1 < g.numN := by
  simp [Grid.isValid]

theorem store_ok {α : Type} (d : α) (done : List α) (k : Nat) (x : α) :
    store x (done ++ List.replicate (k + 1) d, done.length) = .ok ((done ++ [x]) ++ List.replicate k d, (done ++ [x]).length) := by
  unfold store
  rw [vset_ok _ (by simp)]
  simp [List.replicate_succ]

/-- Storing a row of values. -/
theorem forRange_store {α : Type} (d : α) (g : Nat → α) (done : List α)
    (k M : Nat) (body : Nat → List α × Nat → Res (List α × Nat))
    (hb : ∀ m, m < M → ∀ s, body m s = store (g m) s) :
    forRange 0 M body (done ++ List.replicate (M + k) d, done.length) =
      .ok ((done ++ (List.range M).map g) ++ List.replicate k d, (done ++ (List.range M).map g).length) := by
  let F : Nat → List α × Nat := fun m =>
    ((done ++ (List.range m).map g) ++ List.replicate (M - m + k) d, (done ++ (List.range m).map g).length)
  have h := forRange_eq (f := body) F (Nat.zero_le M) (by
    intro i _ hi
    show body i (F i) = .ok (F (i + 1))
    rw [hb i hi]
    simp only [F]
    have e : M - i + k = (M - (i + 1) + k) + 1 := by omega
    rw [e, store_ok]
    simp [List.range_succ])
  simpa [F] using h

/-- Storing rows of values. -/
theorem forRange_store2 {α : Type} (d : α) (g : Nat → Nat → α) (done : List α) (k N M : Nat)
    (body : Nat → Nat → List α × Nat → Res (List α × Nat))
    (hb : ∀ n m, n < N → m < M → ∀ s, body n m s = store (g n m) s) :
    forRange 0 N (fun n => forRange 0 M (body n)) (done ++ List.replicate (N * M + k) d, done.length) =
      .ok ((done ++ (List.range N).flatMap (fun n => (List.range M).map (g n))) ++ List.replicate k d,
        (done ++ (List.range N).flatMap (fun n => (List.range M).map (g n))).length) := by
  let D : Nat → List α := fun n => done ++ (List.range n).flatMap (fun n => (List.range M).map (g n))
  let F : Nat → List α × Nat := fun n => (D n ++ List.replicate ((N - n) * M + k) d, (D n).length)
  have h := forRange_eq (f := fun n => forRange 0 M (body n)) F (Nat.zero_le N) (by
    intro i _ hi
    simp only [F]
    have e : (N - i) * M + k = M + ((N - (i + 1)) * M + k) := by
      have : N - i = (N - (i + 1)) + 1 := by omega
      rw [this, Nat.add_mul]; omega
    rw [e, forRange_store d (g i) (D i) _ M (body i) (fun m hm s => hb i m hi hm s)]
    simp [D, List.range_succ])
  simpa [F, D] using h

theorem length_rows {α : Type} (g : Nat → Nat → α) (N M : Nat) :
    ((List.range N).flatMap (fun n => (List.range M).map (g n))).length = N * M := by
  induction N with
  | zero => simp
  | succ N ih =>
    rw [List.range_succ, List.flatMap_append, List.length_append, ih]
    simp [Nat.add_mul]

theorem getElem_rows {α : Type} (g : Nat → Nat → α) (N M n m : Nat) (hn : n < N) (hm : m < M) :
    ((List.range N).flatMap (fun n => (List.range M).map (g n)))[n * M + m]? = some (g n m) := by
  induction N with
  | zero => omega
  | succ N ih =>
    rw [List.range_succ, List.flatMap_append]
    by_cases c : n < N
    · have h : n * M + m < N * M := by
        calc n * M + m < n * M + M := by omega
          _ = (n + 1) * M := by rw [Nat.add_mul]; omega
          _ ≤ N * M := Nat.mul_le_mul_right _ c
      rw [List.getElem?_append_left (by rw [length_rows]; exact h), ih c]
    · have : n = N := by omega
      subst this
      rw [List.getElem?_append_right (by rw [length_rows]; omega), length_rows]
      simp [hm]

theorem computeNodes_ok [PointLike P] (g : Grid P) (hg : WF g) :
    computeNodes g = .ok ((List.range g.numN).flatMap (fun n => (List.range g.numM).map (fun m => g.node n m))) := by
  unfold computeNodes
  have hv : g.isValid = true := (isValid_iff g).2 ⟨hg.two_le_numM, hg.two_le_numN⟩
  rw [hv]
  have h := forRange_store2 (inv : P) (fun n m => g.node n m) [] 0 g.numN g.numM
    (fun n m s => do let p ← getNode g n m; store p s)
    (fun n m hn hm s => by simp [getNode_ok hn hm])
  simp only [List.nil_append, Nat.add_zero, List.length_nil] at h
  simp only [Bool.not_true, Bool.false_eq_true, if_false]
  rw [h]
  simp

theorem computeNodeIndices_ok (g : Grid P) :
    computeNodeIndices g = .ok ((List.range g.numN).flatMap (fun n => (List.range g.numM).map (fun m => (n, m)))) := by
  unfold computeNodeIndices
  have h := forRange_store2 (missing, missing) (fun n m => (n, m)) [] 0 g.numN g.numM
    (fun n m => store (n, m)) (fun n m _ _ s => rfl)
  simp only [List.nil_append, Nat.add_zero, List.length_nil] at h
  rw [h]
  simp

theorem computeEdges_ok (g : Grid P) (hg : WF g) :
    computeEdges g = .ok
      ((List.range (g.numN - 1)).flatMap (fun n => (List.range g.numM).map (fun m => (g.numM * n + m, g.numM * (n + 1) + m)))
       ++ (List.range g.numN).flatMap (fun n => (List.range (g.numM - 1)).map (fun m => (g.numM * n + m, g.numM * n + m + 1)))) := by
  unfold computeEdges
  have hv : g.isValid = true := (isValid_iff g).2 ⟨hg.two_le_numM, hg.two_le_numN⟩
  rw [hv]
  simp only [Bool.not_true, Bool.false_eq_true, if_false]
  have h := forRange_store2 ((0 : Nat), (0 : Nat)) (fun n m => (g.numM * n + m, g.numM * (n + 1) + m)) [] (g.numN * (g.numM - 1))
    (g.numN - 1) g.numM (fun n m => store (g.numM * n + m, g.numM * (n + 1) + m)) (fun n m _ _ s => rfl)
  simp only [List.nil_append, List.length_nil] at h
  have e : g.numM * (g.numN - 1) + (g.numM - 1) * g.numN = (g.numN - 1) * g.numM + g.numN * (g.numM - 1) := by ring
  rw [e, h, Res.ok_bind]
  have h2 := forRange_store2 ((0 : Nat), (0 : Nat)) (fun n m => (g.numM * n + m, g.numM * n + m + 1))
    ((List.range (g.numN - 1)).flatMap (fun n => (List.range g.numM).map (fun m => (g.numM * n + m, g.numM * (n + 1) + m)))) 0
    g.numN (g.numM - 1) (fun n m => store (g.numM * n + m, g.numM * n + m + 1)) (fun n m _ _ s => rfl)
  rw [Nat.add_zero] at h2
  rw [h2]
  simp

end Verif.Curvi
