import Verif.Smooth.Lemmas
import Verif.GridOrtho.Lemmas
/-!
# Inner nodes are on no border

With the types that `ComputeGridNodeTypes` gives, no inner node lies between the corners of a piece of a border.
-/
namespace Verif.GridOrtho
open Verif.Smooth Verif.Curvi

section
variable {P : Type} [PointLike P]

/-- The type of a node that is not on the border of the matrix. -/
theorem typeOf_inside {g : Grid P} {face : Nat → Nat → Bool} (hf : ∀ n m, n + 1 < g.numN → m + 1 < g.numM → face n m = faceValid g n m) {n m : Nat}
    (h1 : 0 < n) (h2 : n + 1 < g.numN) (h3 : 0 < m) (h4 : m + 1 < g.numM) :
    typeOf g face n m = typeFromFaces (faceValid g n m) (faceValid g (n - 1) m) (faceValid g (n - 1) (m - 1)) (faceValid g n (m - 1)) := by
  unfold typeOf
  have e1 : n - 1 + 1 = n := by omega
  have e2 : m - 1 + 1 = m := by omega
  by_cases hv : valid (g.node n m) = true
  · rw [if_neg (by simp [hv])]
    rw [if_neg (by omega), if_neg (by omega), if_neg (by omega), if_neg (by omega), if_neg (by omega), if_neg (by omega), if_neg (by omega),
      if_neg (by omega), if_neg (by omega), if_neg (by omega), if_neg (by omega), if_neg (by omega), if_neg (by omega), if_neg (by omega), if_neg (by omega),
      if_neg (by omega)]
    rw [hf n m (by omega) (by omega), hf (n - 1) m (by omega) (by omega), hf (n - 1) (m - 1) (by omega) (by omega), hf n (m - 1) (by omega) (by omega)]
  · rw [if_pos (by simp [hv])]
    have f1 : faceValid g n m = false := by simp [faceValid, hv]
    have f2 : faceValid g (n - 1) m = false := by simp [faceValid, hv, e1]
    have f3 : faceValid g (n - 1) (m - 1) = false := by simp [faceValid, hv, e1, e2]
    have f4 : faceValid g n (m - 1) = false := by simp [faceValid, hv, e2]
    rw [f1, f2, f3, f4]
    rfl

theorem right_end : ∀ tr tl bl br : Bool, typeFromFaces tr tl bl br = .bottomRight ∨ typeFromFaces tr tl bl br = .upperRight → tl ≠ bl := by decide
theorem right_back : ∀ tr tl bl br : Bool, tr ≠ br → typeFromFaces tr tl bl br ≠ .bottomLeft → typeFromFaces tr tl bl br ≠ .upperLeft → tl ≠ bl := by decide
theorem right_inner : ∀ tr tl bl br : Bool, tr ≠ br → typeFromFaces tr tl bl br ≠ .internal := by decide
theorem upper_end : ∀ tr tl bl br : Bool, typeFromFaces tr tl bl br = .upperLeft ∨ typeFromFaces tr tl bl br = .upperRight → bl ≠ br := by decide
theorem upper_back : ∀ tr tl bl br : Bool, tl ≠ tr → typeFromFaces tr tl bl br ≠ .bottomLeft → typeFromFaces tr tl bl br ≠ .bottomRight → bl ≠ br := by decide
theorem upper_inner : ∀ tr tl bl br : Bool, tl ≠ tr → typeFromFaces tr tl bl br ≠ .internal := by decide

/-- A corner at the right border of the matrix has one face. -/
theorem typeOf_last_n {g : Grid P} {face : Nat → Nat → Bool} (hc : ∀ n m, n < g.numN → m < g.numM → valid (g.node n m) = true → InFace g n m) {m : Nat}
    (hN : 2 ≤ g.numN) (h3 : 0 < m) (h4 : m + 1 < g.numM)
    (h : typeOf g face (g.numN - 1) m = .bottomRight ∨ typeOf g face (g.numN - 1) m = .upperRight) :
    faceValid g (g.numN - 1 - 1) m ≠ faceValid g (g.numN - 1 - 1) (m - 1) := by
  unfold typeOf at h
  have e1 : g.numN - 1 - 1 + 1 = g.numN - 1 := by omega
  have e2 : m - 1 + 1 = m := by omega
  by_cases hv : valid (g.node (g.numN - 1) m) = true
  swap
  · rw [if_pos (by simp [hv])] at h
    simp at h
  have hin := hc (g.numN - 1) m (by omega) (by omega) hv
  have hor : faceValid g (g.numN - 1 - 1) m = true ∨ faceValid g (g.numN - 1 - 1) (m - 1) = true := by
    obtain ⟨i, j, hi, hj, hf, hcor⟩ := hin
    unfold Corner at hcor
    have ei : i = g.numN - 1 - 1 := by omega
    subst ei
    rcases hcor.2 with e | e
    · left; rw [e]; exact hf
    · right
      have : m - 1 = j := by omega
      rw [this]; exact hf
  rw [if_neg (by simp [hv])] at h
  rw [if_neg (by omega), if_neg (by omega), if_neg (by omega), if_neg (by omega), if_neg (by omega), if_neg (by omega), if_neg (by omega),
    if_neg (by omega), if_neg (by omega), if_neg (by omega), if_neg (by omega), if_neg (by omega), if_neg (by omega)] at h
  by_cases v1 : valid (g.node (g.numN - 1) (m - 1)) = true
  swap
  · have : faceValid g (g.numN - 1 - 1) (m - 1) = false := by simp [faceValid, e1, v1]
    rw [this] at hor ⊢
    simpa using hor
  rw [if_neg (by simp [v1])] at h
  by_cases v2 : valid (g.node (g.numN - 1) (m + 1)) = true
  swap
  · have : faceValid g (g.numN - 1 - 1) m = false := by simp [faceValid, e1, v2]
    rw [this] at hor ⊢
    simpa using hor
  rw [if_neg (by simp [v2]), if_pos rfl] at h
  simp at h

/-- A corner at the upper border of the matrix has one face. -/
theorem typeOf_last_m {g : Grid P} {face : Nat → Nat → Bool} (hc : ∀ n m, n < g.numN → m < g.numM → valid (g.node n m) = true → InFace g n m) {n : Nat}
    (hM : 2 ≤ g.numM) (h3 : 0 < n) (h4 : n + 1 < g.numN)
    (h : typeOf g face n (g.numM - 1) = .upperLeft ∨ typeOf g face n (g.numM - 1) = .upperRight) :
    faceValid g (n - 1) (g.numM - 1 - 1) ≠ faceValid g n (g.numM - 1 - 1) := by
  unfold typeOf at h
  have e1 : g.numM - 1 - 1 + 1 = g.numM - 1 := by omega
  have e2 : n - 1 + 1 = n := by omega
  by_cases hv : valid (g.node n (g.numM - 1)) = true
  swap
  · rw [if_pos (by simp [hv])] at h
    simp at h
  have hin := hc n (g.numM - 1) (by omega) (by omega) hv
  have hor : faceValid g (n - 1) (g.numM - 1 - 1) = true ∨ faceValid g n (g.numM - 1 - 1) = true := by
    obtain ⟨i, j, hi, hj, hf, hcor⟩ := hin
    unfold Corner at hcor
    have ei : j = g.numM - 1 - 1 := by omega
    subst ei
    rcases hcor.1 with e | e
    · right; rw [e]; exact hf
    · left
      have : n - 1 = i := by omega
      rw [this]; exact hf
  rw [if_neg (by simp [hv])] at h
  rw [if_neg (by omega), if_neg (by omega), if_neg (by omega), if_neg (by omega), if_neg (by omega), if_neg (by omega), if_neg (by omega)] at h
  by_cases v1 : valid (g.node (n - 1) (g.numM - 1)) = true
  swap
  · have : faceValid g (n - 1) (g.numM - 1 - 1) = false := by simp [faceValid, e1, v1]
    rw [this] at hor ⊢
    simpa using hor
  rw [if_neg (by simp [v1])] at h
  by_cases v2 : valid (g.node (n + 1) (g.numM - 1)) = true
  swap
  · have : faceValid g n (g.numM - 1 - 1) = false := by simp [faceValid, e1, v2]
    rw [this] at hor ⊢
    simpa using hor
  rw [if_neg (by simp [v2]), if_pos rfl] at h
  simp at h

theorem pass {α : Type} {p : Prop} [Decidable p] {a b c : α} (h : (if p then a else b) = c) (hn : a ≠ c) : ¬ p ∧ b = c := by
  split at h
  · exact absurd h hn
  · rename_i hp; exact ⟨hp, h⟩

/-- An inner node is not on the border of the matrix. -/
theorem typeOf_internal {g : Grid P} {face : Nat → Nat → Bool} {n m : Nat} (h : typeOf g face n m = .internal) :
    n ≠ 0 ∧ n ≠ g.numN - 1 ∧ m ≠ 0 ∧ m ≠ g.numM - 1 := by
  unfold typeOf at h
  obtain ⟨h1, h⟩ := pass h (by decide)
  obtain ⟨h2, h⟩ := pass h (by decide)
  obtain ⟨h3, h⟩ := pass h (by decide)
  obtain ⟨h4, h⟩ := pass h (by decide)
  obtain ⟨h5, h⟩ := pass h (by decide)
  obtain ⟨h6, h⟩ := pass h (by decide)
  obtain ⟨h7, h⟩ := pass h (by decide)
  obtain ⟨h8, h⟩ := pass h (by decide)
  obtain ⟨h9, h⟩ := pass h (by decide)
  obtain ⟨h10, h⟩ := pass h (by decide)
  obtain ⟨h11, h⟩ := pass h (by decide)
  obtain ⟨h12, h⟩ := pass h (by decide)
  obtain ⟨h13, h⟩ := pass h (by decide)
  obtain ⟨h14, h⟩ := pass h (by decide)
  obtain ⟨h15, h⟩ := pass h (by decide)
  obtain ⟨h16, h⟩ := pass h (by decide)
  obtain ⟨h17, h⟩ := pass h (by decide)
  exact ⟨h14, h17, h6, h11⟩

variable {K : Type} [Field K] [DecidableEq K]

omit [Field K] [DecidableEq K] in
/-- No inner node lies between two corners of a horizontal border. -/
theorem inner_not_between_h {s : Setup K} {g : Grid P} {face : Nat → Nat → Bool} (hN : 2 ≤ g.numN)
    (hf : ∀ n m, n + 1 < g.numN → m + 1 < g.numM → face n m = faceValid g n m) (hc : ∀ n m, n < g.numN → m < g.numM → valid (g.node n m) = true → InFace g n m)
    (e1 : s.numN = g.numN) (ht : s.types = typeOf g face) {n m : Nat} (hm : m < g.numM) (hi : s.types n m = .internal) : ¬ BetweenH s n m := by
  rintro ⟨st, e, h1, h2, h3, -, h5, h6⟩
  rw [ht] at hi h5 h6
  obtain ⟨i1, i2, i3, i4⟩ := typeOf_internal hi
  -- left of every node up to the right corner there is one face
  have key : ∀ d i, i + d = e → st < i → faceValid g (i - 1) m ≠ faceValid g (i - 1) (m - 1) := by
    intro d
    induction d with
    | zero =>
      intro i hi _
      have : i = e := by omega
      subst this
      by_cases hl : i = g.numN - 1
      · rw [hl] at h5 ⊢
        exact typeOf_last_n hc hN (by omega) (by omega) h5
      · rw [typeOf_inside hf (by omega) (by omega) (by omega) (by omega)] at h5
        exact right_end _ _ _ _ h5
    | succ d ih =>
      intro i hi hst
      have h := ih (i + 1) (by omega) (by omega)
      rw [Nat.add_sub_cancel] at h
      have h7 := h6 i hst (by omega)
      rw [typeOf_inside hf (by omega) (by omega) (by omega) (by omega)] at h7
      exact right_back _ _ _ _ h h7.1 h7.2
  have h := key (e - (n + 1)) (n + 1) (by omega) (by omega)
  rw [Nat.add_sub_cancel] at h
  rw [typeOf_inside hf (by omega) (by omega) (by omega) (by omega)] at hi
  exact right_inner _ _ _ _ h hi

omit [Field K] [DecidableEq K] in
/-- No inner node lies between two corners of a vertical border. -/
theorem inner_not_between_v {s : Setup K} {g : Grid P} {face : Nat → Nat → Bool} (hM : 2 ≤ g.numM)
    (hf : ∀ n m, n + 1 < g.numN → m + 1 < g.numM → face n m = faceValid g n m) (hc : ∀ n m, n < g.numN → m < g.numM → valid (g.node n m) = true → InFace g n m)
    (e1 : s.numM = g.numM) (ht : s.types = typeOf g face) {n m : Nat} (hn : n < g.numN) (hi : s.types n m = .internal) : ¬ BetweenV s n m := by
  rintro ⟨st, e, h1, h2, h3, -, h5, h6⟩
  rw [ht] at hi h5 h6
  obtain ⟨i1, i2, i3, i4⟩ := typeOf_internal hi
  have key : ∀ d i, i + d = e → st < i → faceValid g (n - 1) (i - 1) ≠ faceValid g n (i - 1) := by
    intro d
    induction d with
    | zero =>
      intro i hi _
      have : i = e := by omega
      subst this
      by_cases hl : i = g.numM - 1
      · rw [hl] at h5 ⊢
        exact typeOf_last_m hc hM (by omega) (by omega) h5
      · rw [typeOf_inside hf (by omega) (by omega) (by omega) (by omega)] at h5
        exact upper_end _ _ _ _ h5
    | succ d ih =>
      intro i hi hst
      have h := ih (i + 1) (by omega) (by omega)
      rw [Nat.add_sub_cancel] at h
      have h7 := h6 i hst (by omega)
      rw [typeOf_inside hf (by omega) (by omega) (by omega) (by omega)] at h7
      exact upper_back _ _ _ _ h h7.1 h7.2
  have h := key (e - (m + 1)) (m + 1) (by omega) (by omega)
  rw [Nat.add_sub_cancel] at h
  rw [typeOf_inside hf (by omega) (by omega) (by omega) (by omega)] at hi
  exact upper_inner _ _ _ _ h hi

omit [Field K] [DecidableEq K] in
/-- With the types of a grid, inner nodes are between no corners. -/
theorem inner_free {s : Setup K} {g g1 : Grid P} {types : Nat → Nat → NodeType} (hg : WF g) (hs : setup g = .ok (g1, types)) (eN : s.numN = g1.numN)
    (eM : s.numM = g1.numM) (ht : s.types = types) {n m : Nat} (hn : n < s.numN) (hm : m < s.numM) (hi : s.types n m = .internal) :
    ¬ BetweenH s n m ∧ ¬ BetweenV s n m := by
  obtain ⟨g2, c1, c2⟩ := clean_exact g hg
  have hg1 := c2.shape.wf hg
  obtain ⟨mask, h3, _, _, h4⟩ := computeGridFacesMask_ok g2 hg1
  have hs' : setup g = .ok (g2, typeOf g2 mask.node) := by
    unfold setup
    rw [c1, Res.ok_bind, h3, Res.ok_bind]
  rw [hs] at hs'
  cases hs'
  have hc : ∀ n m, n < g1.numN → m < g1.numM → valid (g1.node n m) = true → InFace g1 n m := by
    intro n m hn hm hv
    obtain ⟨i, j, a1, a2, a3, a4, v1, v2, v3, v4⟩ := clean_no_loose_node g hg g1 c1 n m hn hm hv
    exact ⟨i, j, a3, a4, by simp [faceValid, v1, v2, v3, v4], a1, a2⟩
  exact ⟨inner_not_between_h hg1.two_le_numN h4 hc eN ht (by omega) hi, inner_not_between_v hg1.two_le_numM h4 hc eM ht (by omega) hi⟩

/-- The types of a grid without missing nodes. -/
theorem setup_full {g g1 : Grid P} {types : Nat → Nat → NodeType} (hg : WF g) (hv : ∀ n m, n < g.numN → m < g.numM → valid (g.node n m) = true)
    (hs : setup g = .ok (g1, types)) : g1 = g ∧ ∀ n m, n < g.numN → m < g.numM → types n m = fullTypes g.numN g.numM n m := by
  have hN := hg.two_le_numN
  have hM := hg.two_le_numM
  have hc : clean g = .ok g := by
    refine clean_of_no_loose g hg fun n m hn hm _ => ?_
    have f : ∀ i j, i + 1 < g.numN → j + 1 < g.numM → faceValid g i j = true := by
      intro i j hi hj
      simp [faceValid, hv i j (by omega) (by omega), hv i (j + 1) (by omega) (by omega), hv (i + 1) j (by omega) (by omega), hv (i + 1) (j + 1) (by omega) (by omega)]
    refine ⟨min n (g.numN - 2), min m (g.numM - 2), by omega, by omega, f _ _ (by omega) (by omega), ?_, ?_⟩ <;> omega
  obtain ⟨mask, h3, _, _, h4⟩ := computeGridFacesMask_ok g hg
  have hs' : setup g = .ok (g, typeOf g mask.node) := by
    unfold setup
    rw [hc, Res.ok_bind, h3, Res.ok_bind]
  rw [hs] at hs'
  cases hs'
  refine ⟨rfl, fun n m hn hm => ?_⟩
  have f : ∀ i j, i + 1 < g.numN → j + 1 < g.numM → mask.node i j = true := by
    intro i j hi hj
    rw [h4 i j hi hj]
    simp [faceValid, hv i j (by omega) (by omega), hv i (j + 1) (by omega) (by omega), hv (i + 1) j (by omega) (by omega), hv (i + 1) (j + 1) (by omega) (by omega)]
  have hv0 := hv n m hn hm
  unfold typeOf fullTypes
  by_cases m0 : m = 0
  · by_cases n0 : n = 0
    · simp [m0, n0] at hv0 ⊢
      simp [hv0]
    by_cases n1 : n = g.numN - 1
    · rw [m0] at hv0 ⊢
      simp [hv0, n0, ← n1]
    have v1 := hv (n - 1) m (by omega) hm
    have v2 := hv (n + 1) m (by omega) hm
    rw [m0] at v1 v2 hv0 ⊢
    simp [hv0, n0, n1, v1, v2]
  by_cases m1 : m = g.numM - 1
  · by_cases n0 : n = 0
    · rw [n0] at hv0 ⊢
      simp [hv0, m0, ← m1]
    by_cases n1 : n = g.numN - 1
    · simp [hv0, m0, n0, ← m1, ← n1]
    simp [hv0, m0, n0, n1, ← m1, hv (n - 1) m (by omega) hm, hv (n + 1) m (by omega) hm]
  by_cases n0 : n = 0
  · have v1 := hv n (m - 1) hn (by omega)
    have v2 := hv n (m + 1) hn (by omega)
    rw [n0] at v1 v2 hv0 ⊢
    simp [hv0, m0, m1, v1, v2]
  by_cases n1 : n = g.numN - 1
  · simp [hv0, m0, m1, n0, ← n1, hv n (m - 1) hn (by omega), hv n (m + 1) hn (by omega)]
  simp [hv0, m0, m1, n0, n1, f n m (by omega) (by omega), f (n - 1) m (by omega) (by omega), f (n - 1) (m - 1) (by omega) (by omega),
    f n (m - 1) (by omega) (by omega), typeFromFaces]

end

end Verif.GridOrtho
