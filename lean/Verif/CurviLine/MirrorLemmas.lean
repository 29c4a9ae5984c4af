import Verif.CurviLine.MirrorSpec
import Verif.CurviLine.ShiftLemmas
/-!
# Lemmas about mirroring a boundary line
-/
namespace Verif.CurviLine
open Verif.Curvi

section
variable {P : Type} [PointLike P]

/-! ## A grid inside a larger one -/

/-- The visible nodes of `g` are visible in `h`, `dn` rows and `dm` columns further. -/
structure Inside (g h : Grid P) (dn dm : Nat) : Prop where
  n : g.numN + dn ≤ h.numN
  m : g.numM + dm ≤ h.numM
  node : ∀ n m, n < g.numN → m < g.numM → h.node (n + dn) (m + dm) = g.node n m

theorem Inside.inFace {g h : Grid P} {dn dm : Nat} (hi : Inside g h dn dm) {n m : Nat} (hf : InFace g n m) :
    InFace h (n + dn) (m + dm) := by
  obtain ⟨i, j, h1, h2, h3, h4, h5⟩ := hf
  have a := hi.n
  have b := hi.m
  refine ⟨i + dn, j + dm, by omega, by omega, ?_, by omega, by omega⟩
  unfold faceValid at *
  rw [show i + dn + 1 = i + 1 + dn by omega, show j + dm + 1 = j + 1 + dm by omega, hi.node _ _ (by omega) (by omega),
    hi.node _ _ (by omega) (by omega), hi.node _ _ (by omega) (by omega), hi.node _ _ (by omega) (by omega)]
  exact h3

/-- Cleaning the larger grid does not touch the nodes of a smaller one without loose nodes. -/
theorem Inside.clean {g h h' : Grid P} {dn dm : Nat} (hi : Inside g h dn dm) (hl : NoLoose g) (hc : CleanOf h h') : Inside g h' dn dm := by
  have a := hi.n
  have b := hi.m
  refine ⟨by rw [hc.shape.numN]; exact a, by rw [hc.shape.numM]; exact b, fun n m hn hm => ?_⟩
  rw [← hi.node n m hn hm]
  by_cases hv : valid (h.node (n + dn) (m + dm)) = true
  · refine hc.kept _ _ ((keep_iff_inFace _ _ _).2 (hi.inFace (hl n m hn hm ?_)))
    rw [← hi.node n m hn hm]; exact hv
  · exact hc.invalid _ _ (by omega) (by omega) (by simpa using hv)

/-- Where the old grid starts in the new one. -/
def Side.dn : Side → Nat
  | .bottom => 1
  | _ => 0

def Side.dm : Side → Nat
  | .left => 1
  | _ => 0

/-- How much the grid grows. -/
def Side.growN : Side → Nat
  | .bottom | .top => 1
  | _ => 0

def Side.growM : Side → Nat
  | .left | .right => 1
  | _ => 0

/-- The grid with one line of missing nodes more. -/
structure Added (s : Side) (g h : Grid P) : Prop where
  wf : WF h
  numN : h.numN = g.numN + s.growN
  numM : h.numM = g.numM + s.growM
  inside : Inside g h s.dn s.dm
  outside : ∀ i, i < s.width g → s.node h 0 i = inv

def addLine (s : Side) (g : Grid P) : Grid P :=
  match s with
  | .bottom => addBottom g
  | .top => addTop g
  | .right => addRight g
  | .left => addLeft g

theorem added (s : Side) (g : Grid P) (hg : WF g) (hf : s.Fresh g) : Added s g (addLine s g) := by
  have h1 := hg.n
  have h2 := hg.m
  cases s
  case bottom =>
    unfold addLine addBottom
    by_cases c : g.sn = 0
    · simp only [if_pos c]
      refine ⟨⟨by simp only; omega, by simp only; omega⟩, ?_, ?_, ⟨?_, ?_, fun n m hn hm => ?_⟩, fun i hi => ?_⟩
      · simp only [Grid.numN, Side.growN]; omega
      · simp only [Grid.numM, Side.growM]; omega
      · simp only [Grid.numN, Side.dn]; omega
      · simp only [Grid.numM, Side.dm]; omega
      · show (if n + 1 + g.sn = 0 then inv else g.cell (n + 1 + g.sn - 1) (m + g.sm)) = g.cell (n + g.sn) (m + g.sm)
        rw [if_neg (by omega)]
        congr 1
        omega
      · show (if 0 + g.sn = 0 then inv else g.cell (0 + g.sn - 1) (i + g.sm)) = inv
        rw [if_pos (by omega)]
    · simp only [if_neg c]
      refine ⟨⟨by simp only; omega, by simp only; omega⟩, ?_, ?_, ⟨?_, ?_, fun n m hn hm => ?_⟩, fun i hi => ?_⟩
      · simp only [Grid.numN, Side.growN]; omega
      · simp only [Grid.numM, Side.growM]; omega
      · simp only [Grid.numN, Side.dn]; omega
      · simp only [Grid.numM, Side.dm]; omega
      · simp only [Grid.node, Side.dn, Side.dm]
        congr 1
        omega
      · simp only [Side.node, Side.place, Grid.node]
        have := hf (by omega) i hi
        rwa [Nat.zero_add]
  case top =>
    unfold addLine addTop
    by_cases c : g.en = 0
    · simp only [if_pos c]
      refine ⟨⟨by simp only; omega, by simp only; omega⟩, ?_, ?_, ⟨?_, ?_, fun n m hn hm => ?_⟩, fun i hi => ?_⟩
      · simp only [Grid.numN, Side.growN]; omega
      · simp only [Grid.numM, Side.growM]; omega
      · simp only [Grid.numN, Side.dn]; omega
      · simp only [Grid.numM, Side.dm]; omega
      · show (if n + g.sn = g.rows then inv else g.cell (n + g.sn) (m + g.sm)) = g.cell (n + g.sn) (m + g.sm)
        unfold Grid.numN at hn
        rw [if_neg (by omega)]
      · show (if g.rows + 1 - g.sn - g.en - 1 - 0 + g.sn = g.rows then inv else g.cell (g.rows + 1 - g.sn - g.en - 1 - 0 + g.sn) (i + g.sm)) = inv
        rw [if_pos (by omega)]
    · simp only [if_neg c]
      refine ⟨⟨by simp only; omega, by simp only; omega⟩, ?_, ?_, ⟨?_, ?_, fun n m hn hm => ?_⟩, fun i hi => ?_⟩
      · simp only [Grid.numN, Side.growN]; omega
      · simp only [Grid.numM, Side.growM]; omega
      · simp only [Grid.numN, Side.dn]; omega
      · simp only [Grid.numM, Side.dm]; omega
      · simp only [Grid.node, Side.dn, Side.dm]
        rfl
      · simp only [Side.node, Side.place, Grid.node]
        have := hf (by omega) i hi
        rw [← this]
        congr 1
        simp only [Grid.numN]
        omega
  case left =>
    unfold addLine addLeft
    by_cases c : g.sm = 0
    · simp only [if_pos c]
      refine ⟨⟨by simp only; omega, by simp only; omega⟩, ?_, ?_, ⟨?_, ?_, fun n m hn hm => ?_⟩, fun i hi => ?_⟩
      · simp only [Grid.numN, Side.growN]; omega
      · simp only [Grid.numM, Side.growM]; omega
      · simp only [Grid.numN, Side.dn]; omega
      · simp only [Grid.numM, Side.dm]; omega
      · show (if m + 1 + g.sm = 0 then inv else g.cell (n + g.sn) (m + 1 + g.sm - 1)) = g.cell (n + g.sn) (m + g.sm)
        rw [if_neg (by omega)]
        congr 1
        omega
      · show (if 0 + g.sm = 0 then inv else g.cell (i + g.sn) (0 + g.sm - 1)) = inv
        rw [if_pos (by omega)]
    · simp only [if_neg c]
      refine ⟨⟨by simp only; omega, by simp only; omega⟩, ?_, ?_, ⟨?_, ?_, fun n m hn hm => ?_⟩, fun i hi => ?_⟩
      · simp only [Grid.numN, Side.growN]; omega
      · simp only [Grid.numM, Side.growM]; omega
      · simp only [Grid.numN, Side.dn]; omega
      · simp only [Grid.numM, Side.dm]; omega
      · simp only [Grid.node, Side.dn, Side.dm]
        congr 1
        omega
      · simp only [Side.node, Side.place, Grid.node]
        have := hf (by omega) i hi
        rwa [Nat.zero_add]
  case right =>
    unfold addLine addRight
    by_cases c : g.em = 0
    · simp only [if_pos c]
      refine ⟨⟨by simp only; omega, by simp only; omega⟩, ?_, ?_, ⟨?_, ?_, fun n m hn hm => ?_⟩, fun i hi => ?_⟩
      · simp only [Grid.numN, Side.growN]; omega
      · simp only [Grid.numM, Side.growM]; omega
      · simp only [Grid.numN, Side.dn]; omega
      · simp only [Grid.numM, Side.dm]; omega
      · show (if m + g.sm = g.cols then inv else g.cell (n + g.sn) (m + g.sm)) = g.cell (n + g.sn) (m + g.sm)
        unfold Grid.numM at hm
        rw [if_neg (by omega)]
      · show (if g.cols + 1 - g.sm - g.em - 1 - 0 + g.sm = g.cols then inv else g.cell (i + g.sn) (g.cols + 1 - g.sm - g.em - 1 - 0 + g.sm)) = inv
        rw [if_pos (by omega)]
    · simp only [if_neg c]
      refine ⟨⟨by simp only; omega, by simp only; omega⟩, ?_, ?_, ⟨?_, ?_, fun n m hn hm => ?_⟩, fun i hi => ?_⟩
      · simp only [Grid.numN, Side.growN]; omega
      · simp only [Grid.numM, Side.growM]; omega
      · simp only [Grid.numN, Side.dn]; omega
      · simp only [Grid.numM, Side.dm]; omega
      · simp only [Grid.node, Side.dn, Side.dm]
        rfl
      · simp only [Side.node, Side.place, Grid.node]
        have := hf (by omega) i hi
        rw [← this]
        congr 1
        simp only [Grid.numM]
        omega

/-- Every node of the larger grid is on the new line or one of the old nodes. -/
theorem Added.cases {s : Side} {g h : Grid P} (ha : Added s g h) {n m : Nat} (hn : n < h.numN) (hm : m < h.numM) :
    (∃ i, i < s.width g ∧ (n, m) = s.place h 0 i) ∨
      ∃ n' m', n' < g.numN ∧ m' < g.numM ∧ n = n' + s.dn ∧ m = m' + s.dm := by
  have a := ha.numN
  have b := ha.numM
  cases s <;> simp only [Side.growN, Side.growM, Side.width, Side.place, Side.dn, Side.dm, Prod.mk.injEq] at *
  · by_cases c : m = 0
    · exact .inl ⟨n, by omega, rfl, c⟩
    · exact .inr ⟨n, m - 1, by omega, by omega, by omega, by omega⟩
  · by_cases c : m = h.numM - 1
    · exact .inl ⟨n, by omega, rfl, by omega⟩
    · exact .inr ⟨n, m, by omega, by omega, by omega, by omega⟩
  · by_cases c : n = 0
    · exact .inl ⟨m, by omega, c, rfl⟩
    · exact .inr ⟨n - 1, m, by omega, by omega, by omega, by omega⟩
  · by_cases c : n = h.numN - 1
    · exact .inl ⟨m, by omega, by omega, rfl⟩
    · exact .inr ⟨n, m, by omega, by omega, by omega, by omega⟩

theorem Added.noLoose {s : Side} {g h : Grid P} (ha : Added s g h) (hl : NoLoose g) : NoLoose h := by
  intro n m hn hm hv
  rcases ha.cases hn hm with ⟨i, hi, e⟩ | ⟨n', m', h1, h2, rfl, rfl⟩
  · have := ha.outside i hi
    unfold Side.node at this
    rw [← e] at this
    rw [this, PointLike.valid_inv] at hv
    cases hv
  · refine ha.inside.inFace (hl n' m' h1 h2 ?_)
    rw [← ha.inside.node n' m' h1 h2]
    exact hv

/-! ## Which side -/

theorem bottom_type {g : Grid P} (hg : WF g) {m : Nat} (hv : valid (g.node 0 m) = true) :
    nodeType g 0 m = .bottomLeft ∨ nodeType g 0 m = .upperLeft ∨ nodeType g 0 m = .upperRight ∨ nodeType g 0 m = .left := by
  have := hg.two_le_numN
  unfold Grid.node at hv
  unfold nodeType
  simp only [hv]
  by_cases h1 : m = 0
  · simp [h1]
  by_cases h2 : m = g.numM - 1
  · simp only [h2] at *; simp [h1]
  rcases Bool.eq_false_or_eq_true (valid (g.cell (0 + g.sn) (m - 1 + g.sm))) with h3 | h3 <;>
    rcases Bool.eq_false_or_eq_true (valid (g.cell (0 + g.sn) (m + 1 + g.sm))) with h4 | h4 <;>
    simp only [h1, h2, h3, h4, if_true, if_false, Bool.not_true, Bool.not_false, Bool.false_eq_true] <;> simp

theorem left_type {g : Grid P} {n : Nat} (hv : valid (g.node n 0) = true) :
    nodeType g n 0 = .bottomLeft ∨ nodeType g n 0 = .bottomRight ∨ nodeType g n 0 = .bottom := by
  unfold Grid.node at hv
  unfold nodeType
  simp only [hv]
  by_cases h1 : n = 0
  · simp [h1]
  by_cases h2 : n = g.numN - 1
  · simp only [h2] at *; simp [h1]
  rcases Bool.eq_false_or_eq_true (valid (g.cell (n - 1 + g.sn) (0 + g.sm))) with h3 | h3 <;>
    rcases Bool.eq_false_or_eq_true (valid (g.cell (n + 1 + g.sn) (0 + g.sm))) with h4 | h4 <;>
    simp only [h1, h2, h3, h4, if_true, if_false, Bool.not_true, Bool.not_false, Bool.false_eq_true] <;> simp

theorem right_type {g : Grid P} (hg : WF g) {n : Nat} (hv : valid (g.node n (g.numM - 1)) = true) :
    nodeType g n (g.numM - 1) = .upperLeft ∨ nodeType g n (g.numM - 1) = .upperRight ∨ nodeType g n (g.numM - 1) = .up := by
  have := hg.two_le_numM
  have e : g.numM - 1 ≠ 0 := by omega
  unfold Grid.node at hv
  unfold nodeType
  simp only [hv, if_neg e]
  by_cases h1 : n = 0
  · simp [h1]
  by_cases h2 : n = g.numN - 1
  · simp only [h2] at *; simp [h1]
  rcases Bool.eq_false_or_eq_true (valid (g.cell (n - 1 + g.sn) (g.numM - 1 + g.sm))) with h3 | h3 <;>
    rcases Bool.eq_false_or_eq_true (valid (g.cell (n + 1 + g.sn) (g.numM - 1 + g.sm))) with h4 | h4 <;>
    simp only [h1, h2, h3, h4, if_true, if_false, Bool.not_true, Bool.not_false, Bool.false_eq_true] <;> simp

theorem top_type {g : Grid P} (hg : WF g) {m : Nat} (hv : valid (g.node (g.numN - 1) m) = true) :
    nodeType g (g.numN - 1) m = .bottomRight ∨ nodeType g (g.numN - 1) m = .upperRight ∨ nodeType g (g.numN - 1) m = .right := by
  have := hg.two_le_numN
  have e : g.numN - 1 ≠ 0 := by omega
  unfold Grid.node at hv
  unfold nodeType
  simp only [hv, if_neg e]
  by_cases h1 : m = 0
  · simp [h1]
  by_cases h2 : m = g.numM - 1
  · simp only [h2] at *; simp [h1]
  rcases Bool.eq_false_or_eq_true (valid (g.cell (g.numN - 1 + g.sn) (m - 1 + g.sm))) with h3 | h3 <;>
    rcases Bool.eq_false_or_eq_true (valid (g.cell (g.numN - 1 + g.sn) (m + 1 + g.sm))) with h4 | h4 <;>
    simp only [h1, h2, h3, h4, if_true, if_false, Bool.not_true, Bool.not_false, Bool.false_eq_true] <;> simp

/-- In a grid without loose nodes the node next to a boundary node is valid. -/
theorem behind_valid {s : Side} {g : Grid P} (hl : NoLoose g) {i : Nat} (hg : WF g) (hi : i < s.width g)
    (hv : valid (s.node g 0 i) = true) : valid (s.node g 1 i) = true := by
  have a := hg.two_le_numN
  have b := hg.two_le_numM
  have key : ∀ n m n' m', n < g.numN → m < g.numM → n' < g.numN → m' < g.numM → valid (g.node n m) = true →
      (m' = m ∧ (n = 0 ∧ n' = 1 ∨ n = g.numN - 1 ∧ n' = n - 1) ∨ n' = n ∧ (m = 0 ∧ m' = 1 ∨ m = g.numM - 1 ∧ m' = m - 1)) →
      valid (g.node n' m') = true := by
    intro n m n' m' h1 h2 h1' h2' h3 h4
    obtain ⟨p, q, h5, h6, h7, h8, h9⟩ := hl n m h1 h2 h3
    unfold faceValid at h7
    simp only [Bool.and_eq_true] at h7
    obtain ⟨⟨⟨c1, c2⟩, c3⟩, c4⟩ := h7
    have e : (n' = p ∨ n' = p + 1) ∧ (m' = q ∨ m' = q + 1) := by omega
    obtain ⟨rfl | rfl, rfl | rfl⟩ := e <;> assumption
  unfold Side.node at *
  cases s <;> simp only [Side.place, Side.width] at *
  · exact key i 0 i 1 hi (by omega) hi (by omega) hv (by omega)
  · exact key i (g.numM - 1 - 0) i (g.numM - 1 - 1) hi (by omega) hi (by omega) hv (by omega)
  · exact key 0 i 1 i (by omega) hi (by omega) hi hv (by omega)
  · exact key (g.numN - 1 - 0) i (g.numN - 1 - 1) i (by omega) hi (by omega) hi hv (by omega)

/-- The boundary type of a line with valid ends on a side is that side. -/
theorem boundaryType_ok {s : Side} {g : Grid P} {l : Line} (hg : WF g) (hl : NoLoose g) (ho : l.OnSide g s)
    (hf : s.Fresh g) (hs : s.Safe g) (h1 : valid (s.node g 0 l.start) = true) (h2 : valid (s.node g 0 l.stop) = true) :
    boundaryType g l.first l.last = .ok s := by
  obtain ⟨e1, e2, hlt, hw⟩ := ho
  have a := hg.two_le_numN
  have b := hg.two_le_numM
  have a' := hg.n
  have b' := hg.m
  have v1 := behind_valid hl hg (by omega) h1
  have v2 := behind_valid hl hg hw h2
  rw [e1, e2]
  generalize l.start = i at *
  generalize l.stop = j at *
  cases s <;> simp only [Side.place, Side.node, Side.width, Side.Safe, Side.Fresh, Nat.sub_zero] at *
  case left =>
    have r1 : getNode g i (0 + 1) = .ok (g.node i 1) := getNode_ok (by omega) (by omega)
    have r2 : getNode g j (0 + 1) = .ok (g.node j 1) := getNode_ok (by omega) (by omega)
    have c : 0 + 1 < g.cols := by omega
    rcases left_type h1 with t1 | t1 | t1 <;> rcases left_type h2 with t2 | t2 | t2 <;>
      simp [boundaryType, t1, t2, r1, r2, v1, v2, c]
  case right =>
    have k : ¬ (g.numM - 1 + 1 < g.cols) ∨ ∀ n, n < g.numN → getNode g n (g.numM - 1 + 1) = .ok inv := by
      by_cases z : g.em = 0
      · left
        have : g.sm = 0 := by omega
        unfold Grid.numM; omega
      · right
        intro n hn
        unfold getNode
        have w1 : g.numM - 1 + 1 = g.numM := by omega
        rw [w1]
        have w2 : ¬ n ≥ g.rows := by unfold Grid.numN at hn; omega
        have w3 : ¬ g.numM ≥ g.cols := by unfold Grid.numM; omega
        have w4 : n + g.sn < g.rows ∧ g.numM + g.sm < g.cols := by unfold Grid.numN Grid.numM at *; omega
        rw [if_neg w2, if_neg w3, if_pos w4, hf (by omega) n hn]
    rcases k with k | k
    · rcases right_type hg h1 with t1 | t1 | t1 <;> rcases right_type hg h2 with t2 | t2 | t2 <;>
        simp [boundaryType, t1, t2, k]
    · have r1 := k i (by omega)
      rcases right_type hg h1 with t1 | t1 | t1 <;> rcases right_type hg h2 with t2 | t2 | t2 <;>
        simp [boundaryType, t1, t2, r1, PointLike.valid_inv]
  case bottom =>
    have r1 : getNode g (0 + 1) i = .ok (g.node 1 i) := getNode_ok (by omega) (by omega)
    have r2 : getNode g (0 + 1) j = .ok (g.node 1 j) := getNode_ok (by omega) (by omega)
    have c : 0 + 1 < g.rows := by omega
    have ne : i ≠ j := by omega
    rcases bottom_type hg h1 with t1 | t1 | t1 | t1 <;> rcases bottom_type hg h2 with t2 | t2 | t2 | t2 <;>
      simp [boundaryType, t1, t2, r1, r2, v1, v2, c, ne]
  case top =>
    have ne : i ≠ j := by omega
    have k : ¬ (g.numN - 1 + 1 < g.rows) ∨ ∀ m, m < g.numM → getNode g (g.numN - 1 + 1) m = .ok inv := by
      by_cases z : g.en = 0
      · left
        have : g.sn = 0 := by omega
        unfold Grid.numN; omega
      · right
        intro m hm
        unfold getNode
        have w1 : g.numN - 1 + 1 = g.numN := by omega
        rw [w1]
        have w2 : ¬ m ≥ g.cols := by unfold Grid.numM at hm; omega
        have w3 : ¬ g.numN ≥ g.rows := by unfold Grid.numN; omega
        have w4 : g.numN + g.sn < g.rows ∧ m + g.sm < g.cols := by unfold Grid.numN Grid.numM at *; omega
        rw [if_neg w3, if_neg w2, if_pos w4, hf (by omega) m hm]
    rcases k with k | k
    · rcases top_type hg h1 with t1 | t1 | t1 <;> rcases top_type hg h2 with t2 | t2 | t2 <;>
        simp [boundaryType, t1, t2, k, ne]
    · have r1 := k i (by omega)
      rcases top_type hg h1 with t1 | t1 | t1 <;> rcases top_type hg h2 with t2 | t2 | t2 <;>
        simp [boundaryType, t1, t2, r1, PointLike.valid_inv, ne]

omit [PointLike P] in
theorem place_in {s : Side} {g : Grid P} {k i : Nat} (hk : k < s.depth g) (hi : i < s.width g) :
    (s.place g k i).1 < g.numN ∧ (s.place g k i).2 < g.numM := by
  cases s <;> simp only [Side.place, Side.depth, Side.width] at * <;> omega

omit [PointLike P] in
theorem place_inj {s : Side} {g : Grid P} {k i k' i' : Nat} (hk : k < s.depth g) (hk' : k' < s.depth g)
    (h : s.place g k i = s.place g k' i') : k = k' ∧ i = i' := by
  cases s <;> simp only [Side.place, Side.depth, Prod.mk.injEq] at * <;> omega

theorem addGridLine_ok {s : Side} {g : Grid P} {l : Line} (hg : WF g) (ho : l.OnSide g s)
    (hb : boundaryType g l.first l.last = .ok s) (h1 : valid (s.node g 0 l.start) = true) (h2 : valid (s.node g 0 l.stop) = true) :
    addGridLine g l.first l.last = .ok (addLine s g, some s) := by
  have a := hg.two_le_numN
  have b := hg.two_le_numM
  obtain ⟨e1, e2, hlt, hw⟩ := ho
  have hd : 0 < s.depth g := by cases s <;> simp only [Side.depth] <;> omega
  have p1 := place_in (s := s) (g := g) hd (i := l.start) (by omega)
  have p2 := place_in (s := s) (g := g) hd hw
  unfold addGridLine
  rw [hb, e1, e2, getNode_ok p1.1 p1.2, getNode_ok p2.1 p2.2]
  simp only [Res.ok_bind]
  have v1 : valid (g.node (s.place g 0 l.start).1 (s.place g 0 l.start).2) = true := h1
  have v2 : valid (g.node (s.place g 0 l.stop).1 (s.place g 0 l.stop).2) = true := h2
  rw [v1, v2]
  cases s <;> simp [Side.place, addLine]

end

/-! ## The loop -/

/-- The depth of a node. -/
def Side.level {P : Type} (s : Side) (g : Grid P) (v : Nat × Nat) : Nat :=
  match s with
  | .bottom => v.1
  | .top => g.numN - 1 - v.1
  | .left => v.2
  | .right => g.numM - 1 - v.2

/-- The position of a node along the side. -/
def Side.pos (s : Side) (v : Nat × Nat) : Nat :=
  match s with
  | .bottom | .top => v.2
  | .left | .right => v.1

theorem level_place {P : Type} {s : Side} {g : Grid P} {k i : Nat} (hk : k < s.depth g) : s.level g (s.place g k i) = k := by
  cases s <;> simp only [Side.level, Side.place, Side.depth] at * <;> omega

theorem pos_place {P : Type} {s : Side} {g : Grid P} {k i : Nat} : s.pos (s.place g k i) = i := by
  cases s <;> rfl

theorem place_level {P : Type} {s : Side} {g : Grid P} {n m : Nat} (hn : n < g.numN) (hm : m < g.numM) :
    s.place g (s.level g (n, m)) (s.pos (n, m)) = (n, m) := by
  cases s
  case bottom => rfl
  case left => rfl
  case top => exact Prod.ext (show g.numN - 1 - (g.numN - 1 - n) = n by omega) rfl
  case right => exact Prod.ext rfl (show g.numM - 1 - (g.numM - 1 - m) = m by omega)

theorem level_lt {P : Type} {s : Side} {g : Grid P} {n m : Nat} (hn : n < g.numN) (hm : m < g.numM) :
    s.level g (n, m) < s.depth g ∧ s.pos (n, m) < s.width g := by
  cases s <;> simp only [Side.level, Side.pos, Side.depth, Side.width] <;> omega

variable {K : Type} [Field K] [LinearOrder K]

/-- The node the loop writes. -/
def Side.made (s : Side) (g : Grid (Pt K)) (f : K) (i : Nat) : Pt K :=
  add (scale (s.node g 1 i) (1 + f)) (scale (s.node g 2 i) (-f))

/-- The grid after the loop has passed the positions from `a` up to `b`. -/
def Side.filled (s : Side) (g : Grid (Pt K)) (f : K) (a b : Nat) (n m : Nat) : Pt K :=
  if s.level g (n, m) = 0 ∧ a ≤ s.pos (n, m) ∧ s.pos (n, m) < b then s.made g f (s.pos (n, m)) else g.node n m

theorem mirrorNodes_eq {P : Type} (g : Grid P) (i : Nat) (s : Side) :
    mirrorNodes g i s = (s.place g 0 i, s.place g 1 i, s.place g 2 i) := by
  cases s <;> rfl

theorem place_congr {P : Type} {s : Side} {g h : Grid P} (e : SameShape g h) (k i : Nat) : s.place h k i = s.place g k i := by
  cases s <;> simp only [Side.place, e.numN, e.numM]

omit [LinearOrder K] in
theorem mirrorLoop_ok (s : Side) (g : Grid (Pt K)) (f : K) {a b : Nat} (hab : a ≤ b) (hd : 3 ≤ s.depth g) (hb : b ≤ s.width g) :
    ∃ g', forRange a b (mirrorNode f s) g = .ok g' ∧ Edited g g' (s.filled g f a b) := by
  refine forRange_inv (fun j t => Edited g t (s.filled g f a j)) hab ?_ ?_
  · refine (Edited.refl g).congr fun n m _ _ => ?_
    unfold Side.filled
    rw [if_neg (by omega)]
  · intro i t h1 h2 he
    have q0 := place_in (s := s) (g := g) (k := 0) (i := i) (by omega) (by omega)
    have q1 := place_in (s := s) (g := g) (k := 1) (i := i) (by omega) (by omega)
    have q2 := place_in (s := s) (g := g) (k := 2) (i := i) (by omega) (by omega)
    have read : ∀ k, k < 3 → 0 < k → getNode t (s.place g k i).1 (s.place g k i).2 = .ok (s.node g k i) := by
      intro k hk hk'
      have q := place_in (s := s) (g := g) (k := k) (i := i) (by omega) (by omega)
      rw [getNode_ok (by rw [he.shape.numN]; exact q.1) (by rw [he.shape.numM]; exact q.2), he.visible _ _ q.1 q.2]
      unfold Side.filled
      rw [if_neg]
      · rfl
      · rintro ⟨w, -⟩
        rw [show ((s.place g k i).1, (s.place g k i).2) = s.place g k i from rfl, level_place (by omega)] at w
        omega
    unfold mirrorNode
    simp only [mirrorNodes_eq, place_congr he.shape]
    rw [read 1 (by omega) (by omega), read 2 (by omega) (by omega)]
    simp only [Res.ok_bind]
    obtain ⟨t', e1, e2⟩ := he.set q0.1 q0.2 (s.made g f i)
    refine ⟨t', e1, e2.congr fun n m hn hm => ?_⟩
    have hp := place_level (s := s) (g := g) hn hm
    have hlv := level_lt (s := s) (g := g) hn hm
    unfold Side.filled
    by_cases c : n = (s.place g 0 i).1 ∧ m = (s.place g 0 i).2
    · rw [if_pos c]
      have e : (n, m) = s.place g 0 i := Prod.ext c.1 c.2
      rw [e, level_place (by omega), pos_place, if_pos ⟨rfl, h1, by omega⟩]
    · rw [if_neg c]
      have e : ¬ (s.level g (n, m) = 0 ∧ s.pos (n, m) = i) := by
        rintro ⟨w1, w2⟩
        rw [w1, w2] at hp
        exact c ⟨(congrArg Prod.fst hp).symm, (congrArg Prod.snd hp).symm⟩
      by_cases c' : s.level g (n, m) = 0 ∧ a ≤ s.pos (n, m) ∧ s.pos (n, m) < i
      · rw [if_pos c', if_pos ⟨c'.1, c'.2.1, by omega⟩]
      · rw [if_neg c', if_neg (by omega)]

/-! ## The whole operation -/

/-- What mirroring needs. -/
structure CanMirror (g : Grid (Pt K)) (l : Line) (s : Side) : Prop where
  wf : WF g
  noLoose : NoLoose g
  onSide : l.OnSide g s
  fresh : s.Fresh g
  safe : s.Safe g
  first : valid (s.node g 0 l.start) = true
  last : valid (s.node g 0 l.stop) = true
  block : s = .left → l.start ≤ g.numM

theorem block_in {g h : Grid (Pt K)} {l : Line} {s : Side} (hc : CanMirror g l s) (ha : Added s g h) :
    (mirrorBlock h l s).1.1 ≤ (mirrorBlock h l s).2.1 ∧ (mirrorBlock h l s).1.2 ≤ (mirrorBlock h l s).2.2 ∧
      (mirrorBlock h l s).2.1 ≤ h.numN ∧ (mirrorBlock h l s).2.2 ≤ h.numM := by
  have h1 := ha.numN
  have h2 := ha.numM
  have h3 := hc.onSide.2.2.1
  have h4 := hc.onSide.2.2.2
  have h5 := hc.block
  have h6 := hc.wf.two_le_numN
  have h7 := hc.wf.two_le_numM
  cases s <;> simp only [mirrorBlock, Side.growN, Side.growM, Side.width, forall_const, reduceCtorEq, false_implies] at * <;> omega

theorem added_depth {P : Type} [PointLike P] {g h : Grid P} {s : Side} (ha : Added s g h) : s.depth h = s.depth g + 1 ∧ s.width h = s.width g := by
  have h1 := ha.numN
  have h2 := ha.numM
  cases s <;> simp only [Side.growN, Side.growM, Side.depth, Side.width] at * <;> omega

theorem added_node {P : Type} [PointLike P] {g h : Grid P} {s : Side} (ha : Added s g h) {k i : Nat} (hk : k < s.depth g) (hi : i < s.width g) :
    s.node h (k + 1) i = s.node g k i := by
  have h1 := ha.numN
  have h2 := ha.numM
  have q := place_in (s := s) (g := g) hk hi
  have := ha.inside.node _ _ q.1 q.2
  unfold Side.node
  rw [← this]
  cases s <;> simp only [Side.growN, Side.growM, Side.depth, Side.width, Side.place, Side.dn, Side.dm] at * <;> congr 1 <;> omega

theorem mirror_general {g : Grid (Pt K)} {l : Line} {s : Side} {f : K} (hf : 0 < f) (hc : CanMirror g l s) :
    ∃ g', mirror g [l] f = .ok (g', ⟨some s, ⟨(mirrorBlock (addLine s g) l s).1.1, (mirrorBlock (addLine s g) l s).1.2,
        (mirrorBlock (addLine s g) l s).2.1, (mirrorBlock (addLine s g) l s).2.2,
        savedNodes (addLine s g) (mirrorBlock (addLine s g) l s).1.1 (mirrorBlock (addLine s g) l s).1.2
          (mirrorBlock (addLine s g) l s).2.1 (mirrorBlock (addLine s g) l s).2.2⟩⟩) ∧
      Edited (addLine s g) g' (s.filled (addLine s g) f l.start (l.stop + 1)) := by
  have ha := added s g hc.wf hc.fresh
  have hb := boundaryType_ok hc.wf hc.noLoose hc.onSide hc.fresh hc.safe hc.first hc.last
  have hd := added_depth ha
  have h0 : 2 ≤ s.depth g := by
    have h6 := hc.wf.two_le_numN
    have h7 := hc.wf.two_le_numM
    cases s <;> assumption
  obtain ⟨g', e1, e2⟩ := mirrorLoop_ok s (addLine s g) f (a := l.start) (b := l.stop + 1) (by have := hc.onSide.2.2.1; omega)
    (by omega) (by have := hc.onSide.2.2.2; omega)
  refine ⟨g', ?_, e2⟩
  obtain ⟨b1, b2, b3, b4⟩ := block_in hc ha
  have hv : g.isValid = true := (isValid_iff g).2 ⟨by have := hc.wf.two_le_numM; omega, by have := hc.wf.two_le_numN; omega⟩
  unfold mirror
  rw [if_neg (not_le.2 hf)]
  simp only [hv, Bool.not_true, Bool.false_eq_true, if_false]
  rw [clean_of_no_loose g hc.wf hc.noLoose, Res.ok_bind, hb, Res.ok_bind, addGridLine_ok hc.wf hc.onSide hb hc.first hc.last,
    Res.ok_bind, clean_of_no_loose _ ha.wf (ha.noLoose hc.noLoose), Res.ok_bind, saveBlock_ok _ _ _ _ _ b1 b2 b3 b4, Res.ok_bind, e1,
    Res.ok_bind]

theorem made_eq {g h : Grid (Pt K)} {s : Side} (ha : Added s g h) (f : K) {i : Nat} (hd : 2 ≤ s.depth g) (hi : i < s.width g) :
    s.made h f i = s.image g f i := by
  unfold Side.made Side.image
  rw [added_node ha (k := 0) (by omega) hi, added_node ha (k := 1) (by omega) hi]
  simp only [add, scale, sub]
  congr 1 <;> ring

/-! ## Undoing -/

/-- The old nodes are untouched by the loop. -/
theorem filled_inside {g h g' : Grid (Pt K)} {s : Side} {f : K} {a b : Nat} (ha : Added s g h) (he : Edited h g' (s.filled h f a b)) :
    Inside g g' s.dn s.dm := by
  refine ⟨by rw [he.shape.numN]; exact ha.inside.n, by rw [he.shape.numM]; exact ha.inside.m, fun n m hn hm => ?_⟩
  have h1 := ha.inside.n
  have h2 := ha.inside.m
  have h3 := ha.numN
  have h4 := ha.numM
  rw [he.visible _ _ (by omega) (by omega), Side.filled, if_neg, ha.inside.node n m hn hm]
  rintro ⟨w, -⟩
  cases s <;> simp only [Side.level, Side.dn, Side.dm, Side.growN, Side.growM] at * <;> omega

/-- The grid with its outermost line at the side hidden. -/
def hidden {P : Type} (s : Side) (g : Grid P) : Grid P :=
  match s with
  | .bottom => { g with sn := g.sn + 1 }
  | .top => { g with en := g.en + 1 }
  | .right => { g with em := g.em + 1 }
  | .left => { g with sm := g.sm + 1 }

theorem hideLine_eq {P : Type} [PointLike P] (s : Side) (g : Grid P) : hideLine g s = clean (hidden s g) := by cases s <;> rfl

theorem hidden_visible {P : Type} [PointLike P] {g h h' : Grid P} {s : Side} (hg : WF g) (ha : Added s g h) (hs : SameShape h h')
    (hi : Inside g h' s.dn s.dm) : WF (hidden s h') ∧ SameVisible g (hidden s h') := by
  have h1 := hs.numN
  have h2 := hs.numM
  have h3 := ha.numN
  have h4 := ha.numM
  have h5 := hg.two_le_numN
  have h6 := hg.two_le_numM
  have h7 := hi.node
  cases s <;> simp only [hidden, SameVisible, Grid.numN, Grid.numM, Side.growN, Side.growM, Grid.node, Side.dn, Side.dm] at * <;>
    refine ⟨⟨by simp only; omega, by simp only; omega⟩, by omega, by omega, fun n m hn hm => ?_⟩ <;>
    rw [← h7 n m hn hm] <;> congr 1 <;> omega

theorem SameVisible.inside {P : Type} [PointLike P] {g h : Grid P} (hv : SameVisible g h) : Inside g h 0 0 :=
  ⟨by rw [hv.1]; exact le_refl _, by rw [hv.2.1]; exact le_refl _, fun n m hn hm => hv.2.2 n m hn hm⟩

theorem SameVisible.noLoose {P : Type} [PointLike P] {g h : Grid P} (hv : SameVisible g h) (hl : NoLoose g) : NoLoose h := by
  intro n m hn hm hval
  rw [hv.1] at hn
  rw [hv.2.1] at hm
  exact hv.inside.inFace (hl n m hn hm (by rw [← hv.2.2 n m hn hm]; exact hval))

end Verif.CurviLine
