import Verif.Curvi.CleanLemmas
import Verif.Curvi.IndexProps
/-!
# C18: cleaning a curvilinear grid keeps exactly the nodes that can be part of a face

A set of nodes is *closed* when each of its nodes is a corner of a face whose four nodes are all in the set. The
nodes to keep are those of the largest closed set of valid nodes.
-/
namespace Verif.Curvi
variable {P : Type} [PointLike P]

/-- Every node of the set is a corner of a face whose four corners are in the set. -/
def Closed (S : Nat → Nat → Prop) : Prop :=
  ∀ n m, S n m → ∃ i j, (n = i ∨ n = i + 1) ∧ (m = j ∨ m = j + 1) ∧ S i j ∧ S (i + 1) j ∧ S i (j + 1) ∧ S (i + 1) (j + 1)

/-- The set contains only visible valid nodes of the grid. -/
def ValidIn (g : Grid P) (S : Nat → Nat → Prop) : Prop :=
  ∀ n m, S n m → n < g.numN ∧ m < g.numM ∧ valid (g.node n m) = true

/-- Node `(n, m)` lies in some closed set of valid nodes. -/
def Keep (g : Grid P) (n m : Nat) : Prop := ∃ S, Closed S ∧ ValidIn g S ∧ S n m

/-- The nodes to keep form a closed set of valid nodes themselves (so it is the largest one). -/
theorem keep_closed (g : Grid P) : Closed (Keep g) ∧ ValidIn g (Keep g) := by
  constructor
  · rintro n m ⟨S, hc, hv, hs⟩
    obtain ⟨i, j, h1, h2, h3, h4, h5, h6⟩ := hc n m hs
    exact ⟨i, j, h1, h2, ⟨S, hc, hv, h3⟩, ⟨S, hc, hv, h4⟩, ⟨S, hc, hv, h5⟩, ⟨S, hc, hv, h6⟩⟩
  · rintro n m ⟨S, hc, hv, hs⟩
    exact hv n m hs

/-- What cleaning does: `g'` is `g` in which every valid node outside the largest closed set is invalid;
every other node, the hidden rows and columns, the dimensions and the offsets are as before. -/
structure CleanOf (g g' : Grid P) : Prop where
  shape : SameShape g g'
  kept : ∀ n m, Keep g n m → g'.node n m = g.node n m
  removed : ∀ n m, n < g.numN → m < g.numM → ¬ Keep g n m → valid (g.node n m) = true → g'.node n m = inv
  invalid : ∀ n m, n < g.numN → m < g.numM → valid (g.node n m) = false → g'.node n m = g.node n m
  hidden : ∀ i j, ¬ (g.sn ≤ i ∧ i < g.sn + g.numN ∧ g.sm ≤ j ∧ j < g.sm + g.numM) → g'.cell i j = g.cell i j

/-- The description of the result leaves no freedom. -/
theorem CleanOf.unique {g a b : Grid P} (ha : CleanOf g a) (hb : CleanOf g b) : a = b := by
  refine Grid.ext' ⟨by rw [ha.shape.rows, hb.shape.rows], by rw [ha.shape.cols, hb.shape.cols],
    by rw [ha.shape.sn, hb.shape.sn], by rw [ha.shape.sm, hb.shape.sm], by rw [ha.shape.en, hb.shape.en],
    by rw [ha.shape.em, hb.shape.em]⟩ fun i j => ?_
  by_cases h : g.sn ≤ i ∧ i < g.sn + g.numN ∧ g.sm ≤ j ∧ j < g.sm + g.numM
  · have key : a.node (i - g.sn) (j - g.sm) = b.node (i - g.sn) (j - g.sm) := by
      by_cases hv : valid (g.node (i - g.sn) (j - g.sm)) = true
      · by_cases hk : Keep g (i - g.sn) (j - g.sm)
        · rw [ha.kept _ _ hk, hb.kept _ _ hk]
        · rw [ha.removed _ _ (by omega) (by omega) hk hv, hb.removed _ _ (by omega) (by omega) hk hv]
      · rw [Bool.not_eq_true] at hv
        rw [ha.invalid _ _ (by omega) (by omega) hv, hb.invalid _ _ (by omega) (by omega) hv]
    unfold Grid.node at key
    rw [ha.shape.sn, ha.shape.sm, hb.shape.sn, hb.shape.sm, show i - g.sn + g.sn = i by omega,
      show j - g.sm + g.sm = j by omega] at key
    exact key
  · rw [ha.hidden _ _ h, hb.hidden _ _ h]

/-! ## One round -/

theorem keep_inFace {g : Grid P} {n m : Nat} (h : Keep g n m) : InFace g n m := by
  obtain ⟨S, hc, hv, hs⟩ := h
  obtain ⟨i, j, h1, h2, h3, h4, h5, h6⟩ := hc n m hs
  have e := hv _ _ h6
  refine ⟨i, j, e.1, e.2.1, ?_, h1, h2⟩
  unfold faceValid
  rw [(hv _ _ h3).2.2, (hv _ _ h4).2.2, (hv _ _ h5).2.2, e.2.2]
  rfl

theorem round_keep {g : Grid P} {v : Nat → Nat → Bool} (hv : ∀ a b, v a b = true ↔ InFace g a b) (n m : Nat) :
    Keep (roundGrid v g) n m ↔ Keep g n m := by
  constructor
  · rintro ⟨S, hc, hs, h⟩
    refine ⟨S, hc, fun a b hab => ?_, h⟩
    obtain ⟨h1, h2, h3⟩ := hs a b hab
    refine ⟨h1, h2, ?_⟩
    rw [roundGrid_node v g a b h1 h2, roundNode_valid, Bool.and_eq_true] at h3
    exact h3.2
  · rintro ⟨S, hc, hs, h⟩
    refine ⟨S, hc, fun a b hab => ?_, h⟩
    obtain ⟨h1, h2, h3⟩ := hs a b hab
    refine ⟨h1, h2, ?_⟩
    rw [roundGrid_node v g a b h1 h2, roundNode_valid, Bool.and_eq_true]
    exact ⟨(hv a b).2 (keep_inFace ⟨S, hc, hs, hab⟩), h3⟩

theorem CleanOf.of_round {g g' : Grid P} {v : Nat → Nat → Bool} (hv : ∀ a b, v a b = true ↔ InFace g a b)
    (h : CleanOf (roundGrid v g) g') : CleanOf g g' where
  shape := SameShape.trans (h := roundGrid v g) (mapBlock_shape ..) h.shape
  kept := fun n m hk => by
    have hb := (keep_closed g).2 n m hk
    rw [h.kept n m ((round_keep hv n m).2 hk), roundGrid_node v g n m hb.1 hb.2.1]
    unfold roundNode
    rw [if_pos ((hv n m).2 (keep_inFace hk))]
  removed := fun n m hn hm hk hval => by
    have e := roundGrid_node v g n m hn hm
    by_cases hvt : v n m = true
    · have e2 : roundNode v n m (g.node n m) = g.node n m := by unfold roundNode; rw [if_pos hvt]
      refine h.removed n m hn hm (fun hk' => hk ((round_keep hv n m).1 hk')) ?_
      rw [e, e2]; exact hval
    · have e2 : roundNode v n m (g.node n m) = inv := by
        unfold roundNode; rw [if_neg hvt, if_pos hval]
      rw [h.invalid n m hn hm (by rw [e, e2, PointLike.valid_inv]), e, e2]
  invalid := fun n m hn hm hval => by
    have e := roundGrid_node v g n m hn hm
    have e2 : roundNode v n m (g.node n m) = g.node n m := by
      unfold roundNode; rw [hval]; simp
    rw [h.invalid n m hn hm (by rw [e, e2]; exact hval), e, e2]
  hidden := fun i j hij => by
    rw [h.hidden i j hij]
    unfold roundGrid mapBlock
    simp only
    rw [if_neg (by omega)]

theorem cleanOf_self {g : Grid P} (h : ∀ n m, n < g.numN → m < g.numM → valid (g.node n m) = true → Keep g n m) :
    CleanOf g g where
  shape := SameShape.refl g
  kept := fun _ _ _ => rfl
  removed := fun n m hn hm hk hv => absurd (h n m hn hm hv) hk
  invalid := fun _ _ _ _ _ => rfl
  hidden := fun _ _ _ => rfl

theorem keep_of_inFace {g : Grid P} (h : ∀ n m, n < g.numN → m < g.numM → valid (g.node n m) = true → InFace g n m) :
    ∀ n m, n < g.numN → m < g.numM → valid (g.node n m) = true → Keep g n m := by
  intro n m hn hm hv
  refine ⟨fun a b => a < g.numN ∧ b < g.numM ∧ valid (g.node a b) = true, ?_, fun a b hab => hab, hn, hm, hv⟩
  rintro a b ⟨ha, hb, hab⟩
  obtain ⟨i, j, hi, hj, hf, h1, h2⟩ := h a b ha hb hab
  unfold faceValid at hf
  simp only [Bool.and_eq_true] at hf
  obtain ⟨⟨⟨f1, f2⟩, f3⟩, f4⟩ := hf
  exact ⟨i, j, h1, h2, ⟨by omega, by omega, f1⟩, ⟨hi, by omega, f3⟩, ⟨by omega, hj, f2⟩, hi, hj, f4⟩

theorem removeInvalid_ok (k : Nat) : ∀ (g : Grid P), WF g → countValid g < k →
    ∃ g', removeInvalidNodes k true g = some (.ok g') ∧ CleanOf g g' := by
  induction k with
  | zero => intro g _ h; omega
  | succ k ih =>
    intro g hg hk
    obtain ⟨v, f, h1, h2, h3⟩ := cleanRound_ok g hg
    cases f with
    | true =>
      obtain ⟨n, m, hn, hm, hf, hval⟩ := h3.1 rfl
      have hlt := countValid_lt v g n m hn hm (by
        rw [← Bool.not_eq_true, h2]; exact hf) hval
      obtain ⟨g', h4, h5⟩ := ih (roundGrid v g) (SameShape.wf (h := roundGrid v g) (mapBlock_shape ..) hg) (by omega)
      refine ⟨g', ?_, h5.of_round h2⟩
      unfold removeInvalidNodes
      rw [h1]
      exact h4
    | false =>
      refine ⟨roundGrid v g, ?_, ?_⟩
      · unfold removeInvalidNodes
        rw [h1]
        cases k <;> rfl
      · have hall : ∀ n m, n < g.numN → m < g.numM → valid (g.node n m) = true → InFace g n m := by
          intro n m hn hm hv
          by_cases hf : InFace g n m
          · exact hf
          · exact absurd (h3.2 ⟨n, m, hn, hm, hf, hv⟩) (by simp)
        have e : roundGrid v g = g := by
          refine Grid.ext' ⟨rfl, rfl, rfl, rfl, rfl, rfl⟩ fun i j => ?_
          unfold roundGrid mapBlock
          simp only
          split
          · rename_i hij
            have hval := hall (i - g.sn) (j - g.sm) (by omega) (by omega)
            unfold Grid.node at hval
            rw [show i - g.sn + g.sn = i by omega, show j - g.sm + g.sm = j by omega] at hval
            unfold roundNode
            by_cases hc : valid (g.cell i j) = true
            · rw [if_pos ((h2 _ _).2 (hval hc))]
            · simp [hc]
          · rfl
        rw [e]
        exact cleanOf_self (keep_of_inFace hall)

/-! ## C18 -/

/-- The recursion ends, after at most one round per node plus one; any larger depth gives the same result. -/
theorem removal_terminates (g : Grid P) (hg : WF g) :
    ∃ g', ∀ k, g.numN * g.numM + 1 ≤ k → removeInvalidNodes k true g = some (.ok g') := by
  have hc := countValid_le g
  obtain ⟨g', h1, h2⟩ := removeInvalid_ok (g.numN * g.numM + 1) g hg (by omega)
  refine ⟨g', fun k hk => ?_⟩
  obtain ⟨g'', h3, h4⟩ := removeInvalid_ok k g hg (by omega)
  rw [h3, h4.unique h2]

/-- Cleaning succeeds and keeps exactly the largest closed set of valid nodes. -/
theorem clean_exact (g : Grid P) (hg : WF g) : ∃ g', clean g = .ok g' ∧ CleanOf g g' := by
  have hc := countValid_le g
  obtain ⟨g', h1, h2⟩ := removeInvalid_ok (g.numN * g.numM + 1) g hg (by omega)
  refine ⟨g', ?_, h2⟩
  unfold clean
  rw [h1]

/-- After cleaning every valid node is a corner of a face with four valid nodes. -/
theorem clean_no_loose_node (g : Grid P) (hg : WF g) (g' : Grid P) (h : clean g = .ok g') :
    ∀ n m, n < g'.numN → m < g'.numM → valid (g'.node n m) = true →
      ∃ i j, (n = i ∨ n = i + 1) ∧ (m = j ∨ m = j + 1) ∧ i + 1 < g'.numN ∧ j + 1 < g'.numM ∧
        valid (g'.node i j) = true ∧ valid (g'.node (i + 1) j) = true ∧
        valid (g'.node i (j + 1)) = true ∧ valid (g'.node (i + 1) (j + 1)) = true := by
  intro n m hn hm hv
  obtain ⟨g'', h1, h2⟩ := clean_exact g hg
  rw [h] at h1
  cases h1
  rw [h2.shape.numN] at hn ⊢
  rw [h2.shape.numM] at hm ⊢
  have hk : Keep g n m := by
    by_cases hk : Keep g n m
    · exact hk
    · exfalso
      by_cases hval : valid (g.node n m) = true
      · rw [h2.removed n m hn hm hk hval, PointLike.valid_inv] at hv; cases hv
      · rw [Bool.not_eq_true] at hval
        rw [h2.invalid n m hn hm hval, hval] at hv; cases hv
  obtain ⟨i, j, h3, h4, k1, k2, k3, k4⟩ := (keep_closed g).1 n m hk
  have kv := (keep_closed g).2
  refine ⟨i, j, h3, h4, (kv _ _ k4).1, (kv _ _ k4).2.1, ?_, ?_, ?_, ?_⟩
  · rw [h2.kept _ _ k1]; exact (kv _ _ k1).2.2
  · rw [h2.kept _ _ k2]; exact (kv _ _ k2).2.2
  · rw [h2.kept _ _ k3]; exact (kv _ _ k3).2.2
  · rw [h2.kept _ _ k4]; exact (kv _ _ k4).2.2

/-- A grid in which every valid node is a corner of a valid face is left as it is. -/
theorem clean_of_no_loose (g : Grid P) (hg : WF g)
    (h : ∀ n m, n < g.numN → m < g.numM → valid (g.node n m) = true → InFace g n m) : clean g = .ok g := by
  obtain ⟨g', h1, h2⟩ := clean_exact g hg
  rw [h1, h2.unique (cleanOf_self (keep_of_inFace h))]

/-- Cleaning twice is cleaning once. -/
theorem clean_idempotent (g : Grid P) (hg : WF g) (g' : Grid P) (h : clean g = .ok g') : clean g' = .ok g' := by
  obtain ⟨g'', h1, h2⟩ := clean_exact g hg
  rw [h] at h1
  cases h1
  refine clean_of_no_loose g' (h2.shape.wf hg) fun n m hn hm hv => ?_
  obtain ⟨i, j, h3, h4, h5, h6, v1, v2, v3, v4⟩ := clean_no_loose_node g hg g' h n m hn hm hv
  refine ⟨i, j, h5, h6, ?_, h3, h4⟩
  unfold faceValid
  rw [v1, v2, v3, v4]; rfl

/-- The nodes to keep are simply the corners of the faces with four valid nodes. -/
theorem keep_iff_inFace (g : Grid P) (n m : Nat) : Keep g n m ↔ InFace g n m := by
  constructor
  · exact keep_inFace
  · rintro ⟨i, j, hi, hj, hf, h1, h2⟩
    have hf' := hf
    unfold faceValid at hf'
    simp only [Bool.and_eq_true] at hf'
    obtain ⟨⟨⟨f1, f2⟩, f3⟩, f4⟩ := hf'
    refine ⟨fun a b => (a = i ∨ a = i + 1) ∧ (b = j ∨ b = j + 1), ?_, ?_, h1, h2⟩
    · intro a b hab
      exact ⟨i, j, hab.1, hab.2, by simp, by simp, by simp, by simp⟩
    · rintro a b ⟨rfl | rfl, rfl | rfl⟩
      · exact ⟨by omega, by omega, f1⟩
      · exact ⟨by omega, hj, f2⟩
      · exact ⟨hi, by omega, f3⟩
      · exact ⟨hi, hj, f4⟩

/-- The second call of the recursion never finds anything to remove. -/
theorem two_rounds_are_enough (g : Grid P) (hg : WF g) (k : Nat) :
    removeInvalidNodes (k + 2) true g = some (clean g) := by
  obtain ⟨g', hc, hco⟩ := clean_exact g hg
  obtain ⟨v, f, h1, h2, h3⟩ := cleanRound_ok g hg
  have wf' : WF (roundGrid v g) := SameShape.wf (h := roundGrid v g) (mapBlock_shape ..) hg
  have hno : ∀ n m, n < (roundGrid v g).numN → m < (roundGrid v g).numM →
      valid ((roundGrid v g).node n m) = true → InFace (roundGrid v g) n m := by
    intro n m hn hm hv
    rw [roundGrid_node v g n m hn hm, roundNode_valid, Bool.and_eq_true, h2] at hv
    exact keep_inFace ((round_keep h2 n m).2 ((keep_iff_inFace g n m).2 hv.1))
  have e : g' = roundGrid v g :=
    hco.unique (CleanOf.of_round h2 (cleanOf_self (keep_of_inFace hno)))
  rw [hc, e]
  unfold removeInvalidNodes
  rw [h1]
  show removeInvalidNodes (k + 1) f (roundGrid v g) = _
  cases f with
  | false => rfl
  | true =>
    obtain ⟨w, f', h4, h5, h6⟩ := cleanRound_ok _ wf'
    have hf : f' = false := by
      rw [← Bool.not_eq_true, h6]
      rintro ⟨n, m, hn, hm, hnf, hv⟩
      exact hnf (hno n m hn hm hv)
    subst hf
    unfold removeInvalidNodes
    rw [h4]
    show removeInvalidNodes k false (roundGrid w (roundGrid v g)) = _
    have e2 : roundGrid w (roundGrid v g) = roundGrid v g := by
      have hnf : ∀ n m, n < (roundGrid v g).numN → m < (roundGrid v g).numM →
        valid ((roundGrid v g).node n m) = true → w n m = true := fun n m hn hm hv => (h5 n m).2 (hno n m hn hm hv)
      generalize roundGrid v g = q at hnf
      refine Grid.ext' ⟨rfl, rfl, rfl, rfl, rfl, rfl⟩ fun i j => ?_
      unfold roundGrid mapBlock
      simp only
      split
      · rename_i hij
        have hval := hnf (i - q.sn) (j - q.sm) (by omega) (by omega)
        unfold Grid.node at hval
        rw [show i - q.sn + q.sn = i by omega, show j - q.sm + q.sm = j by omega] at hval
        unfold roundNode
        by_cases hcv : valid (q.cell i j) = true
        · rw [if_pos (hval hcv)]
        · simp [hcv]
      · rfl
    rw [e2]
    cases k <;> rfl

/-! ## A concrete case: a 3 by 3 grid with hidden first row, one missing corner and the two nodes next to it loose -/

/-- Rows `· · ·`, `x x x`, `x x -`, `x - x`; the first row is hidden. -/
def looseGrid : Grid (Option Nat) :=
  ⟨4, 3, fun i j => if (i = 2 ∧ j = 2) ∨ (i = 3 ∧ j = 1) then none else some (10 * i + j), 1, 0, 0, 0⟩

example : WF looseGrid := ⟨by decide, by decide⟩

example : (match clean looseGrid with
    | .ok g => [g.cell 0 0, g.cell 1 0, g.cell 1 1, g.cell 1 2, g.cell 2 0, g.cell 2 1, g.cell 3 0, g.cell 3 2]
    | _ => []) = [some 0, some 10, some 11, none, some 20, some 21, none, none] := by decide +kernel

end Verif.Curvi
