import Verif.Curvi.DeleteModel
import Verif.Curvi.CleanLemmas
import Verif.Curvi.IndexProps
/-!
# C35: restricting a grid to a polygon

The nodes that stay are the corners of the faces with all four nodes in the polygon.
-/
namespace Verif.Curvi
variable {P : Type} [PointLike P]

/-- The four corners of face `(i, j)` satisfy the predicate. -/
def FaceInside (inside : P → Bool) (g : Grid P) (i j : Nat) : Prop :=
  i + 1 < g.numN ∧ j + 1 < g.numM ∧ ∀ n m, Corner n m i j → inside (g.node n m) = true

/-- The grid is restricted to the faces inside: the corners of those faces stay as they are, all other visible nodes
become invalid, nothing else changes. -/
structure RestrictedTo (inside : P → Bool) (g g' : Grid P) : Prop where
  shape : SameShape g g'
  kept : ∀ n m i j, FaceInside inside g i j → Corner n m i j → g'.node n m = g.node n m
  dropped : ∀ n m, n < g.numN → m < g.numM → (∀ i j, FaceInside inside g i j → ¬ Corner n m i j) → g'.node n m = inv
  hidden : ∀ i j, ¬ (g.sn ≤ i ∧ i < g.sn + g.numN ∧ g.sm ≤ j ∧ j < g.sm + g.numM) → g'.cell i j = g.cell i j

theorem delete_outside_polygon (inside : P → Bool) (g : Grid P) (hg : WF g) :
    ∃ g', deleteOutside inside g = .ok g' ∧ RestrictedTo inside g g' := by
  have hn2 := hg.two_le_numN
  have hm2 := hg.two_le_numM
  have hr : ¬ (g.rows = 0 ∨ g.cols = 0) := by
    unfold Grid.numN at hn2; unfold Grid.numM at hm2; omega
  unfold deleteOutside
  rw [if_neg hr]
  let nm0 : Grid Bool := ⟨g.numN, g.numM, fun _ _ => false, 0, 0, 0, 0⟩
  have hnN : nm0.numN = g.numN := by simp [nm0, Grid.numN]
  have hnM : nm0.numM = g.numM := by simp [nm0, Grid.numM]
  have h1 := forBlock nm0 0 g.numN 0 g.numM (fun n m b => inside (g.node n m) || b) (markInside inside g) (by
    intro n m h _ h1 _ h2 hs
    unfold markInside
    rw [getNode_ok h1 h2, Res.ok_bind]
    cases hv : inside (g.node n m) with
    | true =>
      simp only [if_true, Bool.true_or]
      exact setNode_ok _ (by rw [hs.numN, hnN]; omega) (by rw [hs.numM, hnM]; omega)
    | false => simp only [Bool.false_eq_true, if_false, Bool.false_or, upd_same])
  rw [h1, Res.ok_bind]
  generalize hnm : mapBlock nm0 0 g.numN 0 g.numM (fun n m b => inside (g.node n m) || b) = nm
  have hnode : ∀ n m, n < g.numN → m < g.numM → nm.node n m = inside (g.node n m) := by
    intro n m hn hm
    rw [← hnm, mapBlock_node, if_pos (by omega)]
    simp [nm0, Grid.node]
  have hmN : nm.numN = g.numN := by rw [← hnm, (mapBlock_shape ..).numN, hnN]
  have hmM : nm.numM = g.numM := by rw [← hnm, (mapBlock_shape ..).numM, hnM]
  have hwf : WF nm := by
    rw [← hnm]
    refine (mapBlock_shape nm0 0 g.numN 0 g.numM _).wf ⟨?_, ?_⟩
    · show 0 + 2 + 0 ≤ g.numN; omega
    · show 0 + 2 + 0 ≤ g.numM; omega
  let fm0 : Grid Bool := ⟨g.numN - 1, g.numM - 1, fun _ _ => true, 0, 0, 0, 0⟩
  have hfN : fm0.numN = g.numN - 1 := by simp [fm0, Grid.numN]
  have hfM : fm0.numM = g.numM - 1 := by simp [fm0, Grid.numM]
  have h2 := forBlock fm0 0 (g.numN - 1) 0 (g.numM - 1) (fun n m b => faceValid nm n m && b) (clearFace nm) (by
    intro n m h _ h1 _ h2 hs
    unfold clearFace
    rw [areFaceNodesValid_ok nm n m (by omega) (by omega), Res.ok_bind]
    cases hv : faceValid nm n m with
    | false =>
      simp only [Bool.not_false, if_true, Bool.false_and]
      exact setNode_ok _ (by rw [hs.numN, hfN]; omega) (by rw [hs.numM, hfM]; omega)
    | true => simp only [Bool.not_true, Bool.false_eq_true, if_false, Bool.true_and, upd_same])
  rw [h2, Res.ok_bind]
  obtain ⟨v, h3, h4⟩ := validNodeMask_ok nm hwf (mapBlock fm0 0 (g.numN - 1) 0 (g.numM - 1) (fun n m b => faceValid nm n m && b))
    (by rw [(mapBlock_shape ..).numN, hfN, hmN]) (by rw [(mapBlock_shape ..).numM, hfM, hmM]) (by
      intro n m hn hm
      rw [mapBlock_node, if_pos (by omega)]
      simp [fm0, Grid.node])
  rw [hmN, hmM] at h3
  rw [h3, Res.ok_bind]
  have h5 := forBlock g 0 g.numN 0 g.numM (fun n m p => if v n m then p else inv) (dropNode v) (by
    intro n m h _ h1 _ h2 hs
    unfold dropNode
    cases hv : v n m with
    | true => simp only [if_true, upd_same]
    | false =>
      simp only [Bool.false_eq_true, if_false]
      exact setNode_ok _ (by rw [hs.numN]; omega) (by rw [hs.numM]; omega))
  rw [h5]
  have hv : ∀ a b, v a b = true ↔ ∃ i j, FaceInside inside g i j ∧ Corner a b i j := by
    intro a b
    rw [h4]
    unfold InFace FaceInside
    rw [hmN, hmM]
    constructor
    · rintro ⟨i, j, hi, hj, hf, hc⟩
      refine ⟨i, j, ⟨hi, hj, ?_⟩, hc⟩
      intro n m hnm'
      simp only [faceValid, Bool.and_eq_true] at hf
      obtain ⟨⟨⟨f1, f2⟩, f3⟩, f4⟩ := hf
      rcases hnm' with ⟨rfl | rfl, rfl | rfl⟩
      · rw [← hnode _ _ (by omega) (by omega)]; exact f1
      · rw [← hnode _ _ (by omega) (by omega)]; exact f2
      · rw [← hnode _ _ (by omega) (by omega)]; exact f3
      · rw [← hnode _ _ (by omega) (by omega)]; exact f4
    · rintro ⟨i, j, ⟨hi, hj, hf⟩, hc⟩
      refine ⟨i, j, hi, hj, ?_, hc⟩
      unfold faceValid
      rw [hnode _ _ (by omega) (by omega), hnode _ _ (by omega) (by omega), hnode _ _ (by omega) (by omega), hnode _ _ (by omega) (by omega),
        hf i j ⟨.inl rfl, .inl rfl⟩, hf i (j + 1) ⟨.inl rfl, .inr rfl⟩, hf (i + 1) j ⟨.inr rfl, .inl rfl⟩,
        hf (i + 1) (j + 1) ⟨.inr rfl, .inr rfl⟩]
      rfl
  refine ⟨_, rfl, mapBlock_shape .., ?_, ?_, ?_⟩
  · intro n m i j hf hc
    rw [mapBlock_node, (hv n m).2 ⟨i, j, hf, hc⟩]
    simp
  · intro n m hn hm hno
    rw [mapBlock_node, if_pos (by omega)]
    have : v n m = false := by
      cases h : v n m
      · rfl
      · obtain ⟨i, j, hf, hc⟩ := (hv n m).1 h
        exact absurd hc (hno i j hf)
    rw [this]; rfl
  · intro i j hij
    show (if _ then _ else _) = _
    rw [if_neg (by omega)]

/-- A grid with one node outside. -/
example : (match deleteOutside (fun p : Option Nat => p != some 0 && p != none) ⟨3, 3, fun n m => some (10 * n + m), 0, 0, 0, 0⟩ with
    | .ok g => [g.cell 0 0, g.cell 0 1, g.cell 0 2, g.cell 1 0, g.cell 2 0, g.cell 2 2]
    | _ => []) = [none, some 1, some 2, some 10, some 20, some 22] := by decide +kernel

end Verif.Curvi
