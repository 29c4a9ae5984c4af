import Verif.Curvi.EditModel
import Verif.Curvi.CleanProps
/-!
# Lemmas about editing curvilinear grids
-/
namespace Verif.Curvi
variable {P : Type} [PointLike P]

theorem invalidateBlock_ok (g : Grid P) (a b c d : Nat) (hb : b ≤ g.numN) (hd : d ≤ g.numM) :
    invalidateBlock a b c d g = .ok (mapBlock g a b c d (fun _ _ _ => inv)) := by
  unfold invalidateBlock
  refine forBlock g a b c d _ (fun n m h => setNode h n m inv) fun n m h _ h2 _ h4 hs => ?_
  exact setNode_ok _ (by rw [hs.numN]; omega) (by rw [hs.numM]; omega)

/-- The nodes saved from a block. -/
def savedNodes (g : Grid P) (bn bm tn tm : Nat) : Grid P :=
  mapBlock ⟨tn - bn, tm - bm, fun _ _ => inv, 0, 0, 0, 0⟩ 0 (tn - bn) 0 (tm - bm) (fun r c _ => g.node (r + bn) (c + bm))

theorem savedNodes_node (g : Grid P) (bn bm tn tm r c : Nat) (hr : r < tn - bn) (hc : c < tm - bm) :
    (savedNodes g bn bm tn tm).cell r c = g.node (r + bn) (c + bm) := by
  have h := mapBlock_node (⟨tn - bn, tm - bm, fun _ _ => inv, 0, 0, 0, 0⟩ : Grid P) 0 (tn - bn) 0 (tm - bm)
    (fun r c _ => g.node (r + bn) (c + bm)) r c
  rw [if_pos (by omega)] at h
  exact h

theorem saveBlock_ok (g : Grid P) (bn bm tn tm : Nat) (h1 : bn ≤ tn) (h2 : bm ≤ tm) (h3 : tn ≤ g.numN) (h4 : tm ≤ g.numM) :
    saveBlock g bn bm tn tm = .ok ⟨bn, bm, tn, tm, savedNodes g bn bm tn tm⟩ := by
  unfold saveBlock
  rw [if_pos ⟨h1, h2⟩, forBlock _ 0 (tn - bn) 0 (tm - bm) (fun r c _ => g.node (r + bn) (c + bm)) (copyNode g bn bm) (by
    intro r c h _ hr _ hc hs
    unfold copyNode putNode
    rw [getNode_ok (by omega) (by omega), Res.ok_bind, hs.sn, hs.sm]
    rfl), Res.ok_bind]
  rfl

omit [PointLike P] in
/-- Exchanging a block with the grid. -/
theorem swapBlock_ok (b : Block P) (g : Grid P) (h1 : b.bn ≤ b.tn) (h2 : b.bm ≤ b.tm) (h3 : b.tn ≤ g.numN) (h4 : b.tm ≤ g.numM)
    (h5 : b.nodes.sn = 0) (h6 : b.nodes.sm = 0) :
    swapBlock b g = .ok
      ({ b with nodes := mapBlock b.nodes 0 (b.tn - b.bn) 0 (b.tm - b.bm) (fun r c _ => g.node (r + b.bn) (c + b.bm)) },
        mapBlock g b.bn b.tn b.bm b.tm (fun n m _ => b.nodes.cell (n - b.bn) (m - b.bm))) := by
  unfold swapBlock
  have key := forRange_eq (f := fun r => forRange 0 (b.tm - b.bm) (swapNode b.bn b.bm r))
    (fun r => (mapBlock b.nodes 0 r 0 (b.tm - b.bm) (fun r c _ => g.node (r + b.bn) (c + b.bm)),
      mapBlock g b.bn (r + b.bn) b.bm b.tm (fun n m _ => b.nodes.cell (n - b.bn) (m - b.bm))))
    (Nat.zero_le (b.tn - b.bn)) (by
      intro r _ hr
      have inner := forRange_eq (f := swapNode b.bn b.bm r)
        (fun c => (mapBlock (mapBlock b.nodes 0 r 0 (b.tm - b.bm) (fun r c _ => g.node (r + b.bn) (c + b.bm))) r (r + 1) 0 c
            (fun r c _ => g.node (r + b.bn) (c + b.bm)),
          mapBlock (mapBlock g b.bn (r + b.bn) b.bm b.tm (fun n m _ => b.nodes.cell (n - b.bn) (m - b.bm))) (r + b.bn) (r + b.bn + 1)
            b.bm (c + b.bm) (fun n m _ => b.nodes.cell (n - b.bn) (m - b.bm))))
        (Nat.zero_le (b.tm - b.bm)) (by
          intro c _ hc
          unfold swapNode
          simp only
          rw [getNode_ok (by show r + b.bn < g.numN; omega) (by show c + b.bm < g.numM; omega), Res.ok_bind,
            setNode_ok _ (by show r + b.bn < g.numN; omega) (by show c + b.bm < g.numM; omega), Res.ok_bind]
          congr 2
          · rw [← mapBlock_row_step _ _ _ _ _ (Nat.zero_le _), mapBlock_node, if_neg (by omega), mapBlock_node, if_neg (by omega)]
            unfold putNode
            simp only [mapBlock, h5, h6, Nat.add_zero]
          · have e := mapBlock_row_step (mapBlock g b.bn (r + b.bn) b.bm b.tm (fun n m _ => b.nodes.cell (n - b.bn) (m - b.bm)))
              (r + b.bn) b.bm (c + b.bm) (fun n m _ => b.nodes.cell (n - b.bn) (m - b.bm)) (by omega)
            rw [show c + 1 + b.bm = c + b.bm + 1 by omega, ← e]
            congr 2
            rw [Nat.add_sub_cancel, Nat.add_sub_cancel]
            unfold mapBlock
            simp only [h5, h6, Nat.add_zero]
            rw [if_neg (by omega), if_neg (by omega)])
      rw [mapBlock_empty (mapBlock b.nodes 0 r 0 (b.tm - b.bm) (fun r c _ => g.node (r + b.bn) (c + b.bm))) r (r + 1) 0 0 _
        (Or.inr (Nat.le_refl _)), mapBlock_empty (mapBlock g b.bn (r + b.bn) b.bm b.tm (fun n m _ => b.nodes.cell (n - b.bn) (m - b.bm)))
        (r + b.bn) (r + b.bn + 1) b.bm (0 + b.bm) _ (Or.inr (by omega))] at inner
      show forRange 0 (b.tm - b.bm) (swapNode b.bn b.bm r) _ = _
      rw [inner, mapBlock_step _ _ _ _ _ _ (Nat.zero_le _), show b.tm - b.bm + b.bm = b.tm by omega,
        mapBlock_step _ _ _ _ _ _ (by omega), show r + 1 + b.bn = r + b.bn + 1 by omega])
  rw [mapBlock_empty b.nodes 0 0 0 _ _ (Or.inl (Nat.le_refl _)), mapBlock_empty g b.bn (0 + b.bn) _ _ _ (Or.inl (by omega)),
    show b.tn - b.bn + b.bn = b.tn by omega] at key
  rw [key]
  rfl

omit [PointLike P] in
theorem Grid.ext_node {g h : Grid P} (s : SameShape g h) (e : ∀ n m, n < g.numN → m < g.numM → h.node n m = g.node n m)
    (hid : ∀ i j, ¬ (g.sn ≤ i ∧ i < g.sn + g.numN ∧ g.sm ≤ j ∧ j < g.sm + g.numM) → h.cell i j = g.cell i j) : h = g := by
  refine Grid.ext' s fun i j => ?_
  by_cases hc : g.sn ≤ i ∧ i < g.sn + g.numN ∧ g.sm ≤ j ∧ j < g.sm + g.numM
  · have := e (i - g.sn) (j - g.sm) (by omega) (by omega)
    unfold Grid.node at this
    rwa [s.sn, s.sm, show i - g.sn + g.sn = i by omega, show j - g.sm + g.sm = j by omega] at this
  · exact hid i j hc

omit [PointLike P] in
theorem mapBlock_hidden (g : Grid P) (a b c d : Nat) (φ : Nat → Nat → P → P) (hb : b ≤ g.numN) (hd : d ≤ g.numM) (i j : Nat)
    (h : ¬ (g.sn ≤ i ∧ i < g.sn + g.numN ∧ g.sm ≤ j ∧ j < g.sm + g.numM)) : (mapBlock g a b c d φ).cell i j = g.cell i j := by
  show (if _ then _ else _) = _
  rw [if_neg (by omega)]

omit [PointLike P] in
theorem mapBlock_hidden' (g0 g : Grid P) (s : SameShape g0 g) (a b c d : Nat) (φ : Nat → Nat → P → P) (hb : b ≤ g0.numN) (hd : d ≤ g0.numM)
    (i j : Nat) (h : ¬ (g0.sn ≤ i ∧ i < g0.sn + g0.numN ∧ g0.sm ≤ j ∧ j < g0.sm + g0.numM)) :
    (mapBlock g a b c d φ).cell i j = g.cell i j :=
  mapBlock_hidden g a b c d φ (by rw [s.numN]; exact hb) (by rw [s.numM]; exact hd) i j (by
    rw [s.numN, s.numM, s.sn, s.sm]; exact h)

end Verif.Curvi
