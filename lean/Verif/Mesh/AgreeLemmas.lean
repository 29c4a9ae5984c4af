import Verif.Mesh.UndoModel
import Verif.Mesh.EditLemmas
/-!
# The editing functions with and without undo actions agree
-/
namespace Verif.Mesh
variable {P : Type}

/-- Forget the actions. -/
def meshOf {α : Type} : Res (α × Mesh P) → Res (Mesh P)
  | .ok r => .ok r.2
  | .throw => .throw
  | .ub => .ub

@[simp] theorem meshOf_ok {α : Type} (r : α × Mesh P) : meshOf (.ok r) = .ok r.2 := rfl
@[simp] theorem meshOf_throw {α : Type} : meshOf (.throw : Res (α × Mesh P)) = .throw := rfl
@[simp] theorem meshOf_ub {α : Type} : meshOf (.ub : Res (α × Mesh P)) = .ub := rfl

theorem meshOf_eq {α : Type} {x : Res (α × Mesh P)} {y : Res (Mesh P)} (h : meshOf x = y) :
    (∃ r, x = .ok r ∧ y = .ok r.2) ∨ (x = .throw ∧ y = .throw) ∨ (x = .ub ∧ y = .ub) := by
  subst h
  cases x with
  | ok r => exact Or.inl ⟨r, rfl, rfl⟩
  | throw => exact Or.inr (Or.inl ⟨rfl, rfl⟩)
  | ub => exact Or.inr (Or.inr ⟨rfl, rfl⟩)

theorem vget_vset_cases (l : List Edge) (i : Nat) (v : Edge) :
    (∃ o, vget l i = .ok o ∧ vset l i v = .ok (l.set i v)) ∨ (vget l i = .ub ∧ vset l i v = .ub) := by
  by_cases h : i < l.length
  · exact Or.inl ⟨l[i], by simp [vget, h], by simp [vset, h]⟩
  · exact Or.inr ⟨by simp [vget, h], by simp [vset, h]⟩

theorem deleteEdge_agree (m : Mesh P) (e : Nat) : meshOf (deleteEdgeU m e) = deleteEdge m e := by
  unfold deleteEdgeU deleteEdge resetEdge
  split
  · rfl
  · rcases vget_vset_cases m.edges e noEdge with ⟨o, h1, h2⟩ | ⟨h1, h2⟩ <;> simp [h1, h2]

theorem deleteEdges_agree (l : List Nat) (m : Mesh P) : meshOf (deleteEdgesU m l) = deleteEdges m l := by
  induction l generalizing m with
  | nil => rfl
  | cons e es ih =>
    simp only [deleteEdgesU, deleteEdges]
    rcases meshOf_eq (deleteEdge_agree m e) with ⟨r, h1, h2⟩ | ⟨h1, h2⟩ | ⟨h1, h2⟩
    · simp only [h1, h2, Res.ok_bind]
      rcases meshOf_eq (ih r.2) with ⟨r', h3, h4⟩ | ⟨h3, h4⟩ | ⟨h3, h4⟩ <;> simp [h3, h4]
    · simp [h1, h2]
    · simp [h1, h2]

theorem deleteNode_agree (m : Mesh P) (n : Nat) : meshOf (deleteNodeU m n) = deleteNode m n := by
  unfold deleteNodeU deleteNode setNode
  split
  · rfl
  · rename_i hn
    have hn' : n < m.nodes.length := by omega
    simp only [vget, hn', getElem?_pos, Res.ok_bind]
    cases m.nodesEdges[n]? with
    | none => rfl
    | some l =>
      simp only [Res.ok_bind]
      rcases meshOf_eq (deleteEdges_agree l m) with ⟨r, h1, h2⟩ | ⟨h1, h2⟩ | ⟨h1, h2⟩
      · simp only [h1, h2, Res.ok_bind]
        by_cases hr : n < r.2.nodes.length <;> simp [vset, hr]
      · simp [h1, h2]
      · simp [h1, h2]

theorem resetNode_agree (m : Mesh P) (n : Nat) (v : Option P) : meshOf (resetNodeU m n v) = resetNode m n v := by
  unfold resetNodeU resetNode setNode
  split
  · rfl
  · rename_i hn
    have hn' : n < m.nodes.length := by omega
    simp [vget, vset, hn']

theorem resetEdge_agree (m : Mesh P) (e : Nat) (v : Edge) : meshOf (resetEdgeU m e v) = resetEdge m e v := by
  unfold resetEdgeU resetEdge
  rcases vget_vset_cases m.edges e v with ⟨o, h1, h2⟩ | ⟨h1, h2⟩ <;> simp [h1, h2]

theorem connectNodes_agree (m : Mesh P) (s t : Nat) :
    meshOf (connectNodesU m s t) = meshOf (connectNodes m s t) := by
  unfold connectNodesU connectNodes
  cases findEdge m s t with
  | ok f => simp only [Res.ok_bind]; split <;> rfl
  | throw => rfl
  | ub => rfl

theorem mergeInner_agree (s o : Nat) (l : List Nat) (m : Mesh P) :
    meshOf (mergeInnerU s o l m) = mergeInner s o l m := by
  induction l generalizing m with
  | nil => rfl
  | cons i is ih =>
    simp only [mergeInnerU, mergeInner]
    cases vget m.edges i with
    | throw => rfl
    | ub => rfl
    | ok e =>
      simp only [Res.ok_bind]
      split
      · rcases meshOf_eq (deleteEdge_agree m i) with ⟨r, h1, h2⟩ | ⟨h1, h2⟩ | ⟨h1, h2⟩
        · simp only [h1, h2, Res.ok_bind]
          rcases meshOf_eq (ih r.2) with ⟨r', h3, h4⟩ | ⟨h3, h4⟩ | ⟨h3, h4⟩ <;> simp [h3, h4]
        · simp [h1, h2]
        · simp [h1, h2]
      · exact ih m

theorem mergeOuter_agree (a b : Nat) (l : List Nat) (m : Mesh P) :
    meshOf (mergeOuterU a b l m) = mergeOuter a b l m := by
  induction l generalizing m with
  | nil => rfl
  | cons i is ih =>
    simp only [mergeOuterU, mergeOuter]
    cases vget m.edges i with
    | throw => rfl
    | ub => rfl
    | ok e =>
      simp only [Res.ok_bind]
      split
      · cases listedEdges m (otherNode e a) with
        | throw => rfl
        | ub => rfl
        | ok lo =>
          simp only [Res.ok_bind]
          rcases meshOf_eq (mergeInner_agree b (otherNode e a) lo m) with ⟨r, h1, h2⟩ | ⟨h1, h2⟩ | ⟨h1, h2⟩
          · simp only [h1, h2, Res.ok_bind]
            rcases meshOf_eq (ih r.2) with ⟨r', h3, h4⟩ | ⟨h3, h4⟩ | ⟨h3, h4⟩ <;> simp [h3, h4]
          · simp [h1, h2]
          · simp [h1, h2]
      · exact ih m

theorem redirectOne_agree (a b i : Nat) (e : Edge) (m : Mesh P) :
    meshOf (redirectOneU a b i e m) = redirectOne a b i e m := by
  unfold redirectOneU redirectOne
  split
  · exact resetEdge_agree ..
  · split
    · exact resetEdge_agree ..
    · rfl

/-- Forget the actions of `redirectU`. -/
def dropActs : Res (List (Act P) × List Nat × Mesh P) → Res (List Nat × Mesh P)
  | .ok r => .ok r.2
  | .throw => .throw
  | .ub => .ub

theorem redirect_agree (a b : Nat) (l : List Nat) (m : Mesh P) :
    dropActs (redirectU a b l m) = redirect a b l m := by
  induction l generalizing m with
  | nil => rfl
  | cons i is ih =>
    simp only [redirectU, redirect]
    cases vget m.edges i with
    | throw => rfl
    | ub => rfl
    | ok e =>
      simp only [Res.ok_bind]
      split
      · rcases meshOf_eq (redirectOne_agree a b i e m) with ⟨r, h1, h2⟩ | ⟨h1, h2⟩ | ⟨h1, h2⟩
        · simp only [h1, h2, Res.ok_bind]
          have := ih r.2
          cases h : redirectU a b is r.2 with
          | ok x => rw [h] at this; simp [dropActs] at this ⊢; rw [← this]; simp
          | throw => rw [h] at this; simp [dropActs] at this ⊢; rw [← this]; simp
          | ub => rw [h] at this; simp [dropActs] at this ⊢; rw [← this]; simp
        · simp [h1, h2, dropActs]
        · simp [h1, h2, dropActs]
      · exact ih m

theorem deleteIfFound_agree (m : Mesh P) (e : Nat) : meshOf (deleteIfFoundU m e) = deleteIfFound m e := by
  unfold deleteIfFoundU deleteIfFound
  split
  · exact deleteEdge_agree ..
  · rfl

theorem meshOf_bind {α β : Type} (x : Res α) (f : α → Res (β × Mesh P)) :
    meshOf (x >>= f) = x >>= fun a => meshOf (f a) := by
  cases x <;> rfl

theorem bind_meshOf {α : Type} {β : Type} (x : Res (α × Mesh P)) (f : Mesh P → Res β) :
    (meshOf x >>= f) = x >>= fun a => f a.2 := by
  cases x <;> rfl

theorem bind_dropActs {β : Type} (x : Res (List (Act P) × List Nat × Mesh P)) (f : List Nat × Mesh P → Res β) :
    (dropActs x >>= f) = x >>= fun a => f a.2 := by
  cases x <;> rfl

theorem mergeTwoNodes_agree (m : Mesh P) (a b : Nat) : meshOf (mergeTwoNodesU m a b) = mergeTwoNodes m a b := by
  unfold mergeTwoNodesU mergeTwoNodes
  split
  · rfl
  split
  · rfl
  split
  · rfl
  simp only [← deleteIfFound_agree, ← mergeOuter_agree, ← redirect_agree, meshOf_bind, bind_meshOf, bind_dropActs,
    ← resetNode_agree]
  congr 1; funext ei
  congr 1; funext r1
  congr 1; funext lf
  congr 1; funext r2
  congr 1; funext ls
  congr 1; funext c2
  congr 1; funext r3
  split
  · rfl
  · simp only [meshOf_bind]
    congr 1; funext x1
    congr 1; funext x2
    congr 1; funext x3
    congr 1; funext x4
    cases resetNodeU { nodes := r3.2.2.nodes, edges := r3.2.2.edges, nodesEdges := x3, numEdges := x4 } a none <;> rfl

end Verif.Mesh
