import Verif.SplitRow.RowLemmas
import Mathlib.Data.List.Rotate
/-!
# Lemmas: deleting the cut edges; the mesh with the row split
-/
namespace Verif.SplitRow
open Verif.Mesh Verif.Faces
open Verif.Polygons (Pt)
open Verif.Flip (Exact Linked)

variable {m : Mesh Pt} {s : State} {mid : Pt → Pt → Pt}

theorem deleteEdgesU_ok (l : List Nat) (m : Mesh Pt) (h : ∀ e ∈ l, e < m.edges.length) (hf : m.edges.length ≤ missing) :
    ∃ as, deleteEdgesU m l = .ok (as, { m with edges := m.edges.mapIdx fun e p => if e ∈ l then noEdge else p }) := by
  induction l generalizing m with
  | nil =>
    refine ⟨[], ?_⟩
    rw [deleteEdgesU]
    have : (m.edges.mapIdx fun e p => if e ∈ ([] : List Nat) then noEdge else p) = m.edges := by
      apply List.ext_getElem?
      intro i
      simp
    rw [this]
  | cons e es ih =>
    have he := h e List.mem_cons_self
    obtain ⟨as, h1⟩ := ih { m with edges := m.edges.set e noEdge } (fun k hk => by simpa using h k (List.mem_cons_of_mem _ hk)) (by simpa using hf)
    have hd : deleteEdgeU m e = .ok ([.deleteEdge e m.edges[e]], { m with edges := m.edges.set e noEdge }) := by
      unfold deleteEdgeU
      rw [if_neg (by omega), vget_eq_ok.2 (List.getElem?_eq_getElem he), Res.ok_bind]
      unfold resetEdge
      rw [vset_eq_ok.2 ⟨he, rfl⟩]
      rfl
    refine ⟨[.deleteEdge e m.edges[e]] ++ as, ?_⟩
    rw [deleteEdgesU, hd, Res.ok_bind]
    simp only []
    rw [h1, Res.ok_bind]
    simp only [Res.ok.injEq, Prod.mk.injEq, true_and]
    congr 1
    apply List.ext_getElem?
    intro i
    simp only [List.getElem?_mapIdx, List.getElem?_set]
    by_cases hi : e = i
    · subst hi
      simp [he]
    · have : i ≠ e := Ne.symm hi
      simp [hi, this]

/-- The end of `split`, from the row on. -/
theorem split_of_row (x : Exact m s) {e f : Nat} (hb : Borders s f e) (hq : Quadrilateral s f) (he5 : 5 * m.edges.length ≤ missing)
    {fs row cutRow : List Nat} {new inner : List Edge} {w : Work Pt} {ns : List (Option Pt)}
    (hc : collect m.edges.length s e = .ok (fs, row)) (hs : splitAlong mid s fs row ⟨m, [], []⟩ = .ok w)
    (hg : Grown m w ns new (cutRow.filter (cut s))) (hlt : ∀ e ∈ cutRow, e < m.edges.length) (hns : ns = (cutRow.filter (cut s)).map (middle mid m))
    (hfit : m.edges.length + new.length ≤ missing)
    (hp : new.Perm (halves (edgeAt m) cutRow (marks s m.nodes.length cutRow) ++ inner)) :
    ∃ acts m', split mid s m e = .ok (some (acts, m')) ∧ SplitBy mid s m m' cutRow inner ∧ Good m acts m' := by
  have t := tab_of x 0 (by omega)
  obtain ⟨p, hp1, hp2, l1, l2, v1, v2⟩ := edge_of x hb
  have hlen := (List.getElem?_eq_some_iff.1 hp1).1
  obtain ⟨pf, g, k1, _, _, k4, _, _, k7, _⟩ := Across.of t hb
  have hcan : canBeSplit s e = .ok true := by
    unfold canBeSplit
    rw [if_neg (by omega), vget_eq_ok.2 k1, Res.ok_bind]
    rcases k7 with rfl | rfl
    · rw [isQuad_of t hq, Res.ok_bind]
      rfl
    · rw [isQuad_ok t k4, Res.ok_bind, isQuad_of t hq]
      split <;> rfl
  have hwl : w.mesh.edges.length = m.edges.length + new.length := by rw [hg.mesh]; simp
  obtain ⟨as, hd⟩ := deleteEdgesU_ok (cutRow.filter (cut s)) w.mesh (fun k hk => by
    have := hlt k (List.mem_filter.1 hk).1
    omega) (by omega)
  refine ⟨w.acts ++ as, _, ?_, ⟨?_, new, ?_, hp⟩, hg.good.trans (deleteEdgesU_good _ hd)⟩
  · unfold split
    rw [if_neg (by omega), if_neg (by omega)]
    have ge : getEdge m e = .ok p := by unfold getEdge; rw [hp1]
    have gn1 : ∀ n, n < m.nodes.length → getNode m n = .ok (m.nodes[n]?).join := by
      intro n hn
      unfold getNode
      rw [List.getElem?_eq_getElem hn]
      rfl
    have hnn : hasNodes p = true := by
      have hfit := x.nodesFit
      unfold hasNodes
      simp only [Bool.and_eq_true, decide_eq_true_eq]
      first | exact ⟨by omega, by omega⟩ | (constructor <;> simp <;> omega)
    rw [ge, Res.ok_bind, hnn]
    simp only [Bool.not_true]
    have hv : endsValid m p = .ok true := by
      unfold validNode at v1 v2
      unfold endsValid
      rw [gn1 _ l1, Res.ok_bind, if_pos v1, gn1 _ l2, Res.ok_bind, v2]
    rw [if_neg Bool.false_ne_true, hv, Res.ok_bind]
    simp only [Bool.not_true]
    rw [if_neg Bool.false_ne_true, hcan, Res.ok_bind]
    simp only [Bool.not_true]
    rw [if_neg Bool.false_ne_true, hc, Res.ok_bind]
    simp only []
    rw [hs, Res.ok_bind, hg.del, hd, Res.ok_bind]
  · rw [hg.mesh, hns]
  · simp only [hg.mesh]
    rw [List.mapIdx_append]
    congr 1
    · apply List.ext_getElem?
      intro i
      simp only [List.getElem?_mapIdx, List.mem_filter]
    · apply List.ext_getElem?
      intro i
      simp only [List.getElem?_mapIdx]
      cases hi : new[i]? with
      | none => rfl
      | some v =>
        simp only [Option.map_some]
        rw [if_neg]
        intro hcc
        have := hlt _ (List.mem_filter.1 hcc).1
        omega

end Verif.SplitRow
