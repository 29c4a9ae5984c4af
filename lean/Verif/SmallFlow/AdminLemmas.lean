import Verif.SmallFlow.Spec
import Verif.Flip.StartLemmas
import Verif.MergeClose.EndLemmas
import Verif.Quality.Props
/-!
# Lemmas: administrating again, and flat triangles
-/
namespace Verif.SmallFlow
open Verif.Mesh Verif.Faces Verif.Quality
open Verif.Polygons (Pt area2 shoelace)

theorem edges_eq {m k : Mesh Pt} (hl : k.edges.length = m.edges.length) (h : ∀ i, edgeAt k i = edgeAt m i) : k.edges = m.edges := by
  apply List.ext_getElem hl
  intro i h1 h2
  have := h i
  unfold edgeAt at this
  simpa [h1, h2] using this

theorem nodes_eq {l k : List (Option Pt)} (hl : k.length = l.length) (h : ∀ i : Nat, (k[i]?).join = (l[i]?).join) : k = l := by
  apply List.ext_getElem hl
  intro i h1 h2
  have := h i
  simpa [h1, h2] using this

/-- What one administration with the search for faces gives. -/
theorem administrated {m : Mesh Pt} (hm : Manageable m) (hn : m.nodes ≠ []) (he : m.edges ≠ []) :
    ∃ as m1 s, Flip.administrateAll m = .ok (as, m1, s) ∧ doAdministrationCartesian m = .ok (m1, s) ∧ Good m as m1 ∧ Administrated m m1 ∧
      Ready m1 s ∧ Manageable m1 ∧ m1.nodes ≠ [] ∧ m1.edges ≠ [] := by
  obtain ⟨as, m1, s, h1, h2, h3, h4, h5, h6⟩ := Flip.administrateAll_ok hm hn he
  have hb := inBounds_of hm.bounds
  obtain ⟨m0, m1', s', g0, g1, g2, g3, g4, g5, g6, g7⟩ := cartesian_run m hm.nodesFit hb
  rw [h2] at g4
  obtain ⟨rfl, rfl⟩ := Prod.mk.inj (Res.ok.inj g4)
  obtain ⟨m', q1, a⟩ := administrate_ok hm hn he (ccwOrder m0.nodes m0.edges) (ccwOrder_perm _ _)
  rw [g3] at q1
  obtain rfl := Res.ok.inj q1
  refine ⟨as, m1, s, h1, h2, h4, a, ready_of_run hm.nodesFit hb h2 h3.facesFit, MergeClose.manageable_of_administrated hm a, ?_, ?_⟩
  · intro h
    rw [h] at h6
    exact hn (List.length_eq_zero_iff.1 h6.symm)
  · intro h
    rw [h] at h5
    exact he (List.length_eq_zero_iff.1 h5.symm)

theorem administrated_idem {m m1 : Mesh Pt} (hm : Manageable m) (a : Administrated m m1) :
    (∀ (n : Nat) p, m1.nodes[n]? = some (some p) → Used m1 n) ∧ ∀ e, edgeAt m1 e ≠ noEdge → (seg m1.nodes (edgeAt m1 e)).isSome := by
  have k := MergeClose.MeshOk.start hm a (fun _ _ => False)
  refine ⟨?_, k.ends⟩
  intro n p hp
  have h1 := a.nodes n
  rw [hp] at h1
  by_cases hc : connected m n
  · obtain ⟨y, hy⟩ := MergeClose.used_iff_drawn.1 ((connected_iff hm.nodesFit n).1 hc)
    exact MergeClose.used_iff_drawn.2 ⟨y, (MergeClose.drawn_of_administrated hm a n y).2 hy⟩
  · rw [if_neg hc] at h1
    simp at h1

/-- Administrating a second time changes nothing at all. -/
theorem admin_again {m m1 : Mesh Pt} {s : State} (hm : Manageable m) (hn : m.nodes ≠ []) (he : m.edges ≠ [])
    (h : doAdministrationCartesian m = .ok (m1, s)) : doAdministrationCartesian m1 = .ok (m1, s) := by
  obtain ⟨as, m1', s', _, h2, _, a, _, hm1, hn1, he1⟩ := administrated hm hn he
  rw [h] at h2
  obtain ⟨rfl, rfl⟩ := Prod.mk.inj (Res.ok.inj h2)
  obtain ⟨hu, hd⟩ := administrated_idem hm a
  obtain ⟨m0, m1', s', g0, g1, g2, g3, g4, g5, g6, g7⟩ := cartesian_run m hm.nodesFit (inBounds_of hm.bounds)
  rw [h] at g4
  obtain ⟨rfl, rfl⟩ := Prod.mk.inj (Res.ok.inj g4)
  obtain ⟨k0, k1, t, f0, f1, f2, f3, f4, f5, f6, f7⟩ := cartesian_run m1 hm1.nodesFit (inBounds_of hm1.bounds)
  obtain ⟨k1', q1, b⟩ := administrate_ok hm1 hn1 he1 (ccwOrder k0.nodes k0.edges) (ccwOrder_perm _ _)
  rw [f3] at q1
  obtain rfl := Res.ok.inj q1
  have en : k1.nodes = m1.nodes := by
    apply nodes_eq b.nodesLen
    intro i
    rw [b.nodes i]
    split
    · rfl
    · rename_i hc
      cases hp : m1.nodes[i]? with
      | none => rfl
      | some v =>
        cases v with
        | none => rfl
        | some p => exact absurd ((connected_iff hm1.nodesFit i).2 (hu i p hp)) hc
  have ee : k1.edges = m1.edges := by
    apply edges_eq b.edgesLen
    intro i
    rw [b.edges i]
    split
    · rfl
    · rename_i hc
      by_contra hne
      exact hc (hd i (fun q => hne q.symm))
  have n0 : m0.nodes = k0.nodes := by rw [← f1, en, g1]
  have e0 : m0.edges = k0.edges := by rw [← f2, ee, g2]
  have ekm : k1 = m1 := by
    unfold administrate at g3 f3
    rw [g0] at g3
    rw [f0] at f3
    simp only [n0, e0] at g3 f3
    split at f3
    · rename_i hc
      exfalso
      rw [Bool.or_eq_true, List.isEmpty_iff, List.isEmpty_iff, ← f1, ← f2, en, ee] at hc
      exact hc.elim hn1 he1
    · rename_i hc
      rw [if_neg hc] at g3
      have e1 := Res.ok.inj f3
      have e2 := Res.ok.inj g3
      rw [← e1, ← e2]
  subst ekm
  rw [f4]
  congr 2
  rw [f7] at g7
  exact (Res.ok.inj g7).symm ▸ rfl

/-- No face is a flat triangle. -/
theorem flat_false {m : Mesh Pt} {s : State} (r : Ready m s) {f : Nat} {ns : List Nat} (h : s.facesNodes[f]? = some ns) :
    flat m.nodes ns = .ok false := by
  unfold flat
  split
  · rfl
  · rename_i hl
    have hl : ns.length = 3 := by omega
    match ns, hl, h with
    | [i, j, k], _, h =>
      have hv := r.valid f _ h
      obtain ⟨a, ha⟩ := validNode_get (hv i (by simp))
      obtain ⟨b, hb⟩ := validNode_get (hv j (by simp))
      obtain ⟨c, hc⟩ := validNode_get (hv k (by simp))
      have hlt : f < s.facesEdges.length := by rw [← r.consistent.lengths]; exact (List.getElem?_eq_some_iff.1 h).1
      obtain ⟨_, _, _, _, hpos⟩ := areas_get (other := fun _ _ => ⟨0, 0⟩) r hlt
      have hcorn : corners m s f = [a, b, c] := by
        unfold corners
        rw [List.getD_eq_getElem?_getD, h]
        simp [position_get ha, position_get hb, position_get hc]
      rw [hcorn, shoelace_three] at hpos
      have e0 : vget [i, j, k] 0 = .ok i := rfl
      have e1 : vget [i, j, k] 1 = .ok j := rfl
      have e2 : vget [i, j, k] 2 = .ok k := rfl
      rw [e0, Res.ok_bind, e1, Res.ok_bind, e2, Res.ok_bind, vget_eq_ok.2 ha, Res.ok_bind, vget_eq_ok.2 hb, Res.ok_bind, vget_eq_ok.2 hc, Res.ok_bind]
      congr 1
      unfold stored
      simp only [Option.getD_some]
      have hden : den a b c ≠ 0 := by
        have : den a b c = - area2 a b c := by unfold den area2; ring
        rw [this]
        intro hz
        linarith
      unfold Polygons.isEqual
      simp [hden]

/-- The search for flat triangles finds none. -/
theorem flat_loop {m : Mesh Pt} {s : State} (r : Ready m s) : forRange 0 s.facesNodes.length (flatStep s) ([], m, []) = .ok ([], m, []) := by
  refine forRange_eq (f := flatStep s) (lo := 0) (hi := s.facesNodes.length) (fun _ => ([], m, [])) (Nat.zero_le _) ?_
  intro i _ hi
  have hg : s.facesNodes[i]? = some s.facesNodes[i] := List.getElem?_eq_getElem hi
  unfold flatStep
  rw [vget_eq_ok.2 hg, Res.ok_bind]
  simp only []
  rw [flat_false r hg, Res.ok_bind, if_neg Bool.false_ne_true]

/-- Deleting the degenerated triangles is administrating. -/
theorem deleteDegenerated_ok {m : Mesh Pt} (hm : Manageable m) (hn : m.nodes ≠ []) (he : m.edges ≠ []) :
    ∃ as m1 s, deleteDegenerated m = .ok (as, m1, s) ∧ doAdministrationCartesian m = .ok (m1, s) ∧ Good m as m1 ∧ Administrated m m1 ∧
      Ready m1 s ∧ Manageable m1 ∧ m1.nodes ≠ [] ∧ m1.edges ≠ [] := by
  obtain ⟨as, m1, s, h1, h2, h3, h4, h5, h6, h7, h8⟩ := administrated hm hn he
  obtain ⟨bs, m2, s2, g1, g2, g3, g4, g5, g6, g7, g8⟩ := administrated h6 h7 h8
  rw [admin_again hm hn he h2] at g2
  obtain ⟨rfl, rfl⟩ := Prod.mk.inj (Res.ok.inj g2)
  refine ⟨as ++ bs, m1, s, ?_, h2, h3.trans g3, h4, h5, h6, h7, h8⟩
  unfold deleteDegenerated
  rw [h1, Res.ok_bind]
  simp only []
  rw [flat_loop h5, Res.ok_bind]
  simp only [collapse, Res.ok_bind]
  rw [g1, Res.ok_bind]
  simp

end Verif.SmallFlow
