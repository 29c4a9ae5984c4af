import Verif.ToCurvi.LatticeLemmas
/-!
# Lemmas: the conversion around the search
-/
namespace Verif.ToCurvi
open Verif.Mesh Verif.Faces Verif.Refine Verif.Curvi
variable {P : Type}

theorem outlineOf_ok {m : Mesh P} {s : State} (hf : Facts m s) {f a b c d : Nat} (h : s.facesNodes[f]? = some [a, b, c, d]) :
    outlineOf m [a, b, c, d] = .ok ([a, b, c, d, a].map fun n => (m.nodes[n]?).join) := by
  have hv : ∀ n ∈ [a, b, c, d], vget m.nodes n = .ok (m.nodes[n]?).join := by
    intro n hn
    have := hf.valid f _ h n hn
    unfold validNode at this
    unfold vget
    cases hx : m.nodes[n]? with
    | none => rw [hx] at this; simp at this
    | some x => simp
  unfold outlineOf
  simp only [vget, List.getElem?_cons_zero, List.getElem?_cons_succ, Res.ok_bind]
  have h1 := hv a (by simp)
  have h2 := hv b (by simp)
  have h3 := hv c (by simp)
  have h4 := hv d (by simp)
  simp only [vget] at h1 h2 h3 h4
  rw [h1, h2, h3, h4]
  rfl

theorem corners_of_length {ns : List Nat} (h : ns.length = 4) : ∃ a b c d, ns = [a, b, c, d] := by
  match ns, h with
  | [a, b, c, d], _ => exact ⟨a, b, c, d, rfl⟩

theorem compute_start {m : Mesh P} {s : State} (hf : Facts m s) {nearest : State → Res Nat} {contains : List (Option P) → Bool} {f : Nat}
    (h : Start nearest contains m s f) : compute nearest contains m s = growFrom m s f := by
  obtain ⟨h1, a, b, c, d, h2, h3⟩ := h
  unfold compute
  have e : vget s.facesNodes f = .ok [a, b, c, d] := by unfold vget; rw [h2]
  rw [h1, Res.ok_bind, e, Res.ok_bind, if_neg (by simp), outlineOf_ok hf h2, Res.ok_bind, if_pos h3]

theorem compute_refused {m : Mesh P} {s : State} (hf : Facts m s) {nearest : State → Res Nat} {contains : List (Option P) → Bool} {f : Nat}
    (hn : nearest s = .ok f) (hl : f < s.facesNodes.length) (h : ¬ Start nearest contains m s f) : compute nearest contains m s = .throw := by
  unfold compute
  have e : vget s.facesNodes f = .ok s.facesNodes[f] := by unfold vget; rw [List.getElem?_eq_getElem hl]
  rw [hn, Res.ok_bind, e, Res.ok_bind]
  split
  · rfl
  · rename_i h4
    obtain ⟨a, b, c, d, h5⟩ := corners_of_length (not_not.1 h4)
    have h6 : s.facesNodes[f]? = some [a, b, c, d] := by rw [List.getElem?_eq_getElem hl, h5]
    rw [h5, outlineOf_ok hf h6, Res.ok_bind, if_neg (fun h7 => h ⟨hn, a, b, c, d, h6, h7⟩)]

theorem convert_compute {order : Nat → List Nat → List Nat} {cw : List (Option P) → List Nat → Bool} {nearest : State → Res Nat}
    {contains : List (Option P) → Bool} {m m1 : Mesh P} {s : State} (h0 : m.nodes ≠ []) (h : doAdministration order cw m = .ok (m1, s))
    (hs : s.facesNodes ≠ []) :
    convert order cw nearest contains m = (do let g ← compute nearest contains m1 s; .ok (g, ⟨[], [], [], []⟩)) := by
  unfold convert
  rw [if_neg (fun e => h0 (List.length_eq_zero_iff.1 e)), h, Res.ok_bind]
  simp only []
  rw [if_neg (fun e => hs (List.length_eq_zero_iff.1 e))]

theorem nodes_of_faces {order : Nat → List Nat → List Nat} {cw : List (Option P) → List Nat → Bool} {m m1 : Mesh P} {s : State}
    (hm : Manageable m) (ho : ∀ n l, (order n l).Perm l) (h : doAdministration order cw m = .ok (m1, s)) (hs : s.facesNodes ≠ []) :
    m.nodes ≠ [] := by
  intro h0
  obtain ⟨m1', s', a1, a2, a3, a4, _⟩ := doAdministration_ok ho cw hm.nodesFit (inBounds_of hm.bounds)
  rw [h] at a2
  obtain ⟨rfl, rfl⟩ := Prod.mk.inj (Res.ok.inj a2)
  obtain ⟨ns, rest, hns⟩ := List.exists_cons_of_ne_nil hs
  have g0 : s.facesNodes[0]? = some ns := by rw [hns]; rfl
  have hl : 0 < s.facesEdges.length := by rw [← a3.lengths, hns]; simp
  have hp := (a3.proper 0 ns _ g0 (List.getElem?_eq_getElem hl)).1
  obtain ⟨m0, b1, b2, b3, _⟩ := setUnconnectedInvalid_ok hm.nodesFit (inBounds_of hm.bounds)
  obtain ⟨m1', c1, _, ⟨m0', d1, d2, d3⟩, _⟩ := administrate_listed ho hm.nodesFit (inBounds_of hm.bounds)
  rw [a1] at c1
  obtain rfl := Res.ok.inj c1
  rw [b1] at d1
  obtain rfl := Res.ok.inj d1
  have hn : m1.nodes.length = 0 := by rw [d2, b2]; simp [connectedNodes, h0]
  obtain ⟨n, hn'⟩ : ∃ n, n ∈ ns := by
    have := hp.atLeast
    cases ns with
    | nil => simp at this
    | cons n _ => exact ⟨n, by simp⟩
  have := a4 0 ns g0 n hn'
  have := validNode_lt this
  omega

end Verif.ToCurvi
