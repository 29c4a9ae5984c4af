import Verif.Casulli.TableLemmas
/-!
# The part that joins new nodes across a face never does
-/
namespace Verif.Casulli
open Verif.Mesh Verif.Faces
variable {P : Type}

theorem faceActive_true {mask : List Mask} (ns : List Nat) (h : faceActive mask ns = .ok true) : ∀ n ∈ ns, mask[n]? ≠ some .unassigned := by
  induction ns with
  | nil => intro n hn; simp at hn
  | cons x ns ih =>
    rw [faceActive] at h
    obtain ⟨a, h1, h⟩ := Res.bind_eq_ok.1 h
    split at h
    · cases h
    · rename_i hne
      intro n hn
      rcases List.mem_cons.1 hn with rfl | hn
      · rw [vget_eq_ok.1 h1]
        intro hc
        exact hne (Option.some.inj hc)
      · exact ih h n hn

theorem faceIndex_old {m : Mesh P} {s : State} {f : Nat} {ns es : List Nat} (hf : FaceOf m s f ns es) {table : List (List Nat)} {j : Nat} {q : Nat × Nat}
    (h : faceIndex m table es j = .ok q) : q.1 ∈ ns := by
  unfold faceIndex at h
  obtain ⟨e, h1, h⟩ := Res.bind_eq_ok.1 h
  obtain ⟨e', h2, h⟩ := Res.bind_eq_ok.1 h
  obtain ⟨p, h3, h⟩ := Res.bind_eq_ok.1 h
  obtain ⟨p', h4, h⟩ := Res.bind_eq_ok.1 h
  have he := vget_eq_ok.1 h1
  have hj : j < ns.length := by rw [← hf.proper.len]; exact (List.getElem?_eq_some_iff.1 he).1
  obtain ⟨a, b, e1, q1, q2, q3, q4, q5, _⟩ := hf.side hj
  rw [he] at q3
  obtain rfl := Option.some.inj q3
  have hp : p = edgeAt m e := by
    rw [getEdge_ok (used_lt (hf.used (List.mem_of_getElem? he)))] at h3
    exact (Res.ok.inj h3).symm
  have ha := List.mem_of_getElem? q1
  have hb := List.mem_of_getElem? q2
  subst hp
  split at h
  · obtain ⟨n, _, h⟩ := Res.bind_eq_ok.1 h
    obtain rfl := Res.ok.inj h
    rcases q5 with q5 | q5 <;> rw [q5] <;> assumption
  · obtain ⟨n, _, h⟩ := Res.bind_eq_ok.1 h
    obtain rfl := Res.ok.inj h
    rcases q5 with q5 | q5 <;> rw [q5] <;> assumption

theorem faceDiagonal_same {idx : List (Nat × Nat)} {r : Run P} (hx : ∀ q ∈ idx, r.mask[q.1]? ≠ some .unassigned) :
    ∀ (js : List Nat) {r' : Run P}, faceDiagonal idx js r = .ok r' → r' = r := by
  intro js
  induction js with
  | nil => intro r' h; exact (Res.ok.inj h).symm
  | cons j js ih =>
    intro r' h
    rw [faceDiagonal] at h
    obtain ⟨here, h1, h⟩ := Res.bind_eq_ok.1 h
    obtain ⟨prev, h2, h⟩ := Res.bind_eq_ok.1 h
    obtain ⟨next, h3, h⟩ := Res.bind_eq_ok.1 h
    obtain ⟨opp, h4, h⟩ := Res.bind_eq_ok.1 h
    obtain ⟨k, h5, h⟩ := Res.bind_eq_ok.1 h
    unfold fourMasks at h5
    obtain ⟨x, g1, h5⟩ := Res.bind_eq_ok.1 h5
    obtain ⟨y, g2, h5⟩ := Res.bind_eq_ok.1 h5
    obtain ⟨z, g3, h5⟩ := Res.bind_eq_ok.1 h5
    obtain ⟨w, g4, h5⟩ := Res.bind_eq_ok.1 h5
    obtain rfl := Res.ok.inj h5
    have hy : y ≠ .unassigned := fun hc => hx prev (List.mem_of_getElem? (vget_eq_ok.1 h2)) (by rw [vget_eq_ok.1 g2, hc])
    have hw : w ≠ .unassigned := fun hc => hx opp (List.mem_of_getElem? (vget_eq_ok.1 h4)) (by rw [vget_eq_ok.1 g4, hc])
    rw [if_neg (fun c => hy c.2.1), if_neg (fun c => hw c.2.2.2), if_neg (fun c => hy c.2.1)] at h
    exact ih h

/-- The loop over the faces leaves the mesh as it is. -/
theorem connectFace_same {s : State} {f : Nat} {ns es : List Nat} {r r' : Run P} (hf : FaceOf r.mesh s f ns es) (h : connectFace s f r = .ok r') :
    r' = r := by
  unfold connectFace at h
  rw [vget_eq_ok.2 hf.nodes, Res.ok_bind] at h
  split at h
  · exact (Res.ok.inj h).symm
  · obtain ⟨act, h1, h⟩ := Res.bind_eq_ok.1 h
    split at h
    · rename_i hact
      subst hact
      rw [vget_eq_ok.2 hf.edges, Res.ok_bind] at h
      unfold connectFaceNodes at h
      obtain ⟨a, g1, h⟩ := Res.bind_eq_ok.1 h
      obtain ⟨b, g2, h⟩ := Res.bind_eq_ok.1 h
      obtain ⟨c, g3, h⟩ := Res.bind_eq_ok.1 h
      obtain ⟨d, g4, h⟩ := Res.bind_eq_ok.1 h
      refine faceDiagonal_same ?_ _ h
      intro q hq
      have hall := faceActive_true ns h1
      simp only [List.mem_cons, List.not_mem_nil, or_false] at hq
      rcases hq with rfl | rfl | rfl | rfl
      · exact hall _ (faceIndex_old hf g1)
      · exact hall _ (faceIndex_old hf g2)
      · exact hall _ (faceIndex_old hf g3)
      · exact hall _ (faceIndex_old hf g4)
    · exact (Res.ok.inj h).symm

end Verif.Casulli
