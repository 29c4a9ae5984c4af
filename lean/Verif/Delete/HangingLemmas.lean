import Verif.Delete.Lemmas
/-!
# Lemmas about hanging edges
-/
namespace Verif.Delete
open Verif.Mesh Verif.Faces Verif.Regions
variable {P : Type}

theorem eq_singleton {l : List Nat} {e : Nat} (hn : l.Nodup) (he : e ∈ l) : l.length ≤ 1 ↔ ∀ j ∈ l, j = e := by
  constructor
  · intro h j hj
    match l, h with
    | [x], _ =>
      rw [List.mem_singleton] at he hj
      rw [he, hj]
  · intro h
    match l, hn with
    | [], _ => simp
    | [x], _ => simp
    | x :: y :: t, hn =>
      have h1 := h x (by simp)
      have h2 := h y (by simp)
      rw [h1, h2] at hn
      simp at hn

open Classical in
theorem isHanging_ok {m : Mesh P} (w : WF m) (hf : ∀ n i, i ∈ listAt m n → edgeAt m i ≠ noEdge) {e : Nat} (he : e < m.edges.length) :
    isHanging m e = .ok (decide (Hangs m e)) := by
  unfold isHanging
  rw [vget_edge he, Res.ok_bind]
  by_cases hno : edgeAt m e = noEdge
  · rw [hno, if_pos (show noEdge.1 = missing ∨ noEdge.2 = missing from Or.inl rfl)]
    congr 1
    symm
    rw [decide_eq_false_iff_not]
    exact fun h => h.1 hno
  · have hb := (w.bounds e).resolve_left hno
    have h1 := not_missing w hb.1
    have h2 := not_missing w hb.2
    rw [if_neg (by intro h; rcases h with h | h <;> contradiction), vget_numEdges w hb.1, Res.ok_bind, vget_numEdges w hb.2, Res.ok_bind]
    have key : ∀ n, touches (edgeAt m e) n → ((listAt m n).length ≤ 1 ↔ ∀ j, edgeAt m j ≠ noEdge → touches (edgeAt m j) n → j = e) := by
      intro n hn
      rw [eq_singleton (w.nodup n) (w.complete e n hno hn)]
      constructor
      · intro h j hj ht
        exact h j (w.complete j n hj ht)
      · intro h j hj
        have := hf n j hj
        exact h j this ((w.listed n j hj).2.resolve_left this)
    have : Hangs m e ↔ (listAt m (edgeAt m e).1).length ≤ 1 ∨ (listAt m (edgeAt m e).2).length ≤ 1 := by
      rw [key _ (Or.inl rfl), key _ (Or.inr rfl)]
      constructor
      · rintro ⟨_, n, hn | hn, h⟩
        · rw [← hn] at h; exact Or.inl h
        · rw [← hn] at h; exact Or.inr h
      · rintro (h | h)
        · exact ⟨hno, _, Or.inl rfl, h⟩
        · exact ⟨hno, _, Or.inr rfl, h⟩
    congr 1
    rw [Bool.eq_iff_iff, decide_eq_true_eq, this]
    simp only [Bool.not_eq_true', Bool.and_eq_false_iff, decide_eq_false_iff_not, Nat.not_lt]

open Classical in
theorem hangingLoop_ok {m : Mesh P} (w : WF m) (hf : ∀ n i, i ∈ listAt m n → edgeAt m i ≠ noEdge) : ∀ (l : List Nat), (∀ e ∈ l, e < m.edges.length) →
    hangingLoop m l = .ok (l.filter (fun e => decide (Hangs m e)))
  | [], _ => rfl
  | e :: es, h => by
    unfold hangingLoop
    rw [isHanging_ok w hf (h e (by simp)), Res.ok_bind, hangingLoop_ok w hf es (fun k hk => h k (by simp [hk])), Res.ok_bind, List.filter_cons]

end Verif.Delete
