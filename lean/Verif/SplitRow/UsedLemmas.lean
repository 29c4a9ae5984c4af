import Verif.SplitRow.PartLemmas
import Verif.Delete.Props
/-!
# Lemmas: after the split all nodes are used and all edges drawn
-/
namespace Verif.SplitRow
open Verif.Mesh Verif.Faces
open Verif.Polygons (Pt)
open Verif.Flip (Exact Linked)

variable {m m' : Mesh Pt} {s : State} {mid : Pt → Pt → Pt}

/-- The number of a new node. -/
theorem mem_marks {row : List Nat} {n z : Nat} (h : some z ∈ marks s n row) : ∃ j : Nat, ∃ c, z = n + j ∧ (row.filter (cut s))[j]? = some c := by
  induction row generalizing n with
  | nil => simp [marks] at h
  | cons e es ih =>
    rcases Bool.eq_false_or_eq_true (cut s e) with he | he
    · rw [marks_cut he] at h
      rcases List.mem_cons.1 h with h | h
      · exact ⟨0, e, by simpa using h, by simp [he]⟩
      · obtain ⟨j, c, h1, h2⟩ := ih h
        exact ⟨j + 1, c, by omega, by simpa [he] using h2⟩
    · rw [marks_not he] at h
      rcases List.mem_cons.1 h with h | h
      · simp at h
      · obtain ⟨j, c, h1, h2⟩ := ih h
        exact ⟨j, c, h1, by simpa [he] using h2⟩

theorem halves_at {ends : Nat → Edge} {row : List Nat} {n j c : Nat} (h : (row.filter (cut s))[j]? = some c) :
    ((ends c).1, n + j) ∈ halves ends row (marks s n row) := by
  induction row generalizing n j with
  | nil => simp at h
  | cons e es ih =>
    rcases Bool.eq_false_or_eq_true (cut s e) with he | he
    · rw [marks_cut he]
      cases j with
      | zero =>
        simp [he] at h
        subst h
        simp [halves]
      | succ j =>
        have := ih (n := n + 1) (j := j) (by simpa [he] using h)
        rw [show n + (j + 1) = n + 1 + j by omega]
        simp only [halves, List.mem_cons]
        exact Or.inr (Or.inr this)
    · rw [marks_not he]
      simp only [halves]
      exact ih (by simpa [he] using h)

theorem of_mem_halves {ends : Nat → Edge} {row : List Nat} {X : List (Option Nat)} {p : Edge} (h : p ∈ halves ends row X) :
    ∃ c ∈ row, ∃ z, some z ∈ X ∧ (p = ((ends c).1, z) ∨ p = (z, (ends c).2)) := by
  induction row generalizing X with
  | nil => simp [halves] at h
  | cons e es ih =>
    match X, h with
    | [], h => simp [halves] at h
    | some x :: X, h =>
      simp only [halves, List.mem_cons] at h
      rcases h with h | h | h
      · exact ⟨e, List.mem_cons_self, x, List.mem_cons_self, Or.inl h⟩
      · exact ⟨e, List.mem_cons_self, x, List.mem_cons_self, Or.inr h⟩
      · obtain ⟨c, h1, z, h2, h3⟩ := ih h
        exact ⟨c, List.mem_cons_of_mem _ h1, z, List.mem_cons_of_mem _ h2, h3⟩
    | none :: X, h =>
      simp only [halves] at h
      obtain ⟨c, h1, z, h2, h3⟩ := ih h
      exact ⟨c, List.mem_cons_of_mem _ h1, z, List.mem_cons_of_mem _ h2, h3⟩

theorem of_mem_bridges {ends : Nat → Edge} {row : List Nat} {X : List (Option Nat)} {p : Edge} (h : p ∈ bridges ends row X) {n : Nat} (hn : n = p.1 ∨ n = p.2) :
    some n ∈ X ∨ ∃ c ∈ row, n = (ends c).1 ∨ n = (ends c).2 := by
  induction row generalizing X with
  | nil => simp [bridges] at h
  | cons e es ih =>
    match es, X, h with
    | [], _, h => simp [bridges] at h
    | _ :: _, [], h => simp [bridges] at h
    | _ :: _, [_], h => simp [bridges] at h
    | e' :: es, x :: y :: X, h =>
      rw [bridges, List.mem_append] at h
      rcases h with h | h
      · match x, y, h with
        | some x, some y, h =>
          simp only [bridge, List.mem_singleton] at h
          subst h
          rcases hn with rfl | rfl <;> simp
        | some x, none, h =>
          simp only [bridge, List.mem_cons, List.not_mem_nil, or_false] at h
          rcases h with rfl | rfl <;> rcases hn with rfl | rfl <;> simp
        | none, some y, h =>
          simp only [bridge, List.mem_cons, List.not_mem_nil, or_false] at h
          rcases h with rfl | rfl <;> rcases hn with rfl | rfl <;> simp
        | none, none, h => simp [bridge] at h
      · rcases ih (X := y :: X) h with h | ⟨c, h1, h2⟩
        · exact Or.inl (List.mem_cons_of_mem _ h)
        · exact Or.inr ⟨c, List.mem_cons_of_mem _ h1, h2⟩

/-- All nodes are used and all edges drawn. -/
theorem used_drawn (x : Exact m s) {cutRow row : List Nat} {X : List (Option Nat)}
    (h : SplitBy mid s m m' cutRow (bridges (edgeAt m) row X)) (hb : ∀ c ∈ row, ∃ f, Borders s f c) (hsub : ∀ c ∈ cutRow, c ∈ row)
    (hX : ∀ z, some z ∈ X → some z ∈ marks s m.nodes.length cutRow) :
    Whole m' := by
  have vold : ∀ n, validNode m.nodes n = true → validNode m'.nodes n = true := by
    intro n hn
    have hlt := validNode_lt hn
    unfold validNode at hn ⊢
    rw [h.nodes, List.getElem?_append_left hlt]
    exact hn
  have vends : ∀ c ∈ row, validNode m'.nodes (edgeAt m c).1 = true ∧ validNode m'.nodes (edgeAt m c).2 = true := by
    intro c hc
    obtain ⟨f, hf⟩ := hb c hc
    obtain ⟨p, _, hp, _, _, v1, v2⟩ := edge_of x hf
    rw [hp]
    exact ⟨vold _ v1, vold _ v2⟩
  have vnew : ∀ z, some z ∈ marks s m.nodes.length cutRow → validNode m'.nodes z = true := by
    intro z hz
    obtain ⟨j, c, h1, h2⟩ := mem_marks hz
    subst h1
    unfold validNode
    rw [h.nodes, List.getElem?_append_right (by omega), Nat.add_sub_cancel_left, List.getElem?_map, h2]
    have hc : c ∈ row := hsub c (List.mem_filter.1 (List.mem_of_getElem? h2)).1
    obtain ⟨f, hf⟩ := hb c hc
    obtain ⟨p, _, hp, _, _, v1, v2⟩ := edge_of x hf
    unfold validNode at v1 v2
    simp only [Option.map_some, Option.join_some, middle, hp]
    obtain ⟨a, ha⟩ := Option.isSome_iff_exists.1 v1
    obtain ⟨b, hb⟩ := Option.isSome_iff_exists.1 v2
    rw [ha, hb]
    rfl
  have seg_of : ∀ p : Edge, validNode m'.nodes p.1 = true → validNode m'.nodes p.2 = true → (seg m'.nodes p).isSome := by
    intro p v1 v2
    unfold validNode at v1 v2
    obtain ⟨a, ha⟩ := Option.isSome_iff_exists.1 v1
    obtain ⟨b, hb⟩ := Option.isSome_iff_exists.1 v2
    unfold seg
    rw [ha, hb]
    rfl
  have vhalf : ∀ p ∈ halves (edgeAt m) cutRow (marks s m.nodes.length cutRow), (seg m'.nodes p).isSome := by
    intro p hp
    obtain ⟨c, h1, z, h2, h3⟩ := of_mem_halves hp
    have v := vends c (hsub c h1)
    have vz := vnew z h2
    rcases h3 with rfl | rfl
    · exact seg_of _ v.1 vz
    · exact seg_of _ vz v.2
  have vinner : ∀ p ∈ bridges (edgeAt m) row X, (seg m'.nodes p).isSome := by
    intro p hp
    have key : ∀ n, n = p.1 ∨ n = p.2 → validNode m'.nodes n = true := by
      intro n hn
      rcases of_mem_bridges hp hn with h1 | ⟨c, h1, h2 | h2⟩
      · exact vnew n (hX n h1)
      · rw [h2]; exact (vends c h1).1
      · rw [h2]; exact (vends c h1).2
    exact seg_of _ (key _ (Or.inl rfl)) (key _ (Or.inr rfl))
  obtain ⟨new, n1, n2⟩ := h.edges
  constructor
  · intro n p hn
    by_cases hlt : n < m.nodes.length
    · have hv : validNode m.nodes n = true := by
        rw [h.nodes, List.getElem?_append_left hlt] at hn
        unfold validNode
        rw [hn]
        rfl
      obtain ⟨e, q, h1, h2⟩ := x.used n hv
      have he := (List.getElem?_eq_some_iff.1 h1).1
      by_cases hc : e ∈ cutRow ∧ cut s e = true
      · obtain ⟨i, hi⟩ := List.mem_iff_getElem?.1 hc.1
        obtain ⟨z, _, z1, z2⟩ := (marks_at (s := s) (ends := edgeAt m) (n := m.nodes.length) hi).1 hc.2
        have hq : edgeAt m e = q := by unfold edgeAt; rw [h1]; rfl
        rcases h2 with h2 | h2
        · exact ⟨_, (h.added (List.mem_append_left _ z1)).1, vhalf _ z1, Or.inl (by rw [hq]; exact h2)⟩
        · exact ⟨_, (h.added (List.mem_append_left _ z2)).1, vhalf _ z2, Or.inr (by rw [hq]; exact h2)⟩
      · refine ⟨q, ?_, ?_, h2⟩
        · rw [n1]
          apply List.mem_append_left
          rw [List.mem_iff_getElem?]
          exact ⟨e, by rw [List.getElem?_mapIdx, h1]; simp [hc]⟩
        · rcases x.ends e q h1 with rfl | ⟨v1, v2, _⟩
          · have := x.nodesFit
            rcases h2 with h2 | h2 <;> simp only [noEdge] at h2 <;> omega
          · exact seg_of _ (vold _ v1) (vold _ v2)
    · rw [h.nodes, List.getElem?_append_right (by omega), List.getElem?_map] at hn
      obtain ⟨c, hc, _⟩ := Option.map_eq_some_iff.1 hn
      have hm := halves_at (ends := edgeAt m) (n := m.nodes.length) hc
      refine ⟨_, (h.added (List.mem_append_left _ hm)).1, vhalf _ hm, Or.inr ?_⟩
      simp only []
      omega
  · intro e he
    by_cases hlt : e < m.edges.length
    · by_cases hc : e ∈ cutRow ∧ cut s e = true
      · exfalso
        apply he
        unfold edgeAt
        rw [n1, List.getElem?_append_left (by simpa using hlt), List.getElem?_mapIdx, List.getElem?_eq_getElem hlt]
        simp [hc]
      · rw [h.kept hlt hc] at he ⊢
        have hp := List.getElem?_eq_getElem hlt
        have hpe : edgeAt m e = m.edges[e] := by unfold edgeAt; rw [hp]; rfl
        rw [hpe] at he ⊢
        rcases x.ends e _ hp with h1 | ⟨v1, v2, _⟩
        · exact absurd h1 he
        · exact seg_of _ (vold _ v1) (vold _ v2)
    · have hget : m'.edges[e]? = new[e - m.edges.length]? := by
        rw [n1, List.getElem?_append_right (by simpa using hlt), List.length_mapIdx]
      unfold edgeAt at he ⊢
      rw [hget] at he ⊢
      cases hq : new[e - m.edges.length]? with
      | none => rw [hq] at he; exact absurd rfl he
      | some q =>
        simp only [Option.getD_some]
        have hmem := n2.mem_iff.1 (List.mem_of_getElem? hq)
        rcases List.mem_append.1 hmem with h1 | h1
        · exact vhalf _ h1
        · exact vinner _ h1

end Verif.SplitRow
