import Verif.Connect.Lemmas
import Mathlib.Logic.Relation

/-!
# What is proved of merging nodes when meshes are connected (C91)
-/
namespace Verif.Connect

variable {p : Input} {st : St} {done : List (Nat × Nat)}

theorem compute_parts (h : compute p = .ok (st, done)) :
    p.overrun = false ∧ each (stepEdge p) (List.range p.boundary.length) (start p) = .ok st ∧
      mergeNodes st.merges st.ind = .ok done := by
  unfold compute at h
  cases ho : p.overrun with
  | true => rw [ho, if_pos rfl] at h; cases h
  | false =>
    rw [ho, if_neg (by simp)] at h
    cases he : each (stepEdge p) (List.range p.boundary.length) (start p) with
    | throw => rw [he] at h; cases h
    | ub => rw [he] at h; cases h
    | ok s =>
      rw [he] at h
      simp only [Res.bind] at h
      cases hm : mergeNodes s.merges s.ind with
      | throw => rw [hm] at h; cases h
      | ub => rw [hm] at h; cases h
      | ok d =>
        rw [hm] at h
        simp only [Res.ok.injEq, Prod.mk.injEq] at h
        obtain ⟨rfl, rfl⟩ := h
        exact ⟨rfl, rfl, hm⟩

theorem compute_inv (hp : Proper p) (h : compute p = .ok (st, done)) : Inv p st :=
  each_inv (I := Inv p) _ (fun _ hi _ _ h1 h2 =>
    (stepEdge_inv hp (List.mem_range.1 hi) h1 h2).1) _ _ (start_inv p) (compute_parts h).2.1

/-- Nodes are merged only if one is the end of a boundary edge and the other the node of a close
boundary edge that the test reports for this end. -/
theorem merges_close (hp : Proper p) (h : compute p = .ok (st, done)) {q : Nat × Nat}
    (hq : q ∈ done) : CloseNodes p q.1 q.2 :=
  (compute_inv hp h).close q ((mergeNodes_spec _ _ _ (compute_parts h).2.2).1.subset hq)

/-- A node is merged into another one at most once, and no merge uses a node that was merged into
another one before, nor merges anything into a node a second time. -/
theorem merged_once (hp : Proper p) (h : compute p = .ok (st, done)) :
    done.Pairwise fun q q' => q'.1 ≠ q.1 ∧ q'.2 ≠ q.1 ∧ q'.2 ≠ q.2 := by
  have hi := compute_inv hp h
  obtain ⟨h1, -, h3, h4, -⟩ := mergeNodes_spec _ _ _ (compute_parts h).2.2
  have hn : (done.map Prod.fst).Nodup := (h1.map Prod.fst).nodup hi.nodup
  have hn' : done.Pairwise fun q q' => q.1 ≠ q'.1 := by
    rwa [List.Nodup, List.pairwise_map] at hn
  have hlt : ∀ q ∈ done, q.1 < st.ind.length := by
    intro q hq
    have := (hi.dom q.1).2 (List.mem_map.2 ⟨q, h1.subset hq, rfl⟩)
    by_contra hcon
    rw [List.getElem?_eq_none (by omega)] at this
    cases this
  have hall := (hn'.and (h3.and h4))
  refine hall.imp_of_mem ?_
  intro a b ha _ hab
  refine ⟨hab.1.symm, ?_, hab.2.2⟩
  rcases hab.2.1 with h5 | h5
  · exact h5
  · exact absurd (hlt a ha) (by omega)

/-- A hanging node is not merged. -/
theorem hanging_stay (hp : Proper p) (h : compute p = .ok (st, done)) {n : Nat} (hn : n ∈ st.kept)
    {q : Nat × Nat} (hq : q ∈ done) : q.1 ≠ n ∧ q.2 ≠ n := by
  have hi := compute_inv hp h
  obtain ⟨h1, h2, -⟩ := mergeNodes_spec _ _ _ (compute_parts h).2.2
  have hk := (hi.kept n).2 hn
  constructor
  · rintro rfl
    have := (hi.dom q.1).2 (List.mem_map.2 ⟨q, h1.subset hq, rfl⟩)
    rw [hk] at this
    cases this
  · rintro rfl
    exact h2 q hq hk

/-- Nothing is forgotten: an end of a boundary edge for which a close node was reported, while one of
the close edges has no more close edges than this one, is put on the list of merges or hangs.  Every
merge on the list is done, unless the other node hangs or is part of a merge that is done. -/
theorem ends_decided (hp : Proper p) (h : compute p = .ok (st, done)) {i j : Nat} {r e : Nat × Nat}
    (hi : i < p.boundary.length) (hj : (j, r) ∈ p.near i) (hc : p.count j ≤ p.count i)
    (he : p.edges[p.bedge i]? = some e) :
    (p.startOf i ≠ missing → e.1 ∈ st.merges.map Prod.fst ∨ e.1 ∈ st.kept) ∧
    (p.endOf i ≠ missing → e.2 ∈ st.merges.map Prod.fst ∨ e.2 ∈ st.kept) ∧
    (∀ q ∈ st.merges, q ∈ done ∨ q.2 ∈ st.kept ∨ ∃ d ∈ done, d.1 = q.2 ∨ d.2 = q.2) := by
  have hI := compute_inv hp h
  have hj' : j ∈ (p.near i).map Prod.fst := List.mem_map.2 ⟨_, hj, rfl⟩
  have settled : ∀ n, n < p.edges.length → st.ind[n]? ≠ some .initial →
      n ∈ st.merges.map Prod.fst ∨ n ∈ st.kept := by
    intro n hn hne
    rw [← hI.len] at hn
    rw [List.getElem?_eq_getElem hn] at hne
    cases ha : st.ind[n] with
    | initial => rw [ha] at hne; exact absurd rfl hne
    | doMerge =>
      left; rw [← hI.dom n, List.getElem?_eq_getElem hn, ha]
    | doNotMerge =>
      right; rw [← hI.kept n, List.getElem?_eq_getElem hn, ha]
  have reach := each_reach (I := Inv p)
    (Q := fun s => (p.startOf i ≠ missing → s.ind[e.1]? ≠ some .initial ∧ e.1 < p.edges.length) ∧
      (p.endOf i ≠ missing → s.ind[e.2]? ≠ some .initial ∧ e.2 < p.edges.length))
    (List.range p.boundary.length) i (List.mem_range.2 hi)
    (fun _ hi _ _ h1 h2 => (stepEdge_inv hp (List.mem_range.1 hi) h1 h2).1)
    (fun _ _ h1 h2 => (stepEdge_inv hp hi h1 h2).2.2 j hj' hc e he)
    (fun _ hb _ _ h1 h2 h3 =>
      ⟨fun hh => ⟨(stepEdge_inv hp (List.mem_range.1 hb) h1 h3).2.1 _ (h2.1 hh).1, (h2.1 hh).2⟩,
        fun hh => ⟨(stepEdge_inv hp (List.mem_range.1 hb) h1 h3).2.1 _ (h2.2 hh).1, (h2.2 hh).2⟩⟩)
    _ _ (start_inv p) (compute_parts h).2.1
  refine ⟨fun hh => settled _ (reach.1 hh).2 (reach.1 hh).1,
    fun hh => settled _ (reach.2 hh).2 (reach.2 hh).1, ?_⟩
  intro q hq
  rcases (mergeNodes_spec _ _ _ (compute_parts h).2.2).2.2.2.2 q hq with h1 | h1 | h1
  · exact Or.inl h1
  · exact Or.inr (Or.inl ((hI.kept _).1 h1))
  · exact Or.inr (Or.inr h1)

/-- A boundary edge is taken away only beside a close edge that has not been taken away before. -/
theorem edge_beside (hp : Proper p) (h : compute p = .ok (st, done)) {l l' : List Nat} {b : Nat}
    (hg : st.gone = l ++ b :: l') : ∃ c r, CloseEdges p b c r ∧ c ∉ l :=
  (compute_inv hp h).gone l b l' hg

/-- When the call succeeds, no boundary edge has more than five close edges. -/
theorem at_most_five (h : compute p = .ok (st, done)) {i : Nat} (hi : i < p.boundary.length) :
    p.count i ≤ 5 := by
  have ho := (compute_parts h).1
  unfold Input.overrun at ho
  rw [List.any_eq_false] at ho
  have := ho i (List.mem_range.2 hi)
  simpa using this

/-! ## Two squares side by side -/

/-- Two squares; the right side of the first is close to the left side of the second. -/
def twoSquares : Input where
  edges := [(0, 1), (1, 2), (2, 3), (3, 0), (4, 5), (5, 6), (6, 7), (7, 4)]
  boundary := [0, 1, 2, 3, 4, 5, 6, 7]
  adj b c := if b = 1 ∧ c = 7 then some (4, 7) else if b = 7 ∧ c = 1 then some (2, 1) else none
  across i := [[2], [3], [0], [1], [6], [7], [4], [5]].getD i []

theorem twoSquares_proper : Proper twoSquares := ⟨by decide, by decide, by decide⟩

/-- What is done for them. -/
theorem twoSquares_done : ∃ st, compute twoSquares = .ok (st, [(1, 4), (2, 7)]) ∧ st.gone = [1] ∧
    st.kept = [] :=
  ⟨_, rfl, rfl, rfl⟩

example : CloseNodes twoSquares 1 4 := by
  obtain ⟨st, h, -, -⟩ := twoSquares_done
  exact merges_close twoSquares_proper h (q := (1, 4)) (by decide)

example : ∃ i j r e, i < twoSquares.boundary.length ∧ (j, r) ∈ twoSquares.near i ∧
    twoSquares.count j ≤ twoSquares.count i ∧ twoSquares.edges[twoSquares.bedge i]? = some e ∧
    twoSquares.startOf i ≠ missing :=
  ⟨1, 7, (4, 7), (1, 2), by decide, by decide, by decide, by decide, by decide⟩

/-- A square beside two squares of half the size: one node hangs. -/
def halves : Input where
  edges := [(0, 1), (1, 2), (2, 3), (3, 0), (4, 5), (5, 6), (6, 7), (7, 4), (7, 8), (8, 9), (9, 6)]
  boundary := [0, 1, 2, 3, 4, 5, 7, 8, 9, 10]
  adj b c := if b = 1 ∧ c = 7 then some (4, missing) else if b = 1 ∧ c = 8 then some (missing, 8)
    else if b = 7 ∧ c = 1 then some (missing, 1) else if b = 8 ∧ c = 1 then some (missing, 2)
    else none
  across i := [[2], [3], [0], [1]].getD i []

theorem halves_proper : Proper halves := ⟨by decide, by decide, by decide⟩

theorem halves_done : ∃ st, compute halves = .ok (st, [(1, 4), (2, 8)]) ∧ st.kept = [7] ∧
    st.gone = [1] :=
  ⟨_, rfl, rfl, rfl⟩

example : ∀ q ∈ [(1, 4), (2, 8)], q.1 ≠ 7 ∧ q.2 ≠ 7 := by
  obtain ⟨st, h, hk, -⟩ := halves_done
  intro q hq
  exact hanging_stay halves_proper h (by rw [hk]; decide) hq

example : ∃ c r, CloseEdges halves 1 c r := by
  obtain ⟨st, h, -, hg⟩ := halves_done
  obtain ⟨c, r, hc, -⟩ := edge_beside halves_proper h (l := []) (b := 1) (l' := []) (by rw [hg]; rfl)
  exact ⟨c, r, hc⟩

/-! ## Where it fails -/

/-- An edge with six close edges. -/
def sixClose : Input where
  edges := [(0, 1), (2, 3), (3, 4), (4, 5), (5, 6), (6, 6), (6, 1)]
  boundary := [0, 1, 2, 3, 4, 5, 6]
  adj b c := if b = 0 ∧ c ≠ 0 then some (missing, missing)
    else if c = 0 ∧ b ≠ 0 then some (missing, missing) else none
  across _ := [0]

/-- More close edges than an array can hold are not refused: the behaviour is undefined, for every
mesh. -/
theorem six_undefined (h : ∃ i < p.boundary.length, 5 < p.count i) : compute p = .ub := by
  obtain ⟨i, hi, hc⟩ := h
  have : p.overrun = true := by
    unfold Input.overrun
    rw [List.any_eq_true]
    exact ⟨i, List.mem_range.2 hi, by simpa using hc⟩
  unfold compute
  rw [this, if_pos rfl]

example : compute sixClose = .ub := six_undefined ⟨0, by decide, by decide⟩

/-- The two squares, and an edge apart from them. -/
def looseEdge : Input where
  edges := [(0, 1), (1, 2), (2, 3), (3, 0), (4, 5), (6, 7), (7, 8), (8, 9), (9, 6)]
  boundary := [0, 1, 2, 3, 5, 6, 7, 8]
  adj b c := if b = 1 ∧ c = 8 then some (6, 9) else if b = 8 ∧ c = 1 then some (2, 1) else none
  across i := [[2], [3], [0], [1], [7], [8], [5], [6]].getD i []

/-- The table of nodes has the size of the number of edges.  A mesh with an edge without a face can
have more nodes, although each node has an edge, and the table is read out of bounds. -/
theorem loose_edge_undefined : ∃ p, Proper p ∧ (∀ i < p.boundary.length, p.count i ≤ 1) ∧
    (∀ n < 10, ∃ e ∈ p.edges, n = e.1 ∨ n = e.2) ∧ compute p = .ub :=
  ⟨looseEdge, ⟨by decide, by decide, by decide⟩, by decide, by decide, rfl⟩

/-- A square between two columns of three squares each; its other edges and those of the columns are
not close to anything. -/
def strip : Input where
  edges := [(0, 1), (2, 3), (4, 5), (5, 6), (6, 7), (8, 9), (9, 10), (10, 11), (0, 2), (1, 3),
    (4, 12), (12, 13), (13, 5)]
  boundary := [0, 1, 2, 3, 4, 5, 6, 7]
  adj b c :=
    if b = 0 ∧ c = 2 then some (4, missing) else if b = 0 ∧ c = 3 then some (missing, missing)
    else if b = 0 ∧ c = 4 then some (missing, 7)
    else if b = 1 ∧ c = 5 then some (8, missing) else if b = 1 ∧ c = 6 then some (missing, missing)
    else if b = 1 ∧ c = 7 then some (missing, 11)
    else if b = 2 ∧ c = 0 then some (0, missing) else if b = 3 ∧ c = 0 then some (missing, missing)
    else if b = 4 ∧ c = 0 then some (missing, 1)
    else if b = 5 ∧ c = 1 then some (2, missing) else if b = 6 ∧ c = 1 then some (missing, missing)
    else if b = 7 ∧ c = 1 then some (missing, 3) else none
  across i := [[1], [0]].getD i []

/-- A strip of one square between finer meshes: the edge on its other side is deleted for the hanging
nodes on the first, and then used. -/
theorem strip_undefined : ∃ p, Proper p ∧ (∀ i < p.boundary.length, p.count i ≤ 3) ∧
    compute p = .ub :=
  ⟨strip, ⟨by decide, by decide, by decide⟩, by decide, rfl⟩

/-- Nodes that are one after the merges. -/
def Joined (done : List (Nat × Nat)) : Nat → Nat → Prop :=
  Relation.EqvGen fun a b => (a, b) ∈ done

/-- Four blocks that meet in a point, where they have the nodes 0, 2, 5 and 8. -/
def crossing : Input where
  edges := [(0, 1), (0, 4), (2, 3), (2, 11), (5, 7), (5, 6), (8, 9), (8, 10), (1, 4), (3, 11),
    (6, 7), (9, 10)]
  boundary := [0, 1, 2, 3, 4, 5, 6, 7]
  adj b c :=
    if b = 0 ∧ c = 2 then some (2, 3) else if b = 2 ∧ c = 0 then some (0, 1)
    else if b = 1 ∧ c = 5 then some (5, 6) else if b = 5 ∧ c = 1 then some (0, 4)
    else if b = 4 ∧ c = 6 then some (8, 9) else if b = 6 ∧ c = 4 then some (5, 7)
    else if b = 3 ∧ c = 7 then some (8, 10) else if b = 7 ∧ c = 3 then some (2, 11) else none
  across _ := []

theorem crossing_done : ∃ st, compute crossing =
    .ok (st, [(0, 2), (1, 3), (4, 6), (11, 10), (5, 8), (7, 9)]) := ⟨_, rfl⟩

/-- Where four blocks meet, two close nodes are left: each node is put on the list for one of its
edges only. -/
theorem crossing_left : ∃ p st done a b, Proper p ∧ compute p = .ok (st, done) ∧
    CloseNodes p a b ∧ ¬ Joined done a b := by
  obtain ⟨st, h⟩ := crossing_done
  refine ⟨crossing, st, _, 2, 8, ⟨by decide, by decide, by decide⟩, h, ?_, ?_⟩
  · exact ⟨3, 7, (8, 10), (2, 11), ⟨by decide, by decide, by decide, by decide⟩, by decide,
      Or.inl ⟨rfl, rfl⟩⟩
  · intro hj
    have key : ∀ a b, Joined [(0, 2), (1, 3), (4, 6), (11, 10), (5, 8), (7, 9)] a b →
        ((a = 0 ∨ a = 2) ↔ (b = 0 ∨ b = 2)) := by
      intro a b hab
      induction hab with
      | rel a b h =>
        simp only [List.mem_cons, Prod.mk.injEq, List.not_mem_nil, or_false] at h
        omega
      | refl a => exact Iff.rfl
      | symm a b _ ih => exact ih.symm
      | trans a b c _ _ ih1 ih2 => exact ih1.trans ih2
    have := (key 2 8 hj).1 (Or.inr rfl)
    omega

end Verif.Connect
