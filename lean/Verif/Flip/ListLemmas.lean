import Verif.Flip.FaceLemmas
/-!
# Lemmas: the lists of the nodes after a flip
-/
namespace Verif.Flip
open Verif.Mesh Verif.Faces
open Verif.Polygons (Pt)

theorem changeCount_ok {m : Mesh Pt} {n k : Nat} (h : m.numEdges[n]? = some k) (f : Nat → Nat) :
    changeCount m n f = .ok { m with numEdges := m.numEdges.set n (f k) } := by
  unfold changeCount
  rw [vget_eq_ok.2 h, Res.ok_bind, vset_ok _ (List.getElem?_eq_some_iff.1 h).1, Res.ok_bind]

theorem deleteEdgeFromNode_ok {m : Mesh Pt} {e n k : Nat} {l : List Nat} (hl : m.nodesEdges[n]? = some l) (hk : m.numEdges[n]? = some k)
    (hlen : l.length = k + 1) (he : e ∈ l) : deleteEdgeFromNode m e n = .ok { m with nodesEdges := m.nodesEdges.set n (l.erase e) } := by
  unfold deleteEdgeFromNode
  have ht : l.take (k + 1) = l := List.take_of_length_le (by omega)
  rw [vget_eq_ok.2 hl, Res.ok_bind, vget_eq_ok.2 hk, Res.ok_bind, if_neg (by omega), ht, if_pos he, vset_ok _ (List.getElem?_eq_some_iff.1 hl).1,
    Res.ok_bind]

theorem addEdgeToNode_ok {order : List Edge → Nat → List Nat → List Nat} {m : Mesh Pt} {e n k : Nat} {l : List Nat}
    (hl : m.nodesEdges[n]? = some l) (hk : m.numEdges[n]? = some k) (hlen : k = l.length + 1) (hv : validNode m.nodes n = true) :
    addEdgeToNode order m e n = if maxEdgesPerNode < l.length + 1 then .ub
      else .ok { m with nodesEdges := m.nodesEdges.set n (order m.edges n (l ++ [e])) } := by
  unfold addEdgeToNode
  subst hlen
  have ht : l.take (l.length + 1 - 1) = l := by simp
  have hr : List.replicate (l.length + 1 - 1 - l.length) 0 = ([] : List Nat) := by simp
  rw [vget_eq_ok.2 hl, Res.ok_bind, vget_eq_ok.2 hk, Res.ok_bind, hv]
  simp only [Bool.not_true, Bool.false_eq_true, if_false, ht, hr, List.append_nil]
  split
  · rfl
  · rw [vset_ok _ (List.getElem?_eq_some_iff.1 hl).1, Res.ok_bind]

/-- The lists after the flip. -/
def quadLists (order : List Edge → Nat → List Nat → List Nat) (edges : List Edge) (ne : List (List Nat)) (e a b l r : Nat)
    (la lb ll lr : List Nat) : List (List Nat) :=
  (((ne.set a (la.erase e)).set b (lb.erase e)).set l (order edges l (ll ++ [e]))).set r (order edges r (lr ++ [e]))

theorem flipLists_eq {order : List Edge → Nat → List Nat → List Nat} {m : Mesh Pt} {e a b l r : Nat} {la lb ll lr : List Nat}
    (hc : m.numEdges = m.nodesEdges.map List.length)
    (d : a ≠ b ∧ a ≠ l ∧ a ≠ r ∧ b ≠ l ∧ b ≠ r ∧ l ≠ r) (ha : m.nodesEdges[a]? = some la) (hb : m.nodesEdges[b]? = some lb)
    (hl : m.nodesEdges[l]? = some ll) (hr : m.nodesEdges[r]? = some lr) (ea : e ∈ la) (eb : e ∈ lb)
    (vl : validNode m.nodes l = true) (vr : validNode m.nodes r = true) (perm : ∀ es n l, (order es n l).Perm l) :
    flipLists order m e a b l r = if maxEdgesPerNode < ll.length + 1 then .ub else if maxEdgesPerNode < lr.length + 1 then .ub else
      .ok { m with
        nodesEdges := quadLists order m.edges m.nodesEdges e a b l r la lb ll lr
        numEdges := (quadLists order m.edges m.nodesEdges e a b l r la lb ll lr).map List.length } := by
  obtain ⟨d1, d2, d3, d4, d5, d6⟩ := d
  have get : ∀ {n : Nat} {x}, m.nodesEdges[n]? = some x → m.numEdges[n]? = some x.length := by
    intro n x h
    rw [hc, List.getElem?_map, h]; rfl
  have lt : ∀ {n : Nat} {x}, m.nodesEdges[n]? = some x → n < m.numEdges.length := by
    intro n x h
    exact (List.getElem?_eq_some_iff.1 (get h)).1
  have pa : 0 < la.length := List.length_pos_of_mem ea
  have pb : 0 < lb.length := List.length_pos_of_mem eb
  have ka := lt ha
  have kb := lt hb
  have kl := lt hl
  have kr := lt hr
  unfold flipLists
  rw [changeCount_ok (get ha), Res.ok_bind]
  rw [changeCount_ok (n := b) (k := lb.length) (by simp only []; rw [List.getElem?_set_ne d1]; exact get hb), Res.ok_bind]
  rw [changeCount_ok (n := l) (k := ll.length) (by simp only []; rw [List.getElem?_set_ne d4, List.getElem?_set_ne d2]; exact get hl), Res.ok_bind]
  rw [changeCount_ok (n := r) (k := lr.length) (by
    simp only []; rw [List.getElem?_set_ne d6, List.getElem?_set_ne d5, List.getElem?_set_ne d3]; exact get hr), Res.ok_bind]
  simp only []
  rw [deleteEdgeFromNode_ok (n := a) (k := la.length - 1) (l := la) (by exact ha) (by
    simp only []
    rw [List.getElem?_set_ne (Ne.symm d3), List.getElem?_set_ne (Ne.symm d2), List.getElem?_set_ne (Ne.symm d1), List.getElem?_set_self ka])
    (by omega) ea, Res.ok_bind]
  rw [deleteEdgeFromNode_ok (n := b) (k := lb.length - 1) (l := lb) (by simp only []; rw [List.getElem?_set_ne d1]; exact hb) (by
    simp only []
    rw [List.getElem?_set_ne (Ne.symm d5), List.getElem?_set_ne (Ne.symm d4), List.getElem?_set_self (by simpa using kb)])
    (by omega) eb, Res.ok_bind]
  rw [addEdgeToNode_ok (n := l) (k := ll.length + 1) (l := ll) (by
    simp only []; rw [List.getElem?_set_ne d4, List.getElem?_set_ne d2]; exact hl) (by
    simp only []
    rw [List.getElem?_set_ne (Ne.symm d6), List.getElem?_set_self (by simpa using kl)]) rfl (by exact vl)]
  by_cases c1 : maxEdgesPerNode < ll.length + 1
  · rw [if_pos c1, if_pos c1]; rfl
  rw [if_neg c1, if_neg c1, Res.ok_bind]
  rw [addEdgeToNode_ok (n := r) (k := lr.length + 1) (l := lr) (by
    simp only []; rw [List.getElem?_set_ne d6, List.getElem?_set_ne d5, List.getElem?_set_ne d3]; exact hr) (by
    simp only []
    rw [List.getElem?_set_self (by simpa using kr)]) rfl (by exact vr)]
  by_cases c2 : maxEdgesPerNode < lr.length + 1
  · rw [if_pos c2, if_pos c2]
  rw [if_neg c2, if_neg c2]
  congr 2
  unfold quadLists
  simp only [List.map_set, (perm _ _ _).length_eq, List.length_append, List.length_cons, List.length_nil, List.length_erase_of_mem ea,
    List.length_erase_of_mem eb, ← hc, Nat.zero_add]

/-- A list of different indices that holds exactly those that satisfy a condition is as long as their number. -/
theorem length_eq_countP {α : Type} (p : α → Bool) (xs : List α) {l : List Nat} (hn : l.Nodup)
    (h : ∀ e, e ∈ l ↔ ∃ x, xs[e]? = some x ∧ p x = true) : l.length = xs.countP p := by
  have h1 : l.Perm ((List.range xs.length).filter (fun i => ((xs[i]?).map p).getD false)) := by
    refine (List.perm_ext_iff_of_nodup hn (List.nodup_range.filter _)).2 fun i => ?_
    rw [h i, List.mem_filter, List.mem_range]
    constructor
    · rintro ⟨x, hx, hp⟩
      exact ⟨(List.getElem?_eq_some_iff.1 hx).1, by rw [hx]; exact hp⟩
    · rintro ⟨hlt, hp⟩
      refine ⟨xs[i], List.getElem?_eq_getElem hlt, ?_⟩
      rw [List.getElem?_eq_getElem hlt] at hp
      exact hp
  rw [h1.length_eq, ← List.countP_eq_length_filter]
  clear h1 h hn l
  induction xs with
  | nil => rfl
  | cons x xs ih =>
    rw [List.length_cons, List.range_succ_eq_map, List.countP_cons, List.countP_map, List.countP_cons, ← ih]
    congr 1

theorem degree_of_list {edges : List Edge} {n : Nat} {l : List Nat} (hn : l.Nodup)
    (h : ∀ e, e ∈ l ↔ ∃ p, edges[e]? = some p ∧ (p.1 = n ∨ p.2 = n)) : l.length = degree edges n := by
  refine length_eq_countP _ _ hn fun e => ?_
  rw [h e]
  simp

theorem degree_set {edges : List Edge} {e a b l r : Nat} (he : edges[e]? = some (a, b)) (n : Nat) :
    degree (edges.set e (l, r)) n + (if a = n ∨ b = n then 1 else 0) = degree edges n + (if l = n ∨ r = n then 1 else 0) := by
  obtain ⟨hlt, hget⟩ := List.getElem?_eq_some_iff.1 he
  unfold degree
  have key : ∀ (xs : List Edge) (i : Nat) (h : i < xs.length) (y : Edge) (q : Edge → Bool),
      (xs.set i y).countP q + (if q xs[i] then 1 else 0) = xs.countP q + (if q y then 1 else 0) := by
    intro xs
    induction xs with
    | nil => intro i h; simp at h
    | cons x xs ih =>
      intro i h y q
      cases i with
      | zero => simp only [List.set_cons_zero, List.countP_cons, List.getElem_cons_zero]; omega
      | succ i =>
        have := ih i (by simpa using h) y q
        simp only [List.set_cons_succ, List.countP_cons, List.getElem_cons_succ]; omega
  have := key edges e hlt (l, r) (fun p => decide (p.1 = n) || decide (p.2 = n))
  rw [hget] at this
  simpa using this

/-- The change of the energy by a flip. -/
theorem energy_set {want : Nat → Int} {N : Nat} {edges : List Edge} {e a b l r : Nat} (he : edges[e]? = some (a, b))
    (d : a ≠ b ∧ a ≠ l ∧ a ≠ r ∧ b ≠ l ∧ b ≠ r ∧ l ≠ r) (ha : a < N) (hb : b < N) (hl : l < N) (hr : r < N) :
    energy want N (edges.set e (l, r)) - energy want N edges =
      ((((degree edges a : Int) - want a - 1) ^ 2 + ((degree edges b : Int) - want b - 1) ^ 2 + ((degree edges l : Int) - want l + 1) ^ 2 +
        ((degree edges r : Int) - want r + 1) ^ 2) -
      (((degree edges a : Int) - want a) ^ 2 + ((degree edges b : Int) - want b) ^ 2 + ((degree edges l : Int) - want l) ^ 2 +
        ((degree edges r : Int) - want r) ^ 2)) := by
  obtain ⟨d1, d2, d3, d4, d5, d6⟩ := d
  unfold energy
  rw [← Finset.sum_sub_distrib]
  have hsub : ({a, b, l, r} : Finset Nat) ⊆ Finset.range N := by
    intro x hx
    simp only [Finset.mem_insert, Finset.mem_singleton] at hx
    rw [Finset.mem_range]
    rcases hx with rfl | rfl | rfl | rfl <;> assumption
  rw [← Finset.sum_subset hsub]
  · have ea := degree_set (l := l) (r := r) he a
    have eb := degree_set (l := l) (r := r) he b
    have el := degree_set (l := l) (r := r) he l
    have er := degree_set (l := l) (r := r) he r
    rw [if_pos (Or.inl rfl), if_neg (by omega)] at ea
    rw [if_pos (Or.inr rfl), if_neg (by omega)] at eb
    rw [if_neg (by omega), if_pos (Or.inl rfl)] at el
    rw [if_neg (by omega), if_pos (Or.inr rfl)] at er
    rw [Finset.sum_insert (by simp [d1, d2, d3]), Finset.sum_insert (by simp [d4, d5]), Finset.sum_insert (by simp [d6]), Finset.sum_singleton]
    have ea' : (degree (edges.set e (l, r)) a : Int) = degree edges a - 1 := by omega
    have eb' : (degree (edges.set e (l, r)) b : Int) = degree edges b - 1 := by omega
    have el' : (degree (edges.set e (l, r)) l : Int) = degree edges l + 1 := by omega
    have er' : (degree (edges.set e (l, r)) r : Int) = degree edges r + 1 := by omega
    rw [ea', eb', el', er']
    ring
  · intro n _ hn
    simp only [Finset.mem_insert, Finset.mem_singleton, not_or] at hn
    obtain ⟨n1, n2, n3, n4⟩ := hn
    have := degree_set (l := l) (r := r) he n
    rw [if_neg (by omega), if_neg (by omega)] at this
    have h' : degree (edges.set e (l, r)) n = degree edges n := by omega
    rw [h', sub_self]

end Verif.Flip
