import Verif.Faces.GivenSpec
import Verif.Faces.Lemmas
import Mathlib.Data.List.Nodup
/-!
# Lemmas: faces handed in with a mesh
-/
namespace Verif.Faces
open Verif.Mesh

/-! ## Conversion of the arrays -/

theorem takeEntries_eq (pre l post : List Nat) : takeEntries (pre ++ (l ++ post)) l.length pre.length = .ok l := by
  induction l generalizing pre with
  | nil => rfl
  | cons a l ih =>
    rw [List.length_cons, takeEntries]
    have h1 : vget (pre ++ (a :: l ++ post)) pre.length = .ok a := by rw [vget_eq_ok]; simp
    have h2 := ih (pre ++ [a])
    rw [h1, Res.ok_bind]
    have : pre ++ [a] ++ (l ++ post) = pre ++ (a :: l ++ post) := by simp
    rw [this, List.length_append, List.length_singleton] at h2
    rw [h2]; rfl

theorem facesFromArrays_eq (pre : List Nat) (fs : List (List Nat)) (post : List Nat) :
    facesFromArrays (pre ++ (fs.flatten ++ post)) (fs.map List.length) pre.length = .ok fs := by
  induction fs generalizing pre with
  | nil => rfl
  | cons l fs ih =>
    rw [List.map_cons, facesFromArrays, List.flatten_cons, List.append_assoc, takeEntries_eq, Res.ok_bind]
    have := ih (pre ++ l)
    rw [List.length_append, List.append_assoc] at this
    rw [this]; rfl

/-! ## Rings -/

theorem Ring.edgesDistinct {edges : List Edge} {ns es : List Nat} (h : Ring edges ns es) : es.Nodup :=
  sides_nodup h.atLeast h.len h.nodesDistinct h.sides

/-- The same polygon the other way around. -/
def revRing : List Nat → List Nat
  | [] => []
  | a :: l => a :: l.reverse

theorem revRing_perm (ns : List Nat) : (revRing ns).Perm ns := by
  cases ns with
  | nil => exact List.Perm.refl _
  | cons a l => exact (List.reverse_perm l).cons a

theorem revRing_get {ns : List Nat} {i : Nat} (h : i < ns.length) : (revRing ns)[i]? = ns[(ns.length - i) % ns.length]? := by
  cases ns with
  | nil => simp at h
  | cons a l =>
    cases i with
    | zero => simp [revRing]
    | succ i =>
      simp only [List.length_cons] at h
      have h1 : (l.length + 1 - (i + 1)) % (l.length + 1) = l.length - 1 - i + 1 := by
        rw [Nat.mod_eq_of_lt (by omega)]; omega
      rw [revRing, List.length_cons, h1, List.getElem?_cons_succ, List.getElem?_cons_succ, List.getElem?_reverse (by omega)]

theorem Ring.rev {edges : List Edge} {ns es : List Nat} (h : Ring edges ns es) : Ring edges (revRing ns) es.reverse := by
  have h3 := h.atLeast
  have hl := h.len
  have hlen : (revRing ns).length = ns.length := (revRing_perm ns).length_eq
  refine ⟨by omega, by simp; omega, (revRing_perm ns).nodup_iff.2 h.nodesDistinct, ?_⟩
  intro i hi
  rw [hlen] at hi
  obtain ⟨a, b, e, p, q1, q2, q3, q4, q5⟩ := h.sides (ns.length - 1 - i) (by omega)
  have e1 : (revRing ns)[i]? = some b := by
    rw [revRing_get hi, ← q2]
    congr 2; omega
  have e2 : (revRing ns)[(i + 1) % (revRing ns).length]? = some a := by
    rw [hlen, revRing_get (Nat.mod_lt _ (by omega)), ← q1]
    congr 1
    rcases Nat.lt_or_ge (i + 1) ns.length with hx | hx
    · rw [Nat.mod_eq_of_lt hx, Nat.mod_eq_of_lt (by omega)]; omega
    · have : i + 1 = ns.length := by omega
      rw [this, Nat.mod_self, Nat.sub_zero, Nat.mod_self]; omega
  refine ⟨b, a, e, p, e1, e2, ?_, q4, q5.symm⟩
  rw [List.getElem?_reverse (by omega), ← q3]
  congr 1; omega

theorem NoChord.rev {edges : List Edge} {ns es : List Nat} (h : NoChord edges ns es) : NoChord edges (revRing ns) es.reverse := by
  intro e p h1 h2 h3
  rw [List.mem_reverse]
  exact h e p h1 ((revRing_perm ns).mem_iff.1 h2) ((revRing_perm ns).mem_iff.1 h3)

/-! ## The walk along a face -/

/-- The other end of edge `e`. -/
def otherEnd (edges : List Edge) (node e : Nat) : Nat := otherNode (edges.getD e noEdge) node

def Goes (edges : List Edge) (ns : List Nat) (node : Nat) (es seen : List Nat) (e : Nat) : Prop :=
  otherEnd edges node e ∈ ns ∧ e ∉ es ∧ otherEnd edges node e ∉ seen

def Closes (edges : List Edge) (first node : Nat) (es : List Nat) (e : Nat) : Prop := otherEnd edges node e = first ∧ e ∉ es

theorem scan_result (edges : List Edge) (ns : List Nat) (first node : Nat) (es seen : List Nat) (l : List Nat)
    (hl : ∀ e ∈ l, e < edges.length) :
    ∃ r, scan edges ns first node es seen l = .ok r ∧
      ((r = .stop ∧ ∀ e ∈ l, ¬ Goes edges ns node es seen e ∧ ¬ Closes edges first node es e) ∨
       (∃ e ∈ l, r = .go e (otherEnd edges node e) ∧ Goes edges ns node es seen e) ∨
       (∃ e ∈ l, r = .close e ∧ ¬ Goes edges ns node es seen e ∧ Closes edges first node es e)) := by
  induction l with
  | nil => exact ⟨_, rfl, Or.inl ⟨rfl, by simp⟩⟩
  | cons e l ih =>
    have he : e < edges.length := hl e List.mem_cons_self
    have ho : otherEnd edges node e = otherNode edges[e] node := by simp [otherEnd, he]
    unfold scan
    rw [vget_ok he, Res.ok_bind, ← ho]
    split
    · next h => exact ⟨_, rfl, Or.inr (Or.inl ⟨e, List.mem_cons_self, rfl, h⟩)⟩
    · next h =>
      split
      · next h' => exact ⟨_, rfl, Or.inr (Or.inr ⟨e, List.mem_cons_self, rfl, h, h'⟩)⟩
      · next h' =>
        obtain ⟨r, h1, h2⟩ := ih (fun x hx => hl x (List.mem_cons_of_mem _ hx))
        refine ⟨r, h1, ?_⟩
        rcases h2 with ⟨rfl, h2⟩ | ⟨x, hx, h2⟩ | ⟨x, hx, h2⟩
        · left
          refine ⟨rfl, fun x hx => ?_⟩
          rcases List.mem_cons.1 hx with rfl | hx
          · exact ⟨h, h'⟩
          · exact h2 x hx
        · exact Or.inr (Or.inl ⟨x, List.mem_cons_of_mem _ hx, h2⟩)
        · exact Or.inr (Or.inr ⟨x, List.mem_cons_of_mem _ hx, h2⟩)

/-- The list of each node of the polygon has exactly the edges of the mesh that end there. -/
def ListedAt (edges : List Edge) (adj : List (List Nat)) (ns : List Nat) : Prop :=
  ∀ n ∈ ns, ∃ l, adj[n]? = some l ∧ (∀ e ∈ l, ∃ p, edges[e]? = some p ∧ (p.1 = n ∨ p.2 = n)) ∧
    ∀ (e : Nat) p, edges[e]? = some p → (p.1 = n ∨ p.2 = n) → e ∈ l

theorem otherEnd_of {edges : List Edge} {e : Nat} {p : Edge} {a b : Nat} (h : edges[e]? = some p) (hj : Joins p a b) (hab : a ≠ b) :
    otherEnd edges a e = b := by
  have : edges.getD e noEdge = p := by simp [List.getD_eq_getElem?_getD, h]
  rw [otherEnd, this, otherNode]
  rcases hj with rfl | rfl
  · simp
  · simp [hab]

variable {edges : List Edge} {adj : List (List Nat)}

theorem Ring.next_ne {ns es : List Nat} (h : Ring edges ns es) {i : Nat} (hi : i < ns.length) : ns[i]? ≠ ns[(i + 1) % ns.length]? := by
  have h3 := h.atLeast
  intro hc
  have := (List.getElem?_inj hi h.nodesDistinct).1 hc
  rcases Nat.lt_or_ge (i + 1) ns.length with hx | hx
  · rw [Nat.mod_eq_of_lt hx] at this; omega
  · have h5 : i + 1 = ns.length := by omega
    rw [h5, Nat.mod_self] at this; omega

/-- An edge from node `i` of the polygon to another of its nodes is side `i` or the one before. -/
theorem Ring.side_of {ns es : List Nat} (h : Ring edges ns es) (hc : NoChord edges ns es) {i n e : Nat} (hn : ns[i]? = some n) {p : Edge}
    (hp : edges[e]? = some p) (ht : p.1 = n ∨ p.2 = n) (ho : otherEnd edges n e ∈ ns) :
    es[i]? = some e ∨ ∃ j, (j + 1) % ns.length = i ∧ j < ns.length ∧ es[j]? = some e := by
  have hi : i < ns.length := (List.getElem?_eq_some_iff.1 hn).1
  have hg : edges.getD e noEdge = p := by simp [List.getD_eq_getElem?_getD, hp]
  rw [otherEnd, hg] at ho
  have hjo := joins_other ht
  have hmem : n ∈ ns := List.mem_of_getElem? hn
  have hes : e ∈ es := by
    refine hc e p hp ?_ ?_
    · rcases hjo with h | h <;> rw [h]
      · exact hmem
      · exact ho
    · rcases hjo with h | h <;> rw [h]
      · exact ho
      · exact hmem
  obtain ⟨j, hj, rfl⟩ := List.mem_iff_getElem.1 hes
  have hjl : j < ns.length := by rw [← h.len]; exact hj
  obtain ⟨a, b, e', p', q1, q2, q3, q4, q5⟩ := h.sides j hjl
  rw [List.getElem?_eq_getElem hj] at q3
  have q3 := Option.some.inj q3
  rw [← q3, hp] at q4
  obtain rfl := Option.some.inj q4
  rcases joins_unique q5 hjo with ⟨r1, _⟩ | ⟨_, r2⟩
  · left
    have := (List.getElem?_inj hjl h.nodesDistinct).1 (q1.trans ((congrArg some r1).trans hn.symm))
    rw [← this]
    exact List.getElem?_eq_getElem hj
  · right
    have := (List.getElem?_inj (Nat.mod_lt _ (by omega)) h.nodesDistinct).1 (q2.trans ((congrArg some r2).trans hn.symm))
    exact ⟨j, this, hjl, List.getElem?_eq_getElem hj⟩

theorem walk_forward {ns0 ns es : List Nat} (h : Ring edges ns es) (hc : NoChord edges ns es) (hm : ∀ x, x ∈ ns0 ↔ x ∈ ns)
    {first : Nat} (hf : ns[0]? = some first) (hl : ListedAt edges adj ns) (k i n : Nat) (hi1 : 1 ≤ i) (hik : i + k = ns.length) (hk : 1 ≤ k)
    (hn : ns[i]? = some n) : walk edges adj ns0 first k n (es.take i) (ns.take (i + 1)) = .ok es := by
  have h3 := h.atLeast
  have hlen := h.len
  induction k generalizing i n with
  | zero => omega
  | succ k ih =>
    have hi : i < ns.length := by omega
    have hie : i < es.length := by omega
    obtain ⟨l, l1, l2, l3⟩ := hl n (List.mem_of_getElem? hn)
    rw [walk, vget_eq_ok.2 l1, Res.ok_bind]
    obtain ⟨a, b, e, p, q1, q2, q3, q4, q5⟩ := h.sides i hi
    rw [hn] at q1
    obtain rfl := Option.some.inj q1
    have hne : n ≠ b := by
      intro hnb
      exact h.next_ne hi (by rw [hn, q2, hnb])
    have hoe : otherEnd edges n e = b := otherEnd_of q4 q5 hne
    have hel : e ∈ l := l3 e p q4 (by rcases q5 with h | h <;> rw [h] <;> simp)
    have henot : e ∉ es.take i := by
      intro hx
      obtain ⟨j, hj, hje⟩ := List.mem_take_iff_getElem.1 hx
      have : es[j]? = es[i]? := by rw [q3, List.getElem?_eq_getElem (by omega), hje]
      have := (List.getElem?_inj (by omega) h.edgesDistinct).1 this
      omega
    have uniq : ∀ x ∈ l, otherEnd edges n x ∈ ns → x ∉ es.take i → x = e := by
      intro x hx h1 h2
      obtain ⟨p', p1, p2⟩ := l2 x hx
      rcases h.side_of hc hn p1 p2 h1 with h4 | ⟨j, j1, j2, j3⟩
      · rw [q3] at h4; exact (Option.some.inj h4).symm
      · exfalso
        have hj : j < i := by
          rcases Nat.lt_or_ge (j + 1) ns.length with hx | hx
          · rw [Nat.mod_eq_of_lt hx] at j1; omega
          · have : j + 1 = ns.length := by omega
            rw [this, Nat.mod_self] at j1; omega
        exact h2 (List.mem_take_iff_getElem.2 ⟨j, by omega, (List.getElem?_eq_some_iff.1 j3).2⟩)
    have hfirst : first ∈ ns := List.mem_of_getElem? hf
    have hb : b ∈ ns := List.mem_of_getElem? q2
    obtain ⟨r, r1, r2⟩ := scan_result edges ns0 first n (es.take i) (ns.take (i + 1)) l
      (fun x hx => by obtain ⟨p', p1, _⟩ := l2 x hx; exact (List.getElem?_eq_some_iff.1 p1).1)
    rw [r1, Res.ok_bind]
    have seen_iff : ∀ (j c : Nat), ns[j]? = some c → (c ∈ ns.take (i + 1) ↔ j < i + 1) := by
      intro j c hj
      have hj' := (List.getElem?_eq_some_iff.1 hj).1
      constructor
      · intro hx
        obtain ⟨j', hj1, hj2⟩ := List.mem_take_iff_getElem.1 hx
        have : ns[j']? = ns[j]? := by rw [hj, List.getElem?_eq_getElem (by omega), hj2]
        have := (List.getElem?_inj (by omega) h.nodesDistinct).1 this
        omega
      · intro hx
        exact List.mem_take_iff_getElem.2 ⟨j, by omega, (List.getElem?_eq_some_iff.1 hj).2⟩
    rcases Nat.lt_or_ge (i + 1) ns.length with hx | hx
    · -- go on
      have hmod : (i + 1) % ns.length = i + 1 := Nat.mod_eq_of_lt hx
      rw [hmod] at q2
      have hgo : Goes edges ns0 n (es.take i) (ns.take (i + 1)) e := by
        refine ⟨by rw [hoe, hm]; exact hb, henot, ?_⟩
        rw [hoe, seen_iff (i + 1) b q2]; omega
      have hres : r = .go e b := by
        rcases r2 with ⟨_, r2⟩ | ⟨x, x1, rfl, x3⟩ | ⟨x, x1, rfl, x3, x4⟩
        · exact absurd hgo (r2 e hel).1
        · have hxe : x = e := uniq x x1 ((hm _).1 x3.1) x3.2.1
          rw [hxe, hoe]
        · have hxe : x = e := uniq x x1 (by rw [x4.1]; exact hfirst) x4.2
          rw [hxe] at x3
          exact absurd hgo x3
      rw [hres]
      have t1 : es.take i ++ [e] = es.take (i + 1) := by
        rw [List.take_add_one, q3]; rfl
      have t2 : ns.take (i + 1) ++ [b] = ns.take (i + 1 + 1) := by
        rw [List.take_add_one (i := i + 1), q2]; rfl
      show walk edges adj ns0 first k b (es.take i ++ [e]) (ns.take (i + 1) ++ [b]) = _
      rw [t1, t2]
      exact ih (i + 1) b (by omega) (by omega) (by omega) q2
    · -- closed
      have hil : i + 1 = ns.length := by omega
      rw [hil, Nat.mod_self, hf] at q2
      obtain rfl := Option.some.inj q2
      have hngo : ¬ Goes edges ns0 n (es.take i) (ns.take (i + 1)) e := by
        intro hg
        exact hg.2.2 (by rw [hoe, seen_iff 0 first hf]; omega)
      have hcl : Closes edges first n (es.take i) e := ⟨hoe, henot⟩
      have hres : r = .close e := by
        rcases r2 with ⟨_, r2⟩ | ⟨x, x1, rfl, x3⟩ | ⟨x, x1, rfl, x3, x4⟩
        · exact absurd hcl (r2 e hel).2
        · have hxe : x = e := uniq x x1 ((hm _).1 x3.1) x3.2.1
          rw [hxe] at x3
          exact absurd x3 hngo
        · have hxe : x = e := uniq x x1 (by rw [x4.1]; exact hfirst) x4.2
          rw [hxe]
      rw [hres]
      show Res.ok (es.take i ++ [e]) = _
      have t1 : es.take i ++ [e] = es.take (i + 1) := by
        rw [List.take_add_one, q3]; rfl
      rw [t1, List.take_of_length_le (by omega)]

/-- The walk finds the sides of the polygon, one way around or the other. -/
theorem walk_ok {ns es : List Nat} (h : Ring edges ns es) (hc : NoChord edges ns es) {first : Nat} (hf : ns[0]? = some first)
    (hl : ListedAt edges adj ns) :
    walk edges adj ns first ns.length first [] [first] = .ok es ∨ walk edges adj ns first ns.length first [] [first] = .ok es.reverse := by
  have h3 := h.atLeast
  have hlen := h.len
  have hrlen : (revRing ns).length = ns.length := (revRing_perm ns).length_eq
  obtain ⟨k, hk⟩ : ∃ k, ns.length = k + 1 := ⟨ns.length - 1, by omega⟩
  obtain ⟨l, l1, l2, l3⟩ := hl first (List.mem_of_getElem? hf)
  rw [hk, walk, vget_eq_ok.2 l1, Res.ok_bind]
  obtain ⟨a, b, e, p, q1, q2, q3, q4, q5⟩ := h.sides 0 (by omega)
  rw [hf] at q1
  obtain rfl := Option.some.inj q1
  have hne : first ≠ b := fun hnb => h.next_ne (i := 0) (by omega) (by rw [hf, q2, hnb])
  have hoe : otherEnd edges first e = b := otherEnd_of q4 q5 hne
  have hel : e ∈ l := l3 e p q4 (by rcases q5 with h | h <;> rw [h] <;> simp)
  have hb : b ∈ ns := List.mem_of_getElem? q2
  have q2' : ns[1]? = some b := by rwa [Nat.mod_eq_of_lt (by omega)] at q2
  -- the last side
  obtain ⟨c, first', e', p', w1, w2, w3, w4, w5⟩ := h.sides (ns.length - 1) (by omega)
  have hmod : (ns.length - 1 + 1) % ns.length = 0 := by
    have : ns.length - 1 + 1 = ns.length := by omega
    rw [this, Nat.mod_self]
  rw [hmod, hf] at w2
  obtain rfl := Option.some.inj w2
  have hne' : first ≠ c := fun hnb => h.next_ne (i := ns.length - 1) (by omega) (by rw [w1, hmod, hf, hnb])
  have hoe' : otherEnd edges first e' = c := otherEnd_of w4 w5.symm hne'
  have cand : ∀ x ∈ l, otherEnd edges first x ∈ ns → x = e ∨ x = e' := by
    intro x hx h1
    obtain ⟨p'', p1, p2⟩ := l2 x hx
    rcases h.side_of hc hf p1 p2 h1 with h4 | ⟨j, j1, j2, j3⟩
    · left; rw [q3] at h4; exact (Option.some.inj h4).symm
    · right
      have : j = ns.length - 1 := by
        rcases Nat.lt_or_ge (j + 1) ns.length with hx | hx
        · rw [Nat.mod_eq_of_lt hx] at j1; omega
        · omega
      rw [this, w3] at j3
      exact (Option.some.inj j3).symm
  obtain ⟨r, r1, r2⟩ := scan_result edges ns first first [] [first] l
    (fun x hx => by obtain ⟨p', p1, _⟩ := l2 x hx; exact (List.getElem?_eq_some_iff.1 p1).1)
  rw [r1, Res.ok_bind]
  have hgo : Goes edges ns first [] [first] e := ⟨by rw [hoe]; exact hb, by simp, by rw [hoe]; simpa using hne.symm⟩
  have hgo' : Goes edges ns first [] [first] e' := ⟨by rw [hoe']; exact List.mem_of_getElem? w1, by simp, by rw [hoe']; simpa using hne'.symm⟩
  have hres : r = .go e b ∨ r = .go e' c := by
    rcases r2 with ⟨_, r2⟩ | ⟨x, x1, rfl, x3⟩ | ⟨x, x1, rfl, x3, x4⟩
    · exact absurd hgo (r2 e hel).1
    · rcases cand x x1 x3.1 with rfl | rfl
      · left; rw [hoe]
      · right; rw [hoe']
    · rcases cand x x1 (by rw [x4.1]; exact List.mem_of_getElem? hf) with rfl | rfl
      · exact absurd hgo x3
      · exact absurd hgo' x3
  rcases hres with rfl | rfl
  · left
    have := walk_forward h hc (fun x => Iff.rfl) hf hl k 1 b (by omega) (by omega) (by omega) q2'
    have t1 : es.take 1 = [e] := by rw [List.take_add_one, q3]; rfl
    have t2 : ns.take (1 + 1) = [first, b] := by rw [List.take_add_one, q2', List.take_add_one, hf]; rfl
    rw [t1, t2] at this
    exact this
  · right
    have hf' : (revRing ns)[0]? = some first := by rw [revRing_get (by omega), Nat.sub_zero, Nat.mod_self, hf]
    have hc' : (revRing ns)[1]? = some c := by rw [revRing_get (by omega), Nat.mod_eq_of_lt (by omega), w1]
    have he' : es.reverse[0]? = some e' := by rw [List.getElem?_reverse (by omega), ← w3]; congr 1; omega
    have hl' : ListedAt edges adj (revRing ns) := fun n hn => hl n ((revRing_perm ns).mem_iff.1 hn)
    have := walk_forward h.rev hc.rev (fun x => (revRing_perm ns).mem_iff.symm) hf' hl' k 1 c (by omega) (by omega) (by omega) hc'
    have t1 : es.reverse.take 1 = [e'] := by rw [List.take_add_one, he']; rfl
    have t2 : (revRing ns).take (1 + 1) = [first, c] := by rw [List.take_add_one, hc', List.take_add_one, hf']; rfl
    rw [t1, t2] at this
    exact this

/-! ## The loop over the faces -/

theorem markAllGiven_eq {f : Nat} {es : List Nat} {s : State} (hn : es.Nodup)
    (h : ∀ e ∈ es, ∃ c p l, s.numFaces[e]? = some c ∧ s.edgesFaces[e]? = some p ∧ Places c p l ∧ c < 2) :
    markAllGiven f es s = markEdges f es s := by
  induction es generalizing s with
  | nil => rfl
  | cons e es ih =>
    obtain ⟨hne, hn'⟩ := List.nodup_cons.1 hn
    obtain ⟨c, p, l, h1, h2, h3, hc⟩ := h e (by simp)
    obtain ⟨s1, m1, k1⟩ := markEdge_ok (f := f) h1 h2 h3 hc
    have hg : markGiven f e s = .ok s1 := by
      rw [markGiven, vget_eq_ok.2 h1, Res.ok_bind, if_neg (by omega), m1]
    rw [markAllGiven, markEdges, hg, m1, Res.ok_bind, Res.ok_bind]
    refine ih hn' ?_
    intro e' he'
    have : e' ∉ [e] := by
      intro h; simp at h; exact hne (h ▸ he')
    rw [(k1.other e' this).1, (k1.other e' this).2]
    exact h e' (by simp [he'])

/-- The faces below `f` that have edge `e` as a side. -/
def facesWith (sides : List (List Nat)) (f e : Nat) : List Nat := (List.range f).filter (fun g => decide (e ∈ sides.getD g []))

theorem facesWith_succ (sides : List (List Nat)) (f e : Nat) :
    facesWith sides (f + 1) e = facesWith sides f e ++ (if e ∈ sides.getD f [] then [f] else []) := by
  unfold facesWith
  rw [List.range_succ, List.filter_append]
  congr 1
  by_cases h : e ∈ sides.getD f [] <;> simp only [List.filter_cons, List.filter_nil, h, decide_true, decide_false, if_true, if_false] <;> rfl

theorem facesWith_le {sides : List (List Nat)} (h : AtMostTwo sides) {f : Nat} (hf : f ≤ sides.length) (e : Nat) : (facesWith sides f e).length ≤ 2 := by
  refine le_trans ?_ (h e)
  have h1 : sides = (List.range sides.length).map (fun g => sides.getD g []) := by
    apply List.ext_getElem
    · simp
    · intro i h1 h2; simp [h1]
  have h2 : (sides.filter (fun es => decide (e ∈ es))).length = (facesWith sides sides.length e).length := by
    conv_lhs => rw [h1, List.filter_map, List.length_map]
    rfl
  rw [h2]
  unfold facesWith
  refine List.Sublist.length_le (List.Sublist.filter _ ?_)
  exact List.range_sublist.2 hf

theorem places_length {c : Nat} {p : Nat × Nat} {l : List Nat} (h : Places c p l) : c = l.length := by
  cases h <;> rfl

/-- What holds after the first `f` rounds. -/
structure After (edges : List Edge) (faces sides : List (List Nat)) (f : Nat) (s : State) : Prop where
  nodes : s.facesNodes = faces
  length : s.facesEdges.length = f
  sidesOf : ∀ (g : Nat) es', s.facesEdges[g]? = some es' → ∃ es, sides[g]? = some es ∧ (es' = es ∨ es' = es.reverse)
  len1 : s.numFaces.length = edges.length
  len2 : s.edgesFaces.length = edges.length
  places : ∀ e, e < edges.length → ∃ c p, s.numFaces[e]? = some c ∧ s.edgesFaces[e]? = some p ∧ Places c p (facesWith sides f e)

theorem givenFace_ok {faces sides : List (List Nat)} (hlen : faces.length = sides.length) (h2 : AtMostTwo sides) {f : Nat} {s : State}
    (hs : After edges faces sides f s) (hf : f < faces.length)
    (hring : ∀ (f : Nat) ns es, faces[f]? = some ns → sides[f]? = some es → Ring edges ns es ∧ NoChord edges ns es ∧ ListedAt edges adj ns) :
    ∃ s', givenFace edges adj f s = .ok s' ∧ After edges faces sides (f + 1) s' := by
  have hfs : f < sides.length := by omega
  have gf : faces[f]? = some faces[f] := List.getElem?_eq_getElem hf
  have gs : sides[f]? = some sides[f] := List.getElem?_eq_getElem hfs
  have gd : sides.getD f [] = sides[f] := by simp [hfs]
  obtain ⟨hr, hc, hl⟩ := hring f _ _ gf gs
  have h3 := hr.atLeast
  obtain ⟨es', hw, hes'⟩ : ∃ es', walk edges adj faces[f] faces[f][0] faces[f].length faces[f][0] [] [faces[f][0]] = .ok es' ∧
      (es' = sides[f] ∨ es' = sides[f].reverse) := by
    rcases walk_ok hr hc (List.getElem?_eq_getElem (by omega)) hl with h | h
    · exact ⟨_, h, Or.inl rfl⟩
    · exact ⟨_, h, Or.inr rfl⟩
  have hmem : ∀ e, e ∈ es' ↔ e ∈ sides[f] := by
    intro e
    rcases hes' with rfl | rfl
    · rfl
    · exact List.mem_reverse
  have hnd : es'.Nodup := by
    rcases hes' with rfl | rfl
    · exact hr.edgesDistinct
    · exact List.nodup_reverse.2 hr.edgesDistinct
  have hrange : ∀ e ∈ es', e < edges.length := by
    intro e he
    obtain ⟨j, hj, rfl⟩ := List.mem_iff_getElem.1 ((hmem e).1 he)
    obtain ⟨_, _, e, p, _, _, q3, q4, _⟩ := hr.sides j (by rw [← hr.len]; exact hj)
    rw [List.getElem?_eq_getElem hj] at q3
    rw [Option.some.inj q3]
    exact (List.getElem?_eq_some_iff.1 q4).1
  have hpl : ∀ e ∈ es', ∃ c p l, s.numFaces[e]? = some c ∧ s.edgesFaces[e]? = some p ∧ Places c p l ∧ c < 2 := by
    intro e he
    obtain ⟨c, p, q1, q2, q3⟩ := hs.places e (hrange e he)
    refine ⟨c, p, _, q1, q2, q3, ?_⟩
    have := facesWith_le h2 (f := f + 1) (by omega) e
    rw [facesWith_succ, gd, if_pos ((hmem e).1 he), List.length_append, List.length_singleton, ← places_length q3] at this
    omega
  let s1 : State := { s with facesEdges := s.facesEdges ++ [es'] }
  obtain ⟨s', m1, k⟩ := markEdges_ok (f := f) (s := s1) hnd hpl
  have hrun : givenFace edges adj f s = .ok s' := by
    unfold givenFace
    have hv : vget s.facesNodes f = .ok faces[f] := by rw [hs.nodes]; exact vget_eq_ok.2 gf
    rw [hv, Res.ok_bind, vget_ok (by omega : 0 < faces[f].length), Res.ok_bind, hw, Res.ok_bind]
    rw [← m1]
    exact markAllGiven_eq (s := s1) hnd hpl
  refine ⟨s', hrun, ⟨k.nodes.trans hs.nodes, ?_, ?_, k.len1.trans hs.len1, k.len2.trans hs.len2, ?_⟩⟩
  · rw [k.edges]
    show (s.facesEdges ++ [es']).length = _
    rw [List.length_append, hs.length]; rfl
  · intro g es2 hg
    rw [k.edges] at hg
    change (s.facesEdges ++ [es'])[g]? = _ at hg
    rcases Nat.lt_or_ge g s.facesEdges.length with hx | hx
    · rw [List.getElem?_append_left hx] at hg
      exact hs.sidesOf g es2 hg
    · have : g < s.facesEdges.length + 1 := by
        have := (List.getElem?_eq_some_iff.1 hg).1
        simpa using this
      have hgl : g = s.facesEdges.length := by omega
      subst hgl
      rw [List.getElem?_concat_length] at hg
      obtain rfl := Option.some.inj hg
      rw [hs.length]
      exact ⟨_, gs, hes'⟩
  · intro e he
    obtain ⟨c, p, q1, q2, q3⟩ := hs.places e he
    rw [facesWith_succ, gd]
    by_cases hx : e ∈ es'
    · rw [if_pos ((hmem e).1 hx)]
      exact k.same e c p _ hx q1 q2 q3
    · rw [if_neg (fun h => hx ((hmem e).2 h)), List.append_nil, (k.other e hx).1, (k.other e hx).2]
      exact ⟨c, p, q1, q2, q3⟩

theorem findGivenFaces_ok {faces sides : List (List Nat)} (hlen : faces.length = sides.length) (h2 : AtMostTwo sides)
    (hring : ∀ (f : Nat) ns es, faces[f]? = some ns → sides[f]? = some es → Ring edges ns es ∧ NoChord edges ns es ∧ ListedAt edges adj ns) :
    ∃ s, findGivenFaces edges adj faces (initial edges.length) = .ok s ∧ After edges faces sides faces.length s := by
  unfold findGivenFaces
  refine forRange_inv (f := givenFace edges adj) (fun f s => After edges faces sides f s) (Nat.zero_le _) ?_ ?_
  · refine ⟨rfl, rfl, fun g es' h => by simp [initial] at h, by simp [initial], by simp [initial], ?_⟩
    intro e he
    refine ⟨0, (missing, missing), by simp [initial, he], by simp [initial, he], ?_⟩
    exact Places.none
  · intro f s _ hf hs
    exact givenFace_ok hlen h2 hs hf hring

theorem useFaces_ok {faces sides : List (List Nat)} (hlen : faces.length = sides.length) {s : State} {N : Nat}
    (hs : After edges faces sides faces.length s)
    (hring : ∀ (f : Nat) ns es, faces[f]? = some ns → sides[f]? = some es → Ring edges ns es ∧ ∀ n ∈ ns, n < N) :
    useFaces N s = .ok () := by
  unfold useFaces
  rw [hs.nodes]
  obtain ⟨t, h1, _⟩ := forRange_inv (f := fun f (_ : Unit) => useFace N s f) (fun _ _ => True) (Nat.zero_le faces.length) (s := ()) trivial (by
    intro f _ _ hf _
    refine ⟨(), ?_, trivial⟩
    have gf : faces[f]? = some faces[f] := List.getElem?_eq_getElem hf
    have gs : sides[f]? = some (sides[f]'(by omega)) := List.getElem?_eq_getElem _
    obtain ⟨hr, hn⟩ := hring f _ _ gf gs
    have ge : s.facesEdges[f]? = some (s.facesEdges[f]'(by rw [hs.length]; exact hf)) := List.getElem?_eq_getElem _
    obtain ⟨es, e1, e2⟩ := hs.sidesOf f _ ge
    rw [gs] at e1
    obtain rfl := Option.some.inj e1
    unfold useFace
    rw [hs.nodes, vget_eq_ok.2 gf, Res.ok_bind, vget_eq_ok.2 ge, Res.ok_bind, if_neg]
    rintro (h | h)
    · rw [List.any_eq_true] at h
      obtain ⟨n, h1, h2⟩ := h
      have := hn n h1
      have := of_decide_eq_true h2
      omega
    · have hl : (s.facesEdges[f]'(by rw [hs.length]; exact hf)).length = (sides[f]'(by omega)).length := by
        rcases e2 with h | h <;> rw [h]
        exact List.length_reverse
      rw [hl, hr.len] at h
      omega)
  rw [h1]

/-! ## Reading back -/

theorem loopN_unit {f : Nat → Unit → Res Unit} {k i : Nat} (h : loopN f k i () = .ok ()) : ∀ j, i ≤ j → j < i + k → f j () = .ok () := by
  induction k generalizing i with
  | zero => intro j h1 h2; omega
  | succ k ih =>
    rw [loopN] at h
    obtain ⟨u, h1, h2⟩ := Res.bind_eq_ok.1 h
    intro j h3 h4
    rcases Nat.eq_or_lt_of_le h3 with rfl | h5
    · exact h1
    · exact ih h2 j h5 (by omega)

theorem markAllGiven_faces {f : Nat} {es : List Nat} {s s' : State} (h : markAllGiven f es s = .ok s') :
    s'.facesNodes = s.facesNodes ∧ s'.facesEdges = s.facesEdges := by
  induction es generalizing s with
  | nil => obtain rfl := Res.ok.inj h; exact ⟨rfl, rfl⟩
  | cons e es ih =>
    rw [markAllGiven] at h
    obtain ⟨s1, h1, h2⟩ := Res.bind_eq_ok.1 h
    obtain ⟨a, b⟩ := ih h2
    unfold markGiven at h1
    obtain ⟨c, _, h1⟩ := Res.bind_eq_ok.1 h1
    split at h1
    · cases h1
    · unfold markEdge at h1
      obtain ⟨c, _, h1⟩ := Res.bind_eq_ok.1 h1
      obtain ⟨p, _, h1⟩ := Res.bind_eq_ok.1 h1
      obtain ⟨q, _, h1⟩ := Res.bind_eq_ok.1 h1
      obtain rfl := Res.ok.inj h1
      exact ⟨a, b⟩

theorem givenLoop_faces {k i : Nat} {s s' : State} (h : loopN (givenFace edges adj) k i s = .ok s') :
    s'.facesNodes = s.facesNodes ∧ s'.facesEdges.length = s.facesEdges.length + k := by
  induction k generalizing i s with
  | zero => obtain rfl := Res.ok.inj h; exact ⟨rfl, rfl⟩
  | succ k ih =>
    rw [loopN] at h
    obtain ⟨s1, h1, h2⟩ := Res.bind_eq_ok.1 h
    obtain ⟨a, b⟩ := ih h2
    unfold givenFace at h1
    obtain ⟨ns, _, h1⟩ := Res.bind_eq_ok.1 h1
    obtain ⟨first, _, h1⟩ := Res.bind_eq_ok.1 h1
    obtain ⟨es, _, h1⟩ := Res.bind_eq_ok.1 h1
    obtain ⟨c, d⟩ := markAllGiven_faces h1
    refine ⟨a.trans c, ?_⟩
    rw [b, d]
    simp; omega

theorem faceArrays_ok {fs gs : List (List Nat)} (hl : fs.length = gs.length)
    (h : ∀ (f : Nat) ns es, fs[f]? = some ns → gs[f]? = some es → ns.length ≤ es.length) :
    ∃ e, faceArrays fs gs = .ok (fs.map List.length, fs.flatten, e) := by
  induction fs generalizing gs with
  | nil => exact ⟨_, rfl⟩
  | cons ns fs ih =>
    match gs, hl with
    | es :: gs, hl =>
      obtain ⟨e, he⟩ := ih (gs := gs) (by simpa using hl) (fun f ns' es' h1 h2 => h (f + 1) ns' es' (by simpa using h1) (by simpa using h2))
      have h0 := h 0 ns es rfl rfl
      have h1 : takeEntries es ns.length 0 = .ok (es.take ns.length) := by
        have := takeEntries_eq [] (es.take ns.length) (es.drop ns.length)
        rw [List.nil_append, List.take_append_drop, List.length_take, Nat.min_eq_left h0] at this
        exact this
      exact ⟨_, by rw [faceArrays, h1, Res.ok_bind, he, Res.ok_bind]; rfl⟩

end Verif.Faces
