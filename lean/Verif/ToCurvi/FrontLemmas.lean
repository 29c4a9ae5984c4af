import Verif.ToCurvi.MeshLemmas
/-!
# Lemmas: the places of the nodes while the grid grows
-/
namespace Verif.ToCurvi
open Verif.Mesh Verif.Faces Verif.Refine Verif.Curvi
variable {P : Type} {m : Mesh P} {s : State}

/-- Where a node is. -/
def Front.place (t : Front) (n : Nat) : Option (Int × Int) :=
  match t.i[n]?, t.j[n]? with
  | some i, some j => if i = noIndex ∨ j = noIndex then none else some (i, j)
  | _, _ => none

theorem place_some {t : Front} {n : Nat} {p : Int × Int} : t.place n = some p ↔
    t.i[n]? = some p.1 ∧ t.j[n]? = some p.2 ∧ p.1 ≠ noIndex ∧ p.2 ≠ noIndex := by
  unfold Front.place
  cases h1 : t.i[n]? with
  | none => simp
  | some i =>
    cases h2 : t.j[n]? with
    | none => simp
    | some j =>
      obtain ⟨a, b⟩ := p
      simp only
      split
      · rename_i h
        simp only [reduceCtorEq, Option.some.injEq, false_iff]
        rintro ⟨rfl, rfl, h3, h4⟩
        exact h.elim h3 h4
      · rename_i h
        simp only [Option.some.injEq, Prod.mk.injEq]
        constructor
        · rintro ⟨rfl, rfl⟩; exact ⟨rfl, rfl, fun h' => h (Or.inl h'), fun h' => h (Or.inr h')⟩
        · rintro ⟨rfl, rfl, _⟩; exact ⟨rfl, rfl⟩

/-- Nodes keep their places. -/
def Extends (a b : Nat → Option (Int × Int)) : Prop := ∀ n p, a n = some p → b n = some p

theorem Extends.refl (a : Nat → Option (Int × Int)) : Extends a a := fun _ _ h => h
theorem Extends.trans {a b c : Nat → Option (Int × Int)} (h : Extends a b) (h' : Extends b c) : Extends a c := fun n p q => h' n p (h n p q)

theorem OnCell.mono {a b : Nat → Option (Int × Int)} (h : Extends a b) {ns : List Nat} (hc : OnCell a ns) : OnCell b ns := by
  obtain ⟨n0, n1, n2, n3, p0, p1, p2, p3, h1, h2, h3, h4, h5, h6⟩ := hc
  exact ⟨n0, n1, n2, n3, p0, p1, p2, p3, h1, h _ _ h2, h _ _ h3, h _ _ h4, h _ _ h5, h6⟩

theorem Reached.mono {a b : Nat → Option (Int × Int)} (h : Extends a b) {f0 f : Nat} (hr : Reached s a f0 f) : Reached s b f0 f := by
  induction hr with
  | start => exact .start
  | step e f g ns ns' _ h2 h3 ih => exact .step e f g ns ns' ih h2 (h3.mono h)

theorem Reached.connected {a : Nat → Option (Int × Int)} {f0 f : Nat} (hr : Reached s a f0 f) : Connected s f0 f := by
  induction hr with
  | start => exact .start
  | step e f g ns ns' _ h2 _ ih => exact .step e f g ns ns' ih h2

theorem Obstructed.mono {a b : Nat → Option (Int × Int)} (h : Extends a b) {x : Nat} {p : Int × Int} (ho : Obstructed m s a x p) : Obstructed m s b x p := by
  rcases ho with ⟨q, h1, h2⟩ | ⟨w, q, h1, h2⟩
  · exact Or.inl ⟨q, h _ _ h1, h2⟩
  · exact Or.inr ⟨w, q, h _ _ h1, h2⟩

theorem Blocked.mono {a b : Nat → Option (Int × Int)} (h : Extends a b) {e : Nat} {ns ns' : List Nat} (hb : Blocked m s a e ns ns') :
    Blocked m s b e ns ns' := by
  obtain ⟨n0, n1, n2, n3, x, y, p, q, r, r', h1, h2, h3, h4, h5, h6, h7, h8, h9⟩ := hb
  exact ⟨n0, n1, n2, n3, x, y, p, q, r, r', h1, h2, h3, h _ _ h4, h _ _ h5, h _ _ h6, h _ _ h7, h8, h9.imp (·.mono h) (·.mono h)⟩

/-! ## Unit squares -/

theorem Cell.rot {p0 p1 p2 p3 : Int × Int} (h : Cell p0 p1 p2 p3) : Cell p1 p2 p3 p0 := by
  obtain ⟨u, v, hu, hv, h | h⟩ := h <;> obtain ⟨rfl, rfl, rfl⟩ := h
  · exact ⟨-u, v, by omega, hv, Or.inr ⟨rfl, by ext <;> simp, by ext <;> simp⟩⟩
  · exact ⟨u, -v, hu, by omega, Or.inl ⟨rfl, by ext <;> simp, by ext <;> simp⟩⟩

theorem Cell.flip {p0 p1 p2 p3 : Int × Int} (h : Cell p0 p1 p2 p3) : Cell p1 p0 p3 p2 := by
  obtain ⟨u, v, hu, hv, h | h⟩ := h <;> obtain ⟨rfl, rfl, rfl⟩ := h
  · exact ⟨-u, v, by omega, hv, Or.inl ⟨by ext <;> simp, by ext <;> simp, by ext <;> simp⟩⟩
  · exact ⟨u, -v, hu, by omega, Or.inr ⟨by ext <;> simp, by ext <;> simp, by ext <;> simp⟩⟩

theorem Cell.beside {p0 p1 p2 p3 : Int × Int} (h : Cell p0 p1 p2 p3) : Beside p0 p1 := by
  obtain ⟨u, v, hu, hv, h | h⟩ := h <;> obtain ⟨rfl, rfl, rfl⟩ := h <;> rcases hu with rfl | rfl <;> rcases hv with rfl | rfl <;> unfold Beside <;>
    simp

theorem Cell.diagonal {p0 p1 p2 p3 : Int × Int} (h : Cell p0 p1 p2 p3) : p0 ≠ p2 := by
  obtain ⟨u, v, hu, hv, h | h⟩ := h <;> obtain ⟨rfl, rfl, rfl⟩ := h <;> intro hc <;> have := congrArg Prod.fst hc <;> simp only at this <;> omega

theorem Beside.symm {p q : Int × Int} (h : Beside p q) : Beside q p := by
  unfold Beside at *; omega

/-- A cell with one side given is on one of the two sides of it. -/
theorem Cell.opposite {p q r r' x y : Int × Int} (h : Cell p q r' r) (h' : Cell p q y x) :
    (x = r ∧ y = r') ∨ (x = (2 * p.1 - r.1, 2 * p.2 - r.2) ∧ y = (2 * q.1 - r'.1, 2 * q.2 - r'.2)) := by
  obtain ⟨u, v, hu, hv, h | h⟩ := h <;> obtain ⟨rfl, rfl, rfl⟩ := h <;> obtain ⟨u', v', hu', hv', h' | h'⟩ := h' <;> obtain ⟨g1, rfl, rfl⟩ := h' <;>
    rcases hu with rfl | rfl <;> rcases hv with rfl | rfl <;> rcases hu' with rfl | rfl <;> rcases hv' with rfl | rfl <;>
    simp only [Prod.mk.injEq] at g1 ⊢ <;> first | omega | (left; simp)

theorem Cell.mirror {p q r r' : Int × Int} (h : Cell p q r' r) : Cell p q (2 * q.1 - r'.1, 2 * q.2 - r'.2) (2 * p.1 - r.1, 2 * p.2 - r.2) := by
  obtain ⟨u, v, hu, hv, h | h⟩ := h <;> obtain ⟨rfl, rfl, rfl⟩ := h
  · exact ⟨u, -v, hu, by omega, Or.inl ⟨rfl, by ext <;> simp <;> omega, by ext <;> simp <;> omega⟩⟩
  · exact ⟨-u, v, by omega, hv, Or.inr ⟨rfl, by ext <;> simp <;> omega, by ext <;> simp <;> omega⟩⟩

theorem onCell_around {place : Nat → Option (Int × Int)} {ns : List Nat} {a b c d : Nat} {p0 p1 p2 p3 : Int × Int} (h : Around ns a b c d)
    (h0 : place a = some p0) (h1 : place b = some p1) (h2 : place c = some p2) (h3 : place d = some p3) (hc : Cell p0 p1 p2 p3) : OnCell place ns := by
  rcases h with q | q | q | q | q | q | q | q
  · exact ⟨_, _, _, _, _, _, _, _, q, h0, h1, h2, h3, hc⟩
  · exact ⟨_, _, _, _, _, _, _, _, q, h1, h2, h3, h0, hc.rot⟩
  · exact ⟨_, _, _, _, _, _, _, _, q, h2, h3, h0, h1, hc.rot.rot⟩
  · exact ⟨_, _, _, _, _, _, _, _, q, h3, h0, h1, h2, hc.rot.rot.rot⟩
  · exact ⟨_, _, _, _, _, _, _, _, q, h3, h2, h1, h0, hc.flip.rot.rot⟩
  · exact ⟨_, _, _, _, _, _, _, _, q, h2, h1, h0, h3, hc.flip.rot.rot.rot⟩
  · exact ⟨_, _, _, _, _, _, _, _, q, h1, h0, h3, h2, hc.flip⟩
  · exact ⟨_, _, _, _, _, _, _, _, q, h0, h3, h2, h1, hc.flip.rot⟩

theorem Around.rot {ns : List Nat} {a b c d : Nat} (h : Around ns a b c d) : Around ns b c d a := by
  unfold Around at *; tauto

theorem Around.flip {ns : List Nat} {a b c d : Nat} (h : Around ns a b c d) : Around ns b a d c := by
  unfold Around at *; tauto

theorem Around.mem {ns : List Nat} {a b c d : Nat} (h : Around ns a b c d) : a ∈ ns ∧ b ∈ ns ∧ c ∈ ns ∧ d ∈ ns := by
  rcases h with q | q | q | q | q | q | q | q <;> rw [q] <;> simp

theorem Around.iff {ns : List Nat} {a b c d : Nat} (h : Around ns a b c d) (x : Nat) : x ∈ ns ↔ x = a ∨ x = b ∨ x = c ∨ x = d := by
  rcases h with q | q | q | q | q | q | q | q <;> rw [q] <;> simp <;> tauto

/-- Places of the corners, whatever the way around. -/
theorem OnCell.around {place : Nat → Option (Int × Int)} {ns : List Nat} {a b c d : Nat} (h : OnCell place ns) (ha : Around ns a b c d) :
    ∃ p0 p1 p2 p3, place a = some p0 ∧ place b = some p1 ∧ place c = some p2 ∧ place d = some p3 ∧ Cell p0 p1 p2 p3 := by
  obtain ⟨n0, n1, n2, n3, p0, p1, p2, p3, h1, h2, h3, h4, h5, h6⟩ := h
  rw [h1] at ha
  rcases ha with q | q | q | q | q | q | q | q <;> simp only [List.cons.injEq, and_true] at q <;> obtain ⟨rfl, rfl, rfl, rfl⟩ := q
  · exact ⟨_, _, _, _, h2, h3, h4, h5, h6⟩
  · exact ⟨_, _, _, _, h5, h2, h3, h4, h6.rot.rot.rot⟩
  · exact ⟨_, _, _, _, h4, h5, h2, h3, h6.rot.rot⟩
  · exact ⟨_, _, _, _, h3, h4, h5, h2, h6.rot⟩
  · exact ⟨_, _, _, _, h5, h4, h3, h2, h6.flip.rot.rot⟩
  · exact ⟨_, _, _, _, h4, h3, h2, h5, h6.flip.rot.rot.rot⟩
  · exact ⟨_, _, _, _, h3, h2, h5, h4, h6.flip⟩
  · exact ⟨_, _, _, _, h2, h5, h4, h3, h6.flip.rot⟩

theorem around_of_mem {ns : List Nat} (h : ns.length = 4) {n : Nat} (hn : n ∈ ns) : ∃ b c d, Around ns n b c d := by
  match ns, h with
  | [n0, n1, n2, n3], _ =>
    simp only [List.mem_cons, List.not_mem_nil, or_false] at hn
    rcases hn with rfl | rfl | rfl | rfl
    · exact ⟨n1, n2, n3, Or.inl rfl⟩
    · exact ⟨n2, n3, n0, Or.inr (Or.inr (Or.inr (Or.inl rfl)))⟩
    · exact ⟨n3, n0, n1, Or.inr (Or.inr (Or.inl rfl))⟩
    · exact ⟨n0, n1, n2, Or.inr (Or.inl rfl)⟩

/-! ## The invariant -/

/-- What holds for the places at any time, unless the grid has become very wide. -/
structure Inv (m : Mesh P) (s : State) (f0 : Nat) (t : Front) : Prop where
  leni : t.i.length = m.nodes.length
  lenj : t.j.length = m.nodes.length
  none : ∀ n, n < m.nodes.length → t.place n = none → t.i[n]? = some noIndex ∧ t.j[n]? = some noIndex
  map : ∀ j i n, t.map.cell j i = some n ↔ t.place n = some (i, j)
  range : ∀ j i n, t.map.cell j i = some n → t.map.inside j i = true
  owner : ∀ n p, t.place n = some p → ∃ f ns, Quad s f ns ∧ n ∈ ns ∧ OnCell t.place ns ∧ Reached s t.place f0 f
  linked : ∀ n n' p q, t.place n = some p → t.place n' = some q → Beside p q → Linked m s n n'
  fillI : ∀ n p, t.place n = some p → ∀ k, p.1 ≤ k → k ≤ 1 → ∃ n' q, t.place n' = some q ∧ q.1 = k
  fillJ : ∀ n p, t.place n = some p → ∀ k, p.2 ≤ k → k ≤ 1 → ∃ n' q, t.place n' = some q ∧ q.2 = k
  first : ∃ a b c d, s.facesNodes[f0]? = some [a, b, c, d] ∧ t.place b = some (0, 0) ∧ t.place c = some (1, 0) ∧ t.place d = some (1, 1) ∧
    t.place a = some (0, 1)

/-- A thousand columns, or a thousand rows, from the first face on downwards. -/
def Long (place : Nat → Option (Int × Int)) : Prop :=
  (∀ k : Int, -998 ≤ k → k ≤ 1 → ∃ n q, place n = some q ∧ q.1 = k) ∨ (∀ k : Int, -998 ≤ k → k ≤ 1 → ∃ n q, place n = some q ∧ q.2 = k)

theorem Long.mono {a b : Nat → Option (Int × Int)} (h : Extends a b) (hl : Long a) : Long b := by
  rcases hl with hl | hl
  · exact Or.inl (fun k h1 h2 => by obtain ⟨n, q, h3, h4⟩ := hl k h1 h2; exact ⟨n, q, h _ _ h3, h4⟩)
  · exact Or.inr (fun k h1 h2 => by obtain ⟨n, q, h3, h4⟩ := hl k h1 h2; exact ⟨n, q, h _ _ h3, h4⟩)

variable {f0 : Nat} {t : Front}

theorem Inv.once (h : Inv m s f0 t) {n n' : Nat} {p : Int × Int} (h1 : t.place n = some p) (h2 : t.place n' = some p) : n = n' := by
  have g1 := (h.map p.2 p.1 n).2 h1
  have g2 := (h.map p.2 p.1 n').2 h2
  rw [g1] at g2; exact Option.some.inj g2

theorem Inv.low (h : Inv m s f0 t) {n : Nat} {p : Int × Int} (h1 : t.place n = some p) : -998 ≤ p.1 ∧ -998 ≤ p.2 := by
  constructor
  · by_contra hc
    obtain ⟨n', q, h2, h3⟩ := h.fillI n p h1 (-999) (by omega) (by omega)
    exact (place_some.1 h2).2.2.1 h3
  · by_contra hc
    obtain ⟨n', q, h2, h3⟩ := h.fillJ n p h1 (-999) (by omega) (by omega)
    exact (place_some.1 h2).2.2.2 h3

/-- The places directly beside the ones in use are not confused with the missing value. -/
theorem Inv.beside_ok (h : Inv m s f0 t) (hl : ¬ Long t.place) {n : Nat} {p q : Int × Int} (h1 : t.place n = some p) (hb : Beside p q) :
    q.1 ≠ noIndex ∧ q.2 ≠ noIndex := by
  have hlow := h.low h1
  constructor
  · intro hq
    refine hl (Or.inl (fun k h2 h3 => h.fillI n p h1 k ?_ h3))
    unfold Beside at hb; unfold noIndex at hq; omega
  · intro hq
    refine hl (Or.inr (fun k h2 h3 => h.fillJ n p h1 k ?_ h3))
    unfold Beside at hb; unfold noIndex at hq; omega

theorem Inv.lt (h : Inv m s f0 t) {n : Nat} {p : Int × Int} (h1 : t.place n = some p) : n < m.nodes.length := by
  rw [← h.leni]
  exact (List.getElem?_eq_some_iff.1 (place_some.1 h1).1).1

end Verif.ToCurvi
