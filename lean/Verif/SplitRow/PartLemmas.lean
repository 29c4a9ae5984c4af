import Verif.SplitRow.DoneLemmas
import Mathlib.Tactic.IntervalCases
/-!
# Lemmas: the faces after the split
-/
namespace Verif.SplitRow
open Verif.Mesh Verif.Faces
open Verif.Polygons (Pt)
open Verif.Flip (Exact Linked)

variable {numEdges : Nat} {edges : List Edge} {m m' : Mesh Pt} {s : State} {mid : Pt → Pt → Pt}

theorem across_faces (t : Tab numEdges edges s) {e f g k : Nat} (a : Across s e f g) (hb : Borders s k e) : k = f ∨ k = g := by
  obtain ⟨p, h1, h2⟩ := a
  obtain ⟨p', g', k1, _, _, _, _, _, k7, _⟩ := Across.of t hb
  rw [h1] at k1
  obtain rfl := Option.some.inj k1
  rcases h2 with rfl | rfl <;> rcases k7 with k7 | k7 <;> obtain ⟨k8, k9⟩ := Prod.mk.inj k7
  · exact Or.inl k8.symm
  · exact Or.inr k9.symm
  · exact Or.inr k8.symm
  · exact Or.inl k9.symm

/-- Each face of a trail lies between two edges that follow each other. -/
theorem Trail.at {e f b q : Nat} {rs fs : List Nat} (h : Trail s e f rs fs b q) {i k : Nat} (hi : fs[i]? = some k) :
    ∃ u v, (e :: rs)[i]? = some u ∧ (e :: rs)[i + 1]? = some v ∧ Opposite s k u v := by
  induction h generalizing i with
  | nil => simp at hi
  | @step e f e' g es fs e1 f1 ho a tr ih =>
    cases i with
    | zero =>
      simp only [List.getElem?_cons_zero, Option.some.injEq] at hi
      subst hi
      exact ⟨e, e', rfl, rfl, ho⟩
    | succ i =>
      simp only [List.getElem?_cons_succ] at hi ⊢
      have := ih hi
      simpa using this

/-- The faces of an edge of a trail. -/
theorem Trail.around (t : Tab numEdges edges s) {e f b q g0 : Nat} {rs fs : List Nat} (h : Trail s e f rs fs b q) (a0 : Across s e f g0) {j c g : Nat}
    (hc : (e :: rs)[j]? = some c) (hb : Borders s g c) :
    fs[j]? = some g ∨ (∃ i, j = i + 1 ∧ fs[i]? = some g) ∨ (j = 0 ∧ g = g0) ∨ (j = fs.length ∧ g = q) := by
  induction h generalizing j g0 with
  | nil e f =>
    cases j with
    | zero =>
      simp only [List.getElem?_cons_zero, Option.some.injEq] at hc
      subst hc
      rcases across_faces t a0 hb with h | h
      · exact Or.inr (Or.inr (Or.inr ⟨rfl, h⟩))
      · exact Or.inr (Or.inr (Or.inl ⟨rfl, h⟩))
    | succ j => simp at hc
  | @step e f e' g' es fs e1 f1 ho a tr ih =>
    cases j with
    | zero =>
      simp only [List.getElem?_cons_zero, Option.some.injEq] at hc
      subst hc
      rcases across_faces t a0 hb with h | h
      · exact Or.inl (by rw [h]; rfl)
      · exact Or.inr (Or.inr (Or.inl ⟨rfl, h⟩))
    | succ j =>
      rcases ih a.symm hc with h | ⟨i, rfl, h⟩ | ⟨rfl, rfl⟩ | ⟨rfl, h⟩
      · exact Or.inl (by simpa using h)
      · exact Or.inr (Or.inl ⟨i + 1, rfl, by simpa using h⟩)
      · exact Or.inr (Or.inl ⟨0, rfl, rfl⟩)
      · exact Or.inr (Or.inr (Or.inr ⟨rfl, h⟩))

/-- Two nodes are joined by an edge of the mesh. -/
def Linked2 (m : Mesh Pt) (u v : Nat) : Prop := ∃ e, joins (edgeAt m e) u v

theorem Linked2.symm {u v : Nat} (h : Linked2 m u v) : Linked2 m v u := by
  obtain ⟨e, h⟩ := h
  exact ⟨e, h.symm⟩

theorem outlined_three {a b c : Nat} (h1 : Linked2 m a b) (h2 : Linked2 m b c) (h3 : Linked2 m c a) : Outlined m [a, b, c] := by
  intro i hi
  simp only [List.length_cons, List.length_nil] at hi
  obtain ⟨e1, h1⟩ := h1
  obtain ⟨e2, h2⟩ := h2
  obtain ⟨e3, h3⟩ := h3
  interval_cases i
  · exact ⟨a, b, e1, rfl, rfl, h1⟩
  · exact ⟨b, c, e2, rfl, rfl, h2⟩
  · exact ⟨c, a, e3, rfl, by simp, h3⟩

theorem outlined_four {a b c d : Nat} (h1 : Linked2 m a b) (h2 : Linked2 m b c) (h3 : Linked2 m c d) (h4 : Linked2 m d a) : Outlined m [a, b, c, d] := by
  intro i hi
  simp only [List.length_cons, List.length_nil] at hi
  obtain ⟨e1, h1⟩ := h1
  obtain ⟨e2, h2⟩ := h2
  obtain ⟨e3, h3⟩ := h3
  obtain ⟨e4, h4⟩ := h4
  interval_cases i
  · exact ⟨a, b, e1, rfl, rfl, h1⟩
  · exact ⟨b, c, e2, rfl, rfl, h2⟩
  · exact ⟨c, d, e3, rfl, rfl, h3⟩
  · exact ⟨d, a, e4, rfl, by simp, h4⟩

/-- The edges of the split mesh: those kept, and the new ones. -/
theorem SplitBy.kept {row : List Nat} {inner : List Edge} (h : SplitBy mid s m m' row inner) {e : Nat} (he : e < m.edges.length) (hc : ¬ (e ∈ row ∧ cut s e = true)) :
    edgeAt m' e = edgeAt m e := by
  obtain ⟨new, h1, _⟩ := h.edges
  unfold edgeAt
  rw [h1, List.getElem?_append_left (by simpa using he), List.getElem?_mapIdx, List.getElem?_eq_getElem he]
  simp [hc]

theorem SplitBy.added {row : List Nat} {inner : List Edge} (h : SplitBy mid s m m' row inner) {p : Edge}
    (hp : p ∈ halves (edgeAt m) row (marks s m.nodes.length row) ++ inner) : p ∈ m'.edges ∧ ∃ e, edgeAt m' e = p := by
  obtain ⟨new, h1, h2⟩ := h.edges
  have : p ∈ m'.edges := by rw [h1]; exact List.mem_append_right _ (h2.mem_iff.2 hp)
  refine ⟨this, ?_⟩
  obtain ⟨e, he⟩ := List.mem_iff_getElem?.1 this
  exact ⟨e, by unfold edgeAt; rw [he]; rfl⟩

theorem mem_bridges {ends : Nat → Edge} {row : List Nat} {X : List (Option Nat)} {i u v : Nat} {x y : Option Nat} (h1 : row[i]? = some u)
    (h2 : row[i + 1]? = some v) (h3 : X[i]? = some x) (h4 : X[i + 1]? = some y) {p : Edge} (hp : p ∈ bridge (ends u) (ends v) x y) : p ∈ bridges ends row X := by
  induction i generalizing row X with
  | zero =>
    match row, X, h1, h2, h3, h4 with
    | [], _, h1, _, _, _ => simp at h1
    | [_], _, _, h2, _, _ => simp at h2
    | _ :: _ :: _, [], _, _, h3, _ => simp at h3
    | _ :: _ :: _, [_], _, _, _, h4 => simp at h4
    | u' :: v' :: r, x' :: y' :: X, h1, h2, h3, h4 =>
      simp at h1 h2 h3 h4
      subst h1 h2 h3 h4
      rw [bridges]
      exact List.mem_append_left _ hp
  | succ i ih =>
    match row, X, h1, h2, h3, h4 with
    | [], _, h1, _, _, _ => simp at h1
    | [_], _, _, h2, _, _ => simp at h2
    | _ :: _ :: _, [], _, _, h3, _ => simp at h3
    | _ :: _ :: _, [_], _, _, _, h4 => simp at h4
    | u' :: v' :: r, x' :: y' :: X, h1, h2, h3, h4 =>
      rw [bridges]
      exact List.mem_append_right _ (ih (row := v' :: r) (X := y' :: X) (by simpa using h1) (by simpa using h2) (by simpa using h3) (by simpa using h4))

theorem marks_at {ends : Nat → Edge} {row : List Nat} {n i c : Nat} (h : row[i]? = some c) :
    (cut s c = true → ∃ z, (marks s n row)[i]? = some (some z) ∧ ((ends c).1, z) ∈ halves ends row (marks s n row) ∧
      (z, (ends c).2) ∈ halves ends row (marks s n row)) ∧ (cut s c = false → (marks s n row)[i]? = some none) := by
  induction row generalizing n i with
  | nil => simp at h
  | cons e es ih =>
    rcases Bool.eq_false_or_eq_true (cut s e) with he | he
    · rw [marks_cut he]
      cases i with
      | zero =>
        simp only [List.getElem?_cons_zero, Option.some.injEq] at h
        subst h
        exact ⟨fun _ => ⟨n, rfl, by simp [halves], by simp [halves]⟩, fun hc => by rw [he] at hc; simp at hc⟩
      | succ i =>
        obtain ⟨i1, i2⟩ := ih (n := n + 1) (by simpa using h)
        refine ⟨fun hc => ?_, fun hc => by simpa using i2 hc⟩
        obtain ⟨z, z1, z2, z3⟩ := i1 hc
        exact ⟨z, by simpa using z1, by simp [halves, z2], by simp [halves, z3]⟩
    · rw [marks_not he]
      cases i with
      | zero =>
        simp only [List.getElem?_cons_zero, Option.some.injEq] at h
        subst h
        exact ⟨fun hc => by rw [he] at hc; simp at hc, fun _ => rfl⟩
      | succ i =>
        obtain ⟨i1, i2⟩ := ih (n := n) (by simpa using h)
        refine ⟨fun hc => ?_, fun hc => by simpa using i2 hc⟩
        obtain ⟨z, z1, z2, z3⟩ := i1 hc
        exact ⟨z, by simpa using z1, by simp [halves, z2], by simp [halves, z3]⟩

/-- What is known about the new node on an edge of the row. -/
def MarkAt (s : State) (m : Mesh Pt) (cutRow : List Nat) (c : Nat) (x : Option Nat) : Prop :=
  (∃ z, x = some z ∧ cut s c = true ∧ ((edgeAt m c).1, z) ∈ halves (edgeAt m) cutRow (marks s m.nodes.length cutRow) ∧
    (z, (edgeAt m c).2) ∈ halves (edgeAt m) cutRow (marks s m.nodes.length cutRow)) ∨ (x = none ∧ cut s c = false)

theorem divided_of (x : Exact m s) (hfit : m.edges.length ≤ missing) {cutRow : List Nat} {e f b q : Nat} {rs fs : List Nat} {X : List (Option Nat)}
    (h : SplitBy mid s m m' cutRow (bridges (edgeAt m) (e :: rs) X)) (tr : Trail s e f rs fs b q) (hd : fs.Nodup)
    (H : ∀ c ∈ cutRow, cut s c = true → ∀ g, Borders s g c → ∃ i : Nat, fs[i]? = some g ∧ ((e :: rs)[i]? = some c ∨ (e :: rs)[i + 1]? = some c))
    (hX : ∀ (i c : Nat), (e :: rs)[i]? = some c → ∃ y, X[i]? = some y ∧ MarkAt s m cutRow c y) : Divided s m m' (e :: rs) X fs := by
  have t := tab_of x 0 (by omega)
  constructor
  · intro i k hk
    obtain ⟨u, v, hu, hv, ho⟩ := tr.at hk
    obtain ⟨ns, es, q1, q2, q3, q4, hp⟩ := t.quad ho.1
    obtain ⟨_, es', j, o1, o2, o3⟩ := ho
    rw [q3] at o1
    obtain rfl := Option.some.inj o1
    have hj := (List.getElem?_eq_some_iff.1 o2).1
    obtain ⟨y1, hy1, k1⟩ := hX i u hu
    obtain ⟨y2, hy2, k2⟩ := hX (i + 1) v hv
    have keep : ∀ c a b p, m.edges[c]? = some p → Joins p a b → ¬ (c ∈ cutRow ∧ cut s c = true) → Linked2 m' a b := by
      intro c a b p hp hj hc
      have hlt := (List.getElem?_eq_some_iff.1 hp).1
      refine ⟨c, ?_⟩
      rw [h.kept hlt hc]
      unfold edgeAt
      rw [hp]
      exact hj
    have side : ∀ c, c ∈ es → c ≠ u → c ≠ v → ¬ (c ∈ cutRow ∧ cut s c = true) := by
      rintro c hc hcu hcv ⟨hc1, hc2⟩
      obtain ⟨i', h1, h2⟩ := H c hc1 hc2 k ⟨es, q3, hc⟩
      have hii : i' = i := (List.getElem?_inj (List.getElem?_eq_some_iff.1 h1).1 hd).1 (h1.trans hk.symm)
      subst hii
      rcases h2 with h2 | h2
      · rw [hu] at h2; exact hcu (Option.some.inj h2).symm
      · rw [hv] at h2; exact hcv (Option.some.inj h2).symm
    have halfOf : ∀ c z a b, joins (edgeAt m c) a b → ((edgeAt m c).1, z) ∈ halves (edgeAt m) cutRow (marks s m.nodes.length cutRow) →
        (z, (edgeAt m c).2) ∈ halves (edgeAt m) cutRow (marks s m.nodes.length cutRow) → Linked2 m' a z ∧ Linked2 m' z b := by
      intro c z a b hj h1 h2
      obtain ⟨_, e1, g1⟩ := h.added (List.mem_append_left _ h1)
      obtain ⟨_, e2, g2⟩ := h.added (List.mem_append_left _ h2)
      rcases hj with hj | hj <;> rw [hj] at g1 g2
      · exact ⟨⟨e1, Or.inl g1⟩, ⟨e2, Or.inl g2⟩⟩
      · exact ⟨⟨e2, Or.inr g2⟩, ⟨e1, Or.inr g1⟩⟩
    have inner : ∀ p ∈ bridge (edgeAt m u) (edgeAt m v) y1 y2, Linked2 m' p.1 p.2 := by
      intro p hp
      obtain ⟨_, e1, g1⟩ := h.added (List.mem_append_right _ (mem_bridges hu hv hy1 hy2 hp))
      exact ⟨e1, Or.inl g1⟩
    have fin : ∀ a b c d u' v' pu pv pb pd, m.edges[u]? = some pu → Joins pu a b → m.edges[v]? = some pv → Joins pv c d →
        m.edges[u']? = some pb → Joins pb b c → m.edges[v']? = some pd → Joins pd d a → u' ∈ es → v' ∈ es → u' ≠ u → u' ≠ v → v' ≠ u → v' ≠ v →
        joins (edgeAt m u) a b ∧ joins (edgeAt m v) c d ∧ ∀ p ∈ parts a b c d y1 y2, Outlined m' p := by
      intro a b c d u' v' pu pv pb pd e1 j1 e2 j2 e3 j3 e4 j4 m3 m4 n1 n2 n3 n4
      have hju : joins (edgeAt m u) a b := by unfold edgeAt; rw [e1]; exact j1
      have hjv : joins (edgeAt m v) c d := by unfold edgeAt; rw [e2]; exact j2
      have lbc := keep u' b c pb e3 j3 (side u' m3 n1 n2)
      have lda := keep v' d a pd e4 j4 (side v' m4 n3 n4)
      refine ⟨hju, hjv, ?_⟩
      rcases k1 with ⟨z1, rfl, c1, a1, b1⟩ | ⟨rfl, c1⟩ <;> rcases k2 with ⟨z2, rfl, c2, a2, b2⟩ | ⟨rfl, c2⟩
      · obtain ⟨l1, l2⟩ := halfOf u z1 a b hju a1 b1
        obtain ⟨l3, l4⟩ := halfOf v z2 c d hjv a2 b2
        have l5 := inner (z1, z2) (by simp [bridge])
        intro p hp
        simp only [parts, List.mem_cons, List.not_mem_nil, or_false] at hp
        rcases hp with rfl | rfl
        · exact outlined_four l1 l5 l4 lda
        · exact outlined_four l2 lbc l3 l5.symm
      · obtain ⟨l1, l2⟩ := halfOf u z1 a b hju a1 b1
        have lcd := keep v c d pv e2 j2 (by rintro ⟨_, hc⟩; rw [c2] at hc; simp at hc)
        have l5 := inner ((edgeAt m v).1, z1) (by simp [bridge])
        have l6 := inner (z1, (edgeAt m v).2) (by simp [bridge])
        have lx : Linked2 m' z1 c ∧ Linked2 m' z1 d := by
          rcases hjv with hj | hj <;> rw [hj] at l5 l6
          · exact ⟨l5.symm, l6⟩
          · exact ⟨l6, l5.symm⟩
        intro p hp
        simp only [parts, List.mem_cons, List.not_mem_nil, or_false] at hp
        rcases hp with rfl | rfl | rfl
        · exact outlined_three l1 lx.2 lda
        · exact outlined_three l2 lbc lx.1.symm
        · exact outlined_three lx.1 lcd lx.2.symm
      · obtain ⟨l3, l4⟩ := halfOf v z2 c d hjv a2 b2
        have lab := keep u a b pu e1 j1 (by rintro ⟨_, hc⟩; rw [c1] at hc; simp at hc)
        have l5 := inner ((edgeAt m u).1, z2) (by simp [bridge])
        have l6 := inner (z2, (edgeAt m u).2) (by simp [bridge])
        have lx : Linked2 m' a z2 ∧ Linked2 m' b z2 := by
          rcases hju with hj | hj <;> rw [hj] at l5 l6
          · exact ⟨l5, l6.symm⟩
          · exact ⟨l6.symm, l5⟩
        intro p hp
        simp only [parts, List.mem_cons, List.not_mem_nil, or_false] at hp
        rcases hp with rfl | rfl | rfl
        · exact outlined_three lab lx.2 lx.1.symm
        · exact outlined_three lbc l3 lx.2.symm
        · exact outlined_three lx.1 l4 lda
      · have lab := keep u a b pu e1 j1 (by rintro ⟨_, hc⟩; rw [c1] at hc; simp at hc)
        have lcd := keep v c d pv e2 j2 (by rintro ⟨_, hc⟩; rw [c2] at hc; simp at hc)
        intro p hp
        simp only [parts, List.mem_cons, List.not_mem_nil, or_false] at hp
        subst hp
        exact outlined_four lab lbc lcd lda
    obtain ⟨a, b, w0, p0, s1, s2, s3, s4, s5⟩ := hp.sides j (by omega)
    obtain ⟨b', c, w1, p1, r1, r2, r3, r4, r5⟩ := hp.sides ((j + 1) % 4) (by omega)
    obtain ⟨c', d, w2, p2, z1, z2, z3, z4, z5⟩ := hp.sides ((j + 2) % 4) (by omega)
    obtain ⟨d', a', w3, p3, x1, x2, x3, x4, x5⟩ := hp.sides ((j + 3) % 4) (by omega)
    rw [q2] at s2 r2 z2 x2
    have i1 : ((j + 1) % 4 + 1) % 4 = (j + 2) % 4 := by omega
    have i2 : ((j + 2) % 4 + 1) % 4 = (j + 3) % 4 := by omega
    have i3 : ((j + 3) % 4 + 1) % 4 = j := by omega
    rw [i1] at r2
    rw [i2] at z2
    rw [i3] at x2
    rw [s2] at r1
    obtain rfl := Option.some.inj r1
    rw [r2] at z1
    obtain rfl := Option.some.inj z1
    rw [z2] at x1
    obtain rfl := Option.some.inj x1
    rw [s1] at x2
    obtain rfl := Option.some.inj x2
    rw [o2] at s3
    obtain rfl := Option.some.inj s3
    rw [o3] at z3
    obtain rfl := Option.some.inj z3
    have distinct : ∀ (i1 i2 c1 c2 : Nat), es[i1]? = some c1 → es[i2]? = some c2 → i1 ≠ i2 → c1 ≠ c2 := by
      rintro i1 i2 c1 c2 h1 h2 hne rfl
      exact hne ((List.getElem?_inj (List.getElem?_eq_some_iff.1 h1).1 hp.edgesDistinct).1 (h1.trans h2.symm))
    obtain ⟨f1, f2, f3⟩ := fin a b c d w1 w3 p0 p2 p1 p3 s4 s5 z4 z5 r4 r5 x4 x5 (List.mem_of_getElem? r3) (List.mem_of_getElem? x3)
      (distinct _ _ _ _ r3 o2 (by omega)) (distinct _ _ _ _ r3 o3 (by omega)) (distinct _ _ _ _ x3 o2 (by omega)) (distinct _ _ _ _ x3 o3 (by omega))
    refine ⟨ns, j, a, b, c, d, u, v, y1, y2, q1, ?_, hu, hv, f1, f2, hy1, hy2, f3⟩
    rw [q4] at hj
    match ns, q2, s1, s2, r2, z2 with
    | [n0, n1, n2, n3], _, s1, s2, r2, z2 => interval_cases j <;> simp_all [List.rotate]
  · intro k ns hk hns
    have hlt := (List.getElem?_eq_some_iff.1 hns).1
    have hl := x.linked.lengths
    have h3 : s.facesEdges[k]? = some s.facesEdges[k] := List.getElem?_eq_getElem (by omega)
    have hp := x.linked.proper k ns _ hns h3
    intro i hi
    obtain ⟨a, b, c, p, k1, k2, k3, k4, k5⟩ := hp.sides i hi
    refine ⟨a, b, c, k1, k2, ?_⟩
    rw [h.kept (List.getElem?_eq_some_iff.1 k4).1]
    · unfold edgeAt; rw [k4]; exact k5
    · rintro ⟨hc1, hc2⟩
      obtain ⟨i', h1, _⟩ := H c hc1 hc2 k ⟨_, h3, List.mem_of_getElem? k3⟩
      exact hk (List.mem_of_getElem? h1)

end Verif.SplitRow
