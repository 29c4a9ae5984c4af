import Verif.InsertFace.Spec
import Verif.CurviLine.MirrorProps
/-!
# Lemmas about inserting a face
-/
namespace Verif.InsertFace
open Verif.Curvi Verif.CurviLine

section
variable {P : Type} [PointLike P]

/-! ## The types of the nodes of an edge with a face on one side and two missing nodes on the other -/

theorem type_inner {g : Grid P} {n m : Nat} (h1 : n ≠ 0) (h2 : n ≠ g.numN - 1) (h3 : m ≠ 0) (h4 : m ≠ g.numM - 1)
    (hv : valid (g.node n m) = true) :
    nodeType g n m = innerType (faceOk g n m) (faceOk g (n - 1) m) (faceOk g (n - 1) (m - 1)) (faceOk g n (m - 1)) := by
  unfold Grid.node at hv
  unfold nodeType
  simp [h1, h2, h3, h4, hv]

theorem type_left_a {g : Grid P} {n k : Nat} (hn : n + 1 < g.numN) (hm : k + 2 < g.numM) (v0 : valid (g.node n (k + 1)) = true)
    (v1 : valid (g.node (n + 1) (k + 1)) = true) (v2 : valid (g.node n (k + 2)) = true) (v3 : valid (g.node (n + 1) (k + 2)) = true)
    (v4 : valid (g.node n k) = false) : nodeType g n (k + 1) = .bottom ∨ nodeType g n (k + 1) = .bottomLeft := by
  have e0 : ¬ k + 1 = g.numM - 1 := by omega
  by_cases h0 : n = 0
  · subst h0
    unfold Grid.node at *
    unfold nodeType
    simp only [Nat.zero_add] at *
    simp [e0, v0, v4]
  · rw [type_inner h0 (by omega) (by omega) e0 v0]
    obtain ⟨i, rfl⟩ : ∃ i, n = i + 1 := ⟨n - 1, by omega⟩
    unfold Grid.node at *
    simp only [faceOk, v0, v1, v2, v3, v4, Nat.add_sub_cancel, Bool.and_true, Bool.and_false, Bool.false_and]
    generalize (valid (g.cell _ _) && valid (g.cell _ _)) = t
    cases t <;> simp [innerType]

theorem type_left_b {g : Grid P} {n k : Nat} (hn : n + 1 < g.numN) (hm : k + 2 < g.numM) (v0 : valid (g.node (n + 1) (k + 1)) = true)
    (v1 : valid (g.node n (k + 1)) = true) (v2 : valid (g.node n (k + 2)) = true) (v3 : valid (g.node (n + 1) (k + 2)) = true)
    (v4 : valid (g.node (n + 1) k) = false) : nodeType g (n + 1) (k + 1) = .bottom ∨ nodeType g (n + 1) (k + 1) = .bottomRight := by
  have e0 : ¬ k + 1 = g.numM - 1 := by omega
  by_cases h0 : n + 1 = g.numN - 1
  · unfold Grid.node at *
    unfold nodeType
    simp only [← h0]
    simp [e0, v0, v4]
  · rw [type_inner (by omega) h0 (by omega) e0 v0]
    simp only [Nat.add_sub_cancel]
    generalize faceOk g (n + 1) (k + 1) = t
    unfold Grid.node at *
    simp only [faceOk, v0, v1, v2, v3, v4, Bool.and_true, Bool.and_false, Bool.false_and]
    cases t <;> simp [innerType]

theorem type_right_a {g : Grid P} {n k : Nat} (hn : n + 1 < g.numN) (hm : k + 2 < g.numM) (v0 : valid (g.node n (k + 1)) = true)
    (v1 : valid (g.node (n + 1) (k + 1)) = true) (v2 : valid (g.node n k) = true) (v3 : valid (g.node (n + 1) k) = true)
    (v4 : valid (g.node n (k + 2)) = false) :
    nodeType g n (k + 1) = .up ∨ nodeType g n (k + 1) = .upperLeft ∨ nodeType g n (k + 1) = .upperRight := by
  have e0 : ¬ k + 1 = g.numM - 1 := by omega
  by_cases h0 : n = 0
  · subst h0
    unfold Grid.node at *
    unfold nodeType
    simp only [Nat.zero_add] at *
    simp [e0, v0, v2, v4]
  · rw [type_inner h0 (by omega) (by omega) e0 v0]
    obtain ⟨i, rfl⟩ : ∃ i, n = i + 1 := ⟨n - 1, by omega⟩
    unfold Grid.node at *
    simp only [faceOk, v0, v1, v2, v3, v4, Nat.add_sub_cancel, Bool.and_true, Bool.and_false, Bool.false_and]
    generalize (valid (g.cell _ _) && valid (g.cell _ _)) = t
    cases t <;> simp [innerType]

theorem type_right_b {g : Grid P} {n k : Nat} (hn : n + 1 < g.numN) (hm : k + 2 < g.numM) (v0 : valid (g.node (n + 1) (k + 1)) = true)
    (v1 : valid (g.node n (k + 1)) = true) (v2 : valid (g.node n k) = true) (v3 : valid (g.node (n + 1) k) = true)
    (v4 : valid (g.node (n + 1) (k + 2)) = false) : nodeType g (n + 1) (k + 1) = .up ∨ nodeType g (n + 1) (k + 1) = .upperRight := by
  have e0 : ¬ k + 1 = g.numM - 1 := by omega
  by_cases h0 : n + 1 = g.numN - 1
  · unfold Grid.node at *
    unfold nodeType
    simp only [← h0]
    simp [e0, v0, v3, v4]
  · rw [type_inner (by omega) h0 (by omega) e0 v0]
    simp only [Nat.add_sub_cancel]
    generalize faceOk g (n + 1) k = t
    unfold Grid.node at *
    simp only [faceOk, v0, v1, v2, v3, v4, Bool.and_true, Bool.and_false, Bool.false_and]
    cases t <;> simp [innerType]

theorem type_bottom_a {g : Grid P} {k m : Nat} (hn : k + 2 < g.numN) (hm : m + 1 < g.numM) (v0 : valid (g.node (k + 1) m) = true)
    (v1 : valid (g.node (k + 1) (m + 1)) = true) (v2 : valid (g.node (k + 2) m) = true) (v3 : valid (g.node (k + 2) (m + 1)) = true)
    (v4 : valid (g.node k m) = false) : nodeType g (k + 1) m = .left ∨ nodeType g (k + 1) m = .bottomLeft := by
  have e0 : ¬ k + 1 = g.numN - 1 := by omega
  by_cases h0 : m = 0
  · subst h0
    unfold Grid.node at *
    unfold nodeType
    simp only [Nat.zero_add] at *
    simp [e0, v0, v4]
  · rw [type_inner (by omega) e0 h0 (by omega) v0]
    obtain ⟨i, rfl⟩ : ∃ i, m = i + 1 := ⟨m - 1, by omega⟩
    unfold Grid.node at *
    simp only [faceOk, v0, v1, v2, v3, v4, Nat.add_sub_cancel, Bool.and_true, Bool.and_false, Bool.false_and]
    generalize (valid (g.cell _ _) && valid (g.cell _ _)) = t
    cases t <;> simp [innerType]

theorem type_bottom_b {g : Grid P} {k m : Nat} (hn : k + 2 < g.numN) (hm : m + 1 < g.numM) (v0 : valid (g.node (k + 1) (m + 1)) = true)
    (v1 : valid (g.node (k + 1) m) = true) (v2 : valid (g.node (k + 2) m) = true) (v3 : valid (g.node (k + 2) (m + 1)) = true)
    (v4 : valid (g.node k (m + 1)) = false) : nodeType g (k + 1) (m + 1) = .left ∨ nodeType g (k + 1) (m + 1) = .upperLeft := by
  have e0 : ¬ k + 1 = g.numN - 1 := by omega
  by_cases h0 : m + 1 = g.numM - 1
  · unfold Grid.node at *
    unfold nodeType
    simp only [← h0]
    simp [e0, v0, v4]
  · rw [type_inner (by omega) e0 (by omega) h0 v0]
    simp only [Nat.add_sub_cancel]
    generalize faceOk g (k + 1) (m + 1) = t
    unfold Grid.node at *
    simp only [faceOk, v0, v1, v2, v3, v4, Bool.and_true, Bool.and_false, Bool.false_and]
    cases t <;> simp [innerType]

theorem type_top_a {g : Grid P} {k m : Nat} (hn : k + 2 < g.numN) (hm : m + 1 < g.numM) (v0 : valid (g.node (k + 1) m) = true)
    (v1 : valid (g.node (k + 1) (m + 1)) = true) (v2 : valid (g.node k m) = true) (v3 : valid (g.node k (m + 1)) = true)
    (v4 : valid (g.node (k + 2) m) = false) : nodeType g (k + 1) m = .right ∨ nodeType g (k + 1) m = .bottomRight := by
  have e0 : ¬ k + 1 = g.numN - 1 := by omega
  by_cases h0 : m = 0
  · subst h0
    unfold Grid.node at *
    unfold nodeType
    simp only [Nat.zero_add] at *
    simp [e0, v0, v2, v4]
  · rw [type_inner (by omega) e0 h0 (by omega) v0]
    obtain ⟨i, rfl⟩ : ∃ i, m = i + 1 := ⟨m - 1, by omega⟩
    unfold Grid.node at *
    simp only [faceOk, v0, v1, v2, v3, v4, Nat.add_sub_cancel, Bool.and_true, Bool.and_false, Bool.false_and]
    generalize (valid (g.cell _ _) && valid (g.cell _ _)) = t
    cases t <;> simp [innerType]

theorem type_top_b {g : Grid P} {k m : Nat} (hn : k + 2 < g.numN) (hm : m + 1 < g.numM) (v0 : valid (g.node (k + 1) (m + 1)) = true)
    (v1 : valid (g.node (k + 1) m) = true) (v2 : valid (g.node k m) = true) (v3 : valid (g.node k (m + 1)) = true)
    (v4 : valid (g.node (k + 2) (m + 1)) = false) : nodeType g (k + 1) (m + 1) = .right ∨ nodeType g (k + 1) (m + 1) = .upperRight := by
  have e0 : ¬ k + 1 = g.numN - 1 := by omega
  by_cases h0 : m + 1 = g.numM - 1
  · unfold Grid.node at *
    unfold nodeType
    simp only [← h0]
    simp [e0, v0, v3, v4]
  · rw [type_inner (by omega) e0 (by omega) h0 v0]
    simp only [Nat.add_sub_cancel]
    generalize faceOk g k (m + 1) = t
    unfold Grid.node at *
    simp only [faceOk, v0, v1, v2, v3, v4, Bool.and_true, Bool.and_false, Bool.false_and]
    cases t <;> simp [innerType]

theorem types_inside {s : Side} {g : Grid P} {a b a' b' c d : Nat × Nat} (hf : HasFace s g a b a' b') (hc : Beside s a c)
    (hd : Beside s b d) (inC : In g c) (inD : In g d) (vc : valid (at' g c) = false) (vd : valid (at' g d) = false) :
    boundaryType g a b = .ok s := by
  obtain ⟨e, ia, ib, ba, bb, ia', ib', va, vb, va', vb'⟩ := hf
  obtain ⟨an, am⟩ := a
  obtain ⟨bn, bm⟩ := b
  obtain ⟨an', am'⟩ := a'
  obtain ⟨bn', bm'⟩ := b'
  obtain ⟨cn, cm⟩ := c
  obtain ⟨dn, dm⟩ := d
  cases s <;> simp only [Edge, Beside, In, at', Prod.mk.injEq] at *
  case left =>
    obtain ⟨e1, e2⟩ := e
    obtain ⟨c1, c2⟩ := hc
    obtain ⟨d1, d2⟩ := hd
    obtain ⟨f1, f2⟩ := ba
    obtain ⟨h1, h2⟩ := bb
    obtain rfl : cn = an := by omega
    obtain rfl : am = cm + 1 := by omega
    obtain rfl : bn = cn + 1 := by omega
    obtain rfl : bm = cm + 1 := by omega
    obtain rfl : dn = cn + 1 := by omega
    obtain rfl : dm = cm := by omega
    obtain rfl : an' = cn := by omega
    obtain rfl : am' = dm + 2 := by omega
    obtain rfl : bn' = an' + 1 := by omega
    obtain rfl : bm' = dm + 2 := by omega
    have r1 := getNode_ok ia'.1 ia'.2
    have r2 := getNode_ok ib'.1 ib'.2
    have k : dm + 1 + 1 < g.cols := by have := ia'.2; unfold Grid.numM at this; omega
    rcases type_left_a (by omega) ia'.2 va vb va' vb' vc with t1 | t1 <;>
      rcases type_left_b (by omega) ia'.2 vb va va' vb' vd with t2 | t2 <;>
      simp [boundaryType, t1, t2, r1, r2, k, va', vb']
  case right =>
    obtain ⟨e1, e2⟩ := e
    obtain ⟨c1, c2⟩ := hc
    obtain ⟨d1, d2⟩ := hd
    obtain ⟨f1, f2⟩ := ba
    obtain ⟨h1, h2⟩ := bb
    obtain rfl : an' = an := by omega
    obtain rfl : am = am' + 1 := by omega
    obtain rfl : bn = an' + 1 := by omega
    obtain rfl : bm = am' + 1 := by omega
    obtain rfl : cn = an' := by omega
    obtain rfl : cm = am' + 2 := by omega
    obtain rfl : dn = cn + 1 := by omega
    obtain rfl : dm = am' + 2 := by omega
    obtain rfl : bn' = cn + 1 := by omega
    obtain rfl : bm' = am' := by omega
    have r1 := getNode_ok inC.1 inC.2
    have r2 := getNode_ok inD.1 inD.2
    have k : bm' + 1 + 1 < g.cols := by have := inC.2; unfold Grid.numM at this; omega
    rcases type_right_a (by omega) inC.2 va vb va' vb' vc with t1 | t1 | t1 <;>
      rcases type_right_b (by omega) inC.2 vb va va' vb' vd with t2 | t2 <;>
      simp [boundaryType, t1, t2, r1, r2, k, vc, vd]
  case bottom =>
    obtain ⟨e1, e2⟩ := e
    obtain ⟨c1, c2⟩ := hc
    obtain ⟨d1, d2⟩ := hd
    obtain ⟨f1, f2⟩ := ba
    obtain ⟨h1, h2⟩ := bb
    obtain rfl : cm = am := by omega
    obtain rfl : an = cn + 1 := by omega
    obtain rfl : bm = cm + 1 := by omega
    obtain rfl : bn = cn + 1 := by omega
    obtain rfl : dm = cm + 1 := by omega
    obtain rfl : dn = cn := by omega
    obtain rfl : am' = cm := by omega
    obtain rfl : an' = dn + 2 := by omega
    obtain rfl : bm' = am' + 1 := by omega
    obtain rfl : bn' = dn + 2 := by omega
    have r1 := getNode_ok ia'.1 ia'.2
    have r2 := getNode_ok ib'.1 ib'.2
    have k : dn + 1 + 1 < g.rows := by have := ia'.1; unfold Grid.numN at this; omega
    rcases type_bottom_a ia'.1 (by omega) va vb va' vb' vc with t1 | t1 <;>
      rcases type_bottom_b ia'.1 (by omega) vb va va' vb' vd with t2 | t2 <;>
      simp [boundaryType, t1, t2, r1, r2, k, va', vb']
  case top =>
    obtain ⟨e1, e2⟩ := e
    obtain ⟨c1, c2⟩ := hc
    obtain ⟨d1, d2⟩ := hd
    obtain ⟨f1, f2⟩ := ba
    obtain ⟨h1, h2⟩ := bb
    obtain rfl : am' = am := by omega
    obtain rfl : an = an' + 1 := by omega
    obtain rfl : bm = am' + 1 := by omega
    obtain rfl : bn = an' + 1 := by omega
    obtain rfl : cm = am' := by omega
    obtain rfl : cn = an' + 2 := by omega
    obtain rfl : dm = cm + 1 := by omega
    obtain rfl : dn = an' + 2 := by omega
    obtain rfl : bm' = cm + 1 := by omega
    obtain rfl : bn' = an' := by omega
    have r1 := getNode_ok inC.1 inC.2
    have r2 := getNode_ok inD.1 inD.2
    have k : bn' + 1 + 1 < g.rows := by have := inC.1; unfold Grid.numN at this; omega
    rcases type_top_a inC.1 (by omega) va vb va' vb' vc with t1 | t1 <;>
      rcases type_top_b inC.1 (by omega) vb va va' vb' vd with t2 | t2 <;>
      simp [boundaryType, t1, t2, r1, r2, k, vc, vd]

/-! ## Moving two nodes -/

/-- The grid with one node replaced. -/
def setAt (g : Grid P) (v : Nat × Nat) (p : P) : Grid P := { g with cell := upd g.cell (v.1 + g.sn) (v.2 + g.sm) p }

omit [PointLike P] in
theorem setAt_shape (g : Grid P) (v : Nat × Nat) (p : P) : SameShape g (setAt g v p) := ⟨rfl, rfl, rfl, rfl, rfl, rfl⟩

omit [PointLike P] in
theorem setAt_node (g : Grid P) (v : Nat × Nat) (p : P) (n m : Nat) :
    (setAt g v p).node n m = if (n, m) = v then p else g.node n m := by
  show upd g.cell (v.1 + g.sn) (v.2 + g.sm) p (n + g.sn) (m + g.sm) = _
  unfold upd Grid.node
  obtain ⟨v1, v2⟩ := v
  by_cases c : n = v1 ∧ m = v2
  · rw [if_pos (by simp only; omega), if_pos (by rw [c.1, c.2])]
  · rw [if_neg (by simp only; omega), if_neg (by simp only [Prod.mk.injEq]; exact c)]

omit [PointLike P] in
theorem setAt_back (g : Grid P) (v : Nat × Nat) (p : P) : setAt (setAt g v p) v (at' g v) = g := by
  refine Grid.ext' ⟨rfl, rfl, rfl, rfl, rfl, rfl⟩ fun i j => ?_
  show upd (upd g.cell (v.1 + g.sn) (v.2 + g.sm) p) (v.1 + g.sn) (v.2 + g.sm) (at' g v) i j = g.cell i j
  unfold upd
  by_cases c : i = v.1 + g.sn ∧ j = v.2 + g.sm
  · rw [if_pos c, c.1, c.2]; rfl
  · rw [if_neg c, if_neg c]

/-- Two nodes replaced. -/
def setTwo (g : Grid P) (c d : Nat × Nat) (p q : P) : Grid P := setAt (setAt g c p) d q

/-- The undo action of replacing two nodes. -/
def actTwo (g : Grid P) (line : Option Side) (c d : Nat × Nat) (p q : P) : FaceAct P :=
  ⟨line, .reset c.1 c.2 (at' g c) p false, .reset d.1 d.2 (at' (setAt g c p) d) q false⟩

omit [PointLike P] in
theorem setTwo_shape (g : Grid P) (c d : Nat × Nat) (p q : P) : SameShape g (setTwo g c d p q) :=
  (setAt_shape g c p).trans (setAt_shape _ d q)

omit [PointLike P] in
theorem setTwo_node (g : Grid P) (c d : Nat × Nat) (p q : P) (n m : Nat) :
    (setTwo g c d p q).node n m = if (n, m) = d then q else if (n, m) = c then p else g.node n m := by
  unfold setTwo
  rw [setAt_node, setAt_node]

omit [PointLike P] in
theorem setNode_at {g : Grid P} {v : Nat × Nat} (hv : In g v) (p : P) : setNode g v.1 v.2 p = .ok (setAt g v p) := setNode_ok p hv.1 hv.2

omit [PointLike P] in
theorem move_at {g : Grid P} {v : Nat × Nat} (hv : In g v) (hN : g.numN ≤ missing) (hM : g.numM ≤ missing) (p : P) :
    moveNode g v.1 v.2 p = .ok (setAt g v p, .reset v.1 v.2 (at' g v) p false) := by
  unfold moveNode
  rw [if_neg (by have := hv.1; have := hv.2; omega), getNode_ok hv.1 hv.2, Res.ok_bind, setNode_at hv]
  rfl

theorem reset_restore {g : Grid P} {v : Nat × Nat} (hv : In g v) (i u : P) :
    (Act.reset v.1 v.2 i u false).restore g = .ok (.reset v.1 v.2 i u false, setAt g v i) := by
  simp only [Act.restore, resetNode]
  rw [setNode_at hv]
  rfl

theorem reset_commit {g : Grid P} {v : Nat × Nat} (hv : In g v) (i u : P) :
    (Act.reset v.1 v.2 i u false).commit g = .ok (.reset v.1 v.2 i u false, setAt g v u) := by
  simp only [Act.commit, resetNode]
  rw [setNode_at hv]
  rfl

omit [PointLike P] in
theorem In.setAt {g : Grid P} {v w : Nat × Nat} {p : P} (hv : In g v) : In (setAt g w p) v := hv

theorem restore_two {g : Grid P} {c d : Nat × Nat} (hc : In g c) (hd : In g d) (p q : P) :
    (actTwo g none c d p q).restore (setTwo g c d p q) = .ok (actTwo g none c d p q, g) := by
  unfold FaceAct.restore actTwo setTwo
  simp only
  rw [reset_restore (hd.setAt.setAt), Res.ok_bind, setAt_back, reset_restore (v := c) hc.setAt, Res.ok_bind, setAt_back]

theorem restore_two_line {g : Grid P} {c d : Nat × Nat} (hc : In g c) (hd : In g d) (p q : P) (side : Side) {g' : Grid P}
    (hh : hideLine g side = .ok g') :
    (actTwo g (some side) c d p q).restore (setTwo g c d p q) = .ok (actTwo g (some side) c d p q, g') := by
  unfold FaceAct.restore actTwo setTwo
  simp only
  rw [reset_restore (hd.setAt.setAt), Res.ok_bind, setAt_back, reset_restore (v := c) hc.setAt, Res.ok_bind, setAt_back, hh]
  rfl

theorem commit_two {g : Grid P} {c d : Nat × Nat} (hc : In g c) (hd : In g d) (p q : P) (line : Option Side) :
    (actTwo g line c d p q).commitNodes g = .ok (actTwo g line c d p q, setTwo g c d p q) := by
  unfold FaceAct.commitNodes actTwo setTwo
  simp only
  rw [reset_commit hc, Res.ok_bind, reset_commit hd.setAt]
  rfl

/-- The two new nodes form a face with two valid nodes: no node becomes loose. -/
theorem setTwo_noLoose {s : Side} {g : Grid P} {a b c d : Nat × Nat} {p q : P} (hl : NoLoose g) (he : Edge s a b)
    (ia : In g a) (ib : In g b) (hc : Beside s a c) (hd : Beside s b d) (ic : In g c) (id : In g d)
    (va : valid (at' g a) = true) (vb : valid (at' g b) = true) (vp : valid p = true) (vq : valid q = true) :
    NoLoose (setTwo g c d p q) := by
  have mono : ∀ n m, valid (g.node n m) = true → valid ((setTwo g c d p q).node n m) = true := by
    intro n m h
    rw [setTwo_node]
    split
    · exact vq
    · split
      · exact vp
      · exact h
  have vc : valid ((setTwo g c d p q).node c.1 c.2) = true := by
    rw [setTwo_node]
    split
    · exact vq
    · rw [if_pos rfl]; exact vp
  have vd : valid ((setTwo g c d p q).node d.1 d.2) = true := by
    rw [setTwo_node, if_pos rfl]; exact vq
  have va' := mono a.1 a.2 va
  have vb' := mono b.1 b.2 vb
  have hface : ∃ i j, i + 1 < g.numN ∧ j + 1 < g.numM ∧ faceValid (setTwo g c d p q) i j = true ∧ Corner c.1 c.2 i j ∧ Corner d.1 d.2 i j := by
    generalize setTwo g c d p q = h at *
    obtain ⟨an, am⟩ := a
    obtain ⟨bn, bm⟩ := b
    obtain ⟨cn, cm⟩ := c
    obtain ⟨dn, dm⟩ := d
    cases s <;> simp only [Edge, Beside, In, Prod.mk.injEq] at *
    case left =>
      obtain rfl : cn = an := by omega
      obtain rfl : am = cm + 1 := by omega
      obtain rfl : bn = cn + 1 := by omega
      obtain rfl : bm = cm + 1 := by omega
      obtain rfl : dn = cn + 1 := by omega
      obtain rfl : dm = cm := by omega
      exact ⟨cn, dm, by omega, by omega, by unfold faceValid; rw [vc, va', vd, vb']; rfl, ⟨by omega, by omega⟩, ⟨by omega, by omega⟩⟩
    case right =>
      obtain rfl : cn = an := by omega
      obtain rfl : cm = am + 1 := by omega
      obtain rfl : bn = cn + 1 := by omega
      obtain rfl : bm = am := by omega
      obtain rfl : dn = cn + 1 := by omega
      obtain rfl : dm = bm + 1 := by omega
      exact ⟨cn, bm, by omega, by omega, by unfold faceValid; rw [vc, va', vd, vb']; rfl, ⟨by omega, by omega⟩, ⟨by omega, by omega⟩⟩
    case bottom =>
      obtain rfl : cm = am := by omega
      obtain rfl : an = cn + 1 := by omega
      obtain rfl : bm = cm + 1 := by omega
      obtain rfl : bn = cn + 1 := by omega
      obtain rfl : dm = cm + 1 := by omega
      obtain rfl : dn = cn := by omega
      exact ⟨dn, cm, by omega, by omega, by unfold faceValid; rw [vc, va', vd, vb']; rfl, ⟨by omega, by omega⟩, ⟨by omega, by omega⟩⟩
    case top =>
      obtain rfl : cm = am := by omega
      obtain rfl : cn = an + 1 := by omega
      obtain rfl : bm = cm + 1 := by omega
      obtain rfl : bn = an := by omega
      obtain rfl : dm = cm + 1 := by omega
      obtain rfl : dn = bn + 1 := by omega
      exact ⟨bn, cm, by omega, by omega, by unfold faceValid; rw [vc, va', vd, vb']; rfl, ⟨by omega, by omega⟩, ⟨by omega, by omega⟩⟩
  obtain ⟨i, j, h1, h2, h3, h4, h5⟩ := hface
  intro n m hn hm hv
  rw [(setTwo_shape ..).numN] at hn
  rw [(setTwo_shape ..).numM] at hm
  by_cases hcd : (n, m) = d ∨ (n, m) = c
  · refine ⟨i, j, by rw [(setTwo_shape ..).numN]; exact h1, by rw [(setTwo_shape ..).numM]; exact h2, h3, ?_⟩
    rcases hcd with rfl | rfl
    · exact h5
    · exact h4
  · rw [setTwo_node, if_neg (fun e => hcd (.inl e)), if_neg (fun e => hcd (.inr e))] at hv
    obtain ⟨k, l, w1, w2, w3, w4⟩ := hl n m hn hm hv
    refine ⟨k, l, by rw [(setTwo_shape ..).numN]; exact w1, by rw [(setTwo_shape ..).numM]; exact w2, ?_, w4⟩
    unfold faceValid at *
    simp only [Bool.and_eq_true] at *
    exact ⟨⟨⟨mono _ _ w3.1.1.1, mono _ _ w3.1.1.2⟩, mono _ _ w3.1.2⟩, mono _ _ w3.2⟩

end

/-! ## The whole operation -/

variable {K : Type} [Field K] [LinearOrder K]

omit [LinearOrder K] in
theorem newPosition_ok {g : Grid (Pt K)} {s : Side} {v w : Nat × Nat} (hv : In g v) (hw : In g w) (e : behind s v = w) :
    newPosition g s v = .ok (image (at' g v) (at' g w)) := by
  unfold newPosition
  rw [e, getNode_ok hv.1 hv.2, Res.ok_bind, getNode_ok hw.1 hw.2, Res.ok_bind]
  congr 1
  unfold image at' sub scale
  congr 1 <;> ring

theorem insert_general {g h : Grid (Pt K)} {s : Side} {line : Option Side} {a b a' b' c d : Nat × Nat} (hg : WF g) (hl : NoLoose g)
    (hb : boundaryType g a b = .ok s) (ia : In g a) (ib : In g b) (ia' : In g a') (ib' : In g b') (ea : behind s a = a')
    (eb : behind s b = b') (hadd : addGridLine g a b = .ok (h, line)) (hc : ahead line.isSome s a = c) (hd : ahead line.isSome s b = d)
    (ic : In h c) (id : In h d) (hN : h.numN ≤ missing) (hM : h.numM ≤ missing) (hh : WF h)
    (hl' : NoLoose (setTwo h c d (image (at' g a) (at' g a')) (image (at' g b) (at' g b')))) :
    insertFace g a b = .ok ⟨setTwo h c d (image (at' g a) (at' g a')) (image (at' g b) (at' g b')),
      some (actTwo h line c d (image (at' g a) (at' g a')) (image (at' g b) (at' g b')))⟩ := by
  have hv : g.isValid = true := (isValid_iff g).2 ⟨by have := hg.two_le_numM; omega, by have := hg.two_le_numN; omega⟩
  unfold insertFace
  rw [hv]
  simp only [Bool.not_true, Bool.false_eq_true, if_false]
  rw [clean_of_no_loose g hg hl, Res.ok_bind]
  have e : addEdge g a b = .ok (setTwo h c d (image (at' g a) (at' g a')) (image (at' g b) (at' g b')),
      actTwo h line c d (image (at' g a) (at' g a')) (image (at' g b) (at' g b'))) := by
    unfold addEdge
    rw [hb, Res.ok_bind, newPosition_ok ia ia' ea, Res.ok_bind, newPosition_ok ib ib' eb, Res.ok_bind, hadd, Res.ok_bind]
    simp only [hc, hd]
    rw [move_at ic hN hM, Res.ok_bind, move_at (g := setAt h c _) id.setAt hN hM]
    rfl
  rw [e]
  simp only
  rw [clean_of_no_loose _ ((setTwo_shape ..).wf hh) hl']
  rfl

end Verif.InsertFace
