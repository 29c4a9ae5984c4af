import Verif.SplitRow.UsedLemmas
import Verif.Mesh.History
/-!
# Lemmas: the calls that return, the undo actions, and the row with what is known of it
-/
namespace Verif.SplitRow
open Verif.Mesh Verif.Faces
open Verif.Polygons (Pt)
open Verif.Flip (Exact Linked)

variable {numEdges : Nat} {edges : List Edge} {m m' : Mesh Pt} {s : State} {mid : Pt → Pt → Pt}

/-! ## The walks return -/

theorem walk_returns_arm (t : Tab numEdges edges s) (first : Nat) {e f e1 f1 : Nat} {es fs : List Nat} (h : Trail s e f es fs e1 f1)
    (hq : ¬ Quadrilateral s f1) (hk : Known s f) (k : Nat) (hl : fs.length < k) : ∃ r, walk numEdges s first k f e = .ok r := by
  induction h generalizing k with
  | nil e f =>
    obtain ⟨k, rfl⟩ : ∃ k', k = k' + 1 := ⟨k - 1, by simp at hl; omega⟩
    refine ⟨([], e, false), ?_⟩
    rw [walk, isQuad_not hk hq, Res.ok_bind]
    rfl
  | @step e f e' g es fs e1 f1 h a tr ih =>
    obtain ⟨k, rfl⟩ : ∃ k', k = k' + 1 := ⟨k - 1, by simp at hl; omega⟩
    rw [walk, isQuad_of t h.1, Res.ok_bind]
    simp only [Bool.not_true]
    rw [if_neg Bool.false_ne_true, nextEdge_ok t h a, Res.ok_bind]
    obtain ⟨r, hr⟩ := ih hq (a.known t (h.symm t).borders).1 k (by simp at hl; omega)
    split
    · exact ⟨_, rfl⟩
    · rw [hr]
      exact ⟨_, rfl⟩

theorem walk_returns_meet (t : Tab numEdges edges s) (first : Nat) {e f e1 : Nat} {es fs : List Nat} (h : Trail s e f es fs e1 first)
    (hne : fs ≠ []) (k : Nat) (hl : fs.length ≤ k) : ∃ r, walk numEdges s first k f e = .ok r := by
  induction h generalizing k with
  | nil e f => exact absurd rfl hne
  | @step e f e' g es fs e1 f1 h a tr ih =>
    obtain ⟨k, rfl⟩ : ∃ k', k = k' + 1 := ⟨k - 1, by simp at hl; omega⟩
    rw [walk, isQuad_of t h.1, Res.ok_bind]
    simp only [Bool.not_true]
    rw [if_neg Bool.false_ne_true, nextEdge_ok t h a, Res.ok_bind]
    by_cases hg : g = f1
    · rw [if_pos hg]
      exact ⟨_, rfl⟩
    · rw [if_neg hg]
      have hfs : fs ≠ [] := by
        rintro rfl
        cases tr
        exact hg rfl
      obtain ⟨r, hr⟩ := ih hfs k (by simp at hl; omega)
      rw [hr]
      exact ⟨_, rfl⟩

/-- A ring read backwards is a ring. -/
theorem Ring.reverse (t : Tab numEdges edges s) {e f g : Nat} {es fs : List Nat} (h : Ring s e f es fs) (hb : Borders s f e) (a : Across s e f g) :
    ∃ es', Ring s e g es' fs.reverse ∧ e :: es' = (e :: es).reverse := by
  obtain ⟨tr, hne⟩ := h
  obtain ⟨es', k, h1, h2, h3⟩ := tr.reverse t a
  obtain rfl := Across.unique t hb h3.symm a
  exact ⟨es', ⟨h2, by simpa using hne⟩, h1⟩

/-- The last face of a ring is the one before its first edge. -/
theorem Ring.last (t : Tab numEdges edges s) {e f g : Nat} {es fs : List Nat} (h : Ring s e f es fs) (hb : Borders s f e) (a : Across s e f g) :
    fs.getLast? = some g ∧ Quadrilateral s g := by
  obtain ⟨l, h1, h2, e', h3⟩ := h.1.behind h.2
  obtain rfl := Across.unique t hb h2.symm a
  exact ⟨h1, h3.1⟩

theorem collectSide_returns (t : Tab numEdges edges s) {e p1 p2 : Nat} (hp : s.edgesFaces[e]? = some (p1, p2)) (hb : Borders s p1 e) (side : Bool) :
    ∃ r, collectSide numEdges s e side = .ok r := by
  obtain ⟨p, g, k1, _, k3, k4, k5, k6, k7, _⟩ := Across.of t hb
  rw [hp] at k1
  obtain rfl := Option.some.inj k1
  have hg : p2 = g := by
    rcases k7 with h | h
    · exact (Prod.mk.inj h).2
    · exact absurd (Prod.mk.inj h).1.symm k6
  subst hg
  have hkn := Borders.known t hb
  have hm : p1 ≠ missing := by have := t.facesFit; omega
  have hmore := t.more
  have key : ∃ r, walk numEdges s p1 (2 * numEdges + 2) (if side then p2 else p1) e = .ok r := by
    cases side with
    | false =>
      simp only [Bool.false_eq_true, if_false]
      obtain ⟨es, fs, h1, h2⟩ := arm_or_ring t (e := e) (f := p1) (fun _ => hb)
      rcases h1 with ⟨e1, f1, h3, h4⟩ | ⟨h3, h4⟩
      · exact walk_returns_arm t _ h3 h4 (Or.inr hkn) _ (by omega)
      · exact walk_returns_meet t _ h3 h4 _ (by omega)
    | true =>
      simp only [if_true]
      obtain ⟨es, fs, h1, h2⟩ := arm_or_ring t (e := e) (f := p2) (fun hq => k5.resolve_left (t.ne_missing hq))
      rcases h1 with ⟨e1, f1, h3, h4⟩ | hr
      · exact walk_returns_arm t _ h3 h4 k4 _ (by omega)
      · have hne := hr.2
        have hq2 : Quadrilateral s p2 := by
          obtain ⟨fs', rfl⟩ := hr.1.head hne
          exact hr.1.quads _ List.mem_cons_self
        have hb2 := k5.resolve_left (t.ne_missing hq2)
        obtain ⟨hl, _⟩ := hr.last t hb2 k3.symm
        have hlen := hr.1.lengths
        have hpos : 0 < fs.length := List.length_pos_iff.2 hne
        obtain ⟨u, hu⟩ : ∃ u, (fs.zip (e :: es))[fs.length - 1]? = some (p1, u) := by
          rw [List.getLast?_eq_getElem?] at hl
          have hz : fs.length - 1 < (fs.zip (e :: es)).length := by simp; omega
          have hget := List.getElem?_eq_getElem hz
          rw [List.getElem_zip] at hget
          have : fs[fs.length - 1] = p1 := by
            rw [List.getElem?_eq_getElem (by omega)] at hl
            exact Option.some.inj hl
          rw [this] at hget
          exact ⟨_, hget⟩
        have hpre := hr.1.prefix hu
        refine walk_returns_meet t _ hpre ?_ _ (by rw [List.length_take]; omega)
        intro hnil
        have h0 : fs.length - 1 = 0 := by
          have := congrArg List.length hnil
          rw [List.length_take] at this
          simp at this
          omega
        rw [h0] at hu
        obtain ⟨fs', rfl⟩ := hr.1.head hne
        simp at hu
        exact k6 hu.1
  obtain ⟨r, hr⟩ := key
  unfold collectSide
  rw [vget_eq_ok.2 hp, Res.ok_bind]
  simp only [if_pos hm]
  rw [hr]
  exact ⟨_, rfl⟩

/-! ## All changes are recorded -/

theorem connect_good {w w' : Work Pt} (hg : Good m w.acts w.mesh) {a b : Nat} (h : connect a b w = .ok w') : Good m w'.acts w'.mesh := by
  unfold connect at h
  obtain ⟨r, h1, h2⟩ := Res.bind_eq_ok.1 h
  obtain rfl := Res.ok.inj h2
  exact hg.trans (connectNodesU_good h1)

theorem fork_good {w w' : Work Pt} (hg : Good m w.acts w.mesh) {p : Edge} {x : Nat} (h : fork p x w = .ok w') : Good m w'.acts w'.mesh := by
  unfold fork at h
  obtain ⟨w1, h1, h2⟩ := Res.bind_eq_ok.1 h
  exact connect_good (connect_good hg h1) h2

theorem splitEdge_good {w : Work Pt} {r : Nat × Work Pt} (hg : Good m w.acts w.mesh) {e : Nat} (h : splitEdge mid e w = .ok r) : Good m r.2.acts r.2.mesh := by
  unfold splitEdge at h
  simp only [Res.bind_eq_ok] at h
  obtain ⟨p, _, a, _, b, _, q, h1, w1, h2, w2, h3, h4⟩ := h
  obtain rfl := Res.ok.inj h4
  have h5 := connect_good (connect_good (w := ⟨q.2, w.acts ++ q.1, w.del⟩) (hg.trans (insertNodeU_good h1)) h2) h3
  exact h5

theorem splitBoth_good {w : Work Pt} {r : (Nat × Nat) × Work Pt} (hg : Good m w.acts w.mesh) {f e : Nat} (h : splitBoth mid s f e w = .ok r) :
    Good m r.2.acts r.2.mesh := by
  unfold splitBoth at h
  simp only [Res.bind_eq_ok] at h
  obtain ⟨o, _, x, h1, y, h2, w1, h3, h4⟩ := h
  obtain rfl := Res.ok.inj h4
  exact connect_good (splitEdge_good (splitEdge_good hg h1) h2) h3

theorem splitElement_good {w : Work Pt} {r : Nat × Work Pt} (hg : Good m w.acts w.mesh) {f e x : Nat} (h : splitElement mid s f e x w = .ok r) :
    Good m r.2.acts r.2.mesh := by
  unfold splitElement at h
  simp only [Res.bind_eq_ok] at h
  obtain ⟨p, _, fs, _, next, _, go, _, come, _, h⟩ := h
  split at h
  · split at h
    · simp only [Res.bind_eq_ok] at h
      obtain ⟨q, h1, h2⟩ := h
      obtain rfl := Res.ok.inj h2
      exact splitBoth_good hg h1
    · simp only [Res.bind_eq_ok] at h
      obtain ⟨o, _, q, _, y, h1, w1, h2, h3⟩ := h
      obtain rfl := Res.ok.inj h3
      exact fork_good (splitEdge_good hg h1) h2
  · split at h
    · split at h
      · simp only [Res.bind_eq_ok] at h
        obtain ⟨o, _, y, h1, w1, h2, h3⟩ := h
        obtain rfl := Res.ok.inj h3
        exact connect_good (splitEdge_good hg h1) h2
      · simp only [Res.bind_eq_ok] at h
        obtain ⟨o, _, q, _, w1, h2, h3⟩ := h
        obtain rfl := Res.ok.inj h3
        exact fork_good hg h2
    · split at h
      · simp only [Res.bind_eq_ok] at h
        obtain ⟨o, _, y, h1, w1, h2, h3⟩ := h
        obtain rfl := Res.ok.inj h3
        exact fork_good (splitEdge_good hg h1) h2
      · obtain rfl := Res.ok.inj h
        exact hg

theorem splitFrom_good {loop : Bool} {first : Nat} {all : List Nat} {i x : Nat} {fs : List Nat} {w w' : Work Pt} (hg : Good m w.acts w.mesh)
    (h : splitFrom mid s loop first all i x fs w = .ok w') : Good m w'.acts w'.mesh := by
  induction fs generalizing i x w with
  | nil =>
    rw [splitFrom] at h
    obtain rfl := Res.ok.inj h
    exact hg
  | cons f fs ih =>
    rw [splitFrom] at h
    split at h
    · exact connect_good hg h
    · simp only [Res.bind_eq_ok] at h
      obtain ⟨e, _, r, h1, h2⟩ := h
      exact ih (splitElement_good hg h1) h2

theorem splitAlong_good {elems row : List Nat} {w w' : Work Pt} (hg : Good m w.acts w.mesh) (h : splitAlong mid s elems row w = .ok w') :
    Good m w'.acts w'.mesh := by
  unfold splitAlong at h
  split at h
  · split at h
    · split at h
      · obtain rfl := Res.ok.inj h
        exact hg
      · simp only [Res.bind_eq_ok] at h
        obtain ⟨r, h1, h2⟩ := h
        exact splitFrom_good (splitBoth_good hg h1) h2
    · exact splitFrom_good hg h
  · simp at h

theorem split_good {e : Nat} {acts : List (Act Pt)} (h : split mid s m e = .ok (some (acts, m'))) : Good m acts m' := by
  unfold split at h
  split at h
  · simp at h
  · split at h
    · simp at h
    · obtain ⟨p, _, h⟩ := Res.bind_eq_ok.1 h
      split at h
      · simp at h
      · obtain ⟨b, _, h⟩ := Res.bind_eq_ok.1 h
        split at h
        · simp at h
        · obtain ⟨c, _, h⟩ := Res.bind_eq_ok.1 h
          split at h
          · simp at h
          · simp only [Res.bind_eq_ok] at h
            obtain ⟨r, _, w, h1, d, h2, h3⟩ := h
            have := Option.some.inj (Res.ok.inj h3)
            obtain ⟨h4, h5⟩ := Prod.mk.inj this
            subst h4 h5
            exact (splitAlong_good (w := ⟨m, [], []⟩) (Good.refl m) h1).trans (deleteEdgesU_good _ h2)

/-! ## Sizes -/

theorem count_of (x : Exact m s) {fs : List Nat} (hd : fs.Nodup) (hq : ∀ f ∈ fs, Quadrilateral s f) : 3 * fs.length ≤ 2 * m.edges.length ∧
    m.edges.length + 5 * fs.length ≤ 5 * m.edges.length := by
  have h1 : fs.length ≤ s.facesNodes.length := by
    have := (hd.subperm (l₂ := List.range s.facesNodes.length) (fun x hx => List.mem_range.2 (hq x hx).lt)).length_le
    simpa using this
  have h2 := x.linked.count_faces
  omega

theorem marks_length (n : Nat) (row : List Nat) : (marks s n row).length = row.length := by
  induction row generalizing n with
  | nil => rfl
  | cons e es ih =>
    rcases Bool.eq_false_or_eq_true (cut s e) with he | he
    · rw [marks_cut he]; simp [ih]
    · rw [marks_not he]; simp [ih]

theorem halves_length (ends : Nat → Edge) (row : List Nat) (X : List (Option Nat)) : (halves ends row X).length ≤ 2 * row.length := by
  induction row generalizing X with
  | nil => simp [halves]
  | cons e es ih =>
    match X with
    | [] => simp [halves]
    | some x :: X => have := ih X; simp only [halves, List.length_cons]; omega
    | none :: X => have := ih X; simp only [halves, List.length_cons]; omega

theorem bridges_length (ends : Nat → Edge) (row : List Nat) (X : List (Option Nat)) : (bridges ends row X).length ≤ 2 * (row.length - 1) := by
  induction row generalizing X with
  | nil => simp [bridges]
  | cons e es ih =>
    match es, X with
    | [], _ => simp [bridges]
    | _ :: _, [] => simp [bridges]
    | _ :: _, [_] => simp [bridges]
    | e' :: es, x :: y :: X =>
      have := ih (y :: X)
      have hb : (bridge (ends e) (ends e') x y).length ≤ 2 := by cases x <;> cases y <;> simp [bridge]
      rw [bridges, List.length_append]
      simp only [List.length_cons] at *
      omega

/-- The edges of a trail have faces. -/
theorem Trail.bordered (t : Tab numEdges edges s) {e f b q : Nat} {rs fs : List Nat} (tr : Trail s e f rs fs b q) (hne : fs ≠ []) {j c : Nat}
    (hc : (e :: rs)[j]? = some c) : ∃ g, Borders s g c := by
  have hl := tr.lengths
  have hj := (List.getElem?_eq_some_iff.1 hc).1
  simp only [List.length_cons] at hj
  by_cases hjl : j < fs.length
  · obtain ⟨u, v, hu, _, ho⟩ := tr.at (List.getElem?_eq_getElem hjl)
    rw [hc] at hu
    obtain rfl := Option.some.inj hu
    exact ⟨_, ho.borders⟩
  · have hpos := List.length_pos_iff.2 hne
    obtain ⟨u, v, _, hv, ho⟩ := tr.at (List.getElem?_eq_getElem (i := fs.length - 1) (l := fs) (by omega))
    rw [show fs.length - 1 + 1 = j by omega, hc] at hv
    obtain rfl := Option.some.inj hv
    exact ⟨_, (ho.symm t).borders⟩

end Verif.SplitRow
