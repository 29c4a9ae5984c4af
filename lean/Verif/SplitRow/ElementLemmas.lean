import Verif.SplitRow.SplitLemmas
/-!
# Lemmas: one element of a row, and all of them
-/
namespace Verif.SplitRow
open Verif.Mesh Verif.Faces
open Verif.Polygons (Pt)
open Verif.Flip (Exact Linked)

variable {m : Mesh Pt} {s : State} {w : Work Pt} {ns : List (Option Pt)} {es : List Edge} {del : List Nat}
  {mid : Pt → Pt → Pt}

theorem tab_of (x : Exact m s) (k : Nat) (h : m.edges.length + k ≤ missing) : Tab (m.edges.length + k) m.edges s :=
  ⟨x.linked, x.facesFit, h, by omega⟩

theorem Grown.count (h : Grown m w ns es del) : w.mesh.edges.length = m.edges.length + es.length := by
  rw [h.mesh]; simp

theorem marks_cut {n e : Nat} (h : cut s e = true) (es : List Nat) : marks s n (e :: es) = some n :: marks s (n + 1) es := by
  rw [marks, if_pos h]

theorem marks_not {n e : Nat} (h : cut s e = false) (es : List Nat) : marks s n (e :: es) = none :: marks s n es := by
  rw [marks, if_neg (by rw [h]; exact Bool.false_ne_true)]

theorem getEdge_new (h : Grown m w ns es del) {e : Nat} {p : Edge} (hp : m.edges[e]? = some p) : getEdge w.mesh e = .ok p := by
  unfold getEdge
  rw [h.mesh]
  simp only [List.getElem?_append_left (List.getElem?_eq_some_iff.1 hp).1, hp]

theorem splitBoth_new (x : Exact m s) (h : Grown m w ns es del) {e e' f : Nat} (ho : Opposite s f e e')
    (hn : m.nodes.length + ns.length + 2 ≤ missing) (he : m.edges.length + es.length + 5 ≤ missing) :
    ∃ w', splitBoth mid s f e w = .ok ((m.nodes.length + ns.length, m.nodes.length + ns.length + 1), w') ∧
      Grown m w' (ns ++ [middle mid m e, middle mid m e'])
        (es ++ [((edgeAt m e).1, m.nodes.length + ns.length), (m.nodes.length + ns.length, (edgeAt m e).2),
          ((edgeAt m e').1, m.nodes.length + ns.length + 1), (m.nodes.length + ns.length + 1, (edgeAt m e').2),
          (m.nodes.length + ns.length, m.nodes.length + ns.length + 1)]) (del ++ [e, e']) := by
  have t := tab_of x es.length (by omega)
  obtain ⟨w1, s1, g1⟩ := splitEdge_new (mid := mid) x h ho.borders (by omega)
  obtain ⟨w2, s2, g2⟩ := splitEdge_new (mid := mid) x g1 (ho.symm t).borders (by simp; omega)
  have hl : m.nodes.length + (ns ++ [middle mid m e]).length = m.nodes.length + ns.length + 1 := by simp; omega
  have hl2 : m.nodes.length + (ns ++ [middle mid m e] ++ [middle mid m e']).length = m.nodes.length + ns.length + 2 := by simp; omega
  rw [hl] at s2 g2
  obtain ⟨w3, s3, g3⟩ := connect_new x g2 (a := m.nodes.length + ns.length) (b := m.nodes.length + ns.length + 1) (by omega) (by omega)
    (Or.inl (by omega)) (by omega)
  refine ⟨w3, ?_, by simpa using g3⟩
  unfold splitBoth
  rw [h.count, opposite_ok t ho, Res.ok_bind, s1, Res.ok_bind]
  simp only []
  rw [s2, Res.ok_bind]
  simp only []
  rw [s3, Res.ok_bind]

/-- What is read before an element is split. -/
theorem splitElement_read (x : Exact m s) (h : Grown m w ns es del) {e e' f g g' : Nat} (ho : Opposite s f e e') (a : Across s e f g)
    (a' : Across s e' f g') (he : m.edges.length + es.length ≤ missing) (n : Nat) :
    splitElement mid s f e n w =
      (if g = missing then
        if cut s e' = true then do
          let r ← splitBoth mid s f e w
          .ok (r.1.2, r.2)
        else do
          let y ← splitEdge mid e w
          let w1 ← fork (edgeAt m e') y.1 y.2
          .ok (missing, w1)
      else if Quadrilateral s g then
        if cut s e' = true then do
          let y ← splitEdge mid e' w
          let w1 ← connect n y.1 y.2
          .ok (y.1, w1)
        else do
          let w1 ← fork (edgeAt m e') n w
          .ok (missing, w1)
      else if cut s e' = true then do
        let y ← splitEdge mid e' w
        let w1 ← fork (edgeAt m e) y.1 y.2
        .ok (y.1, w1)
      else .ok (n, w)) := by
  have t := tab_of x es.length he
  obtain ⟨p, hp1, hp2, _⟩ := edge_of x ho.borders
  obtain ⟨q, hq1, hq2, _⟩ := edge_of x (ho.symm t).borders
  obtain ⟨pf, hf, hprev⟩ := prev_eq t ho.borders a
  have hk := (a.known t ho.borders).1
  have hk' := (a'.known t (ho.symm t).borders).1
  have hc := cut_across x t ho.1 (ho.symm t).borders a'
  unfold splitElement
  rw [getEdge_new h hp1, Res.ok_bind, vget_eq_ok.2 hf, Res.ok_bind, h.count, nextElement_ok t ho a', Res.ok_bind, isQuad_ok t hk', Res.ok_bind]
  rw [hprev, isQuad_ok t hk, Res.ok_bind, opposite_ok t ho]
  simp only [Res.ok_bind, getEdge_new h hq1]
  simp only [decide_eq_true_iff, hc, hp2, hq2]

/-- An element that is not the first. -/
theorem splitElement_next (x : Exact m s) (h : Grown m w ns es del) {e e' f g g' : Nat} (ho : Opposite s f e e') (a : Across s e f g)
    (a' : Across s e' f g') (hg : Quadrilateral s g) (hn : m.nodes.length + ns.length + 2 ≤ missing) (he : m.edges.length + es.length + 5 ≤ missing)
    {n : Nat} (h1 : m.nodes.length ≤ n) (h2 : n < m.nodes.length + ns.length) :
    ∃ y w' ks, splitElement mid s f e n w = .ok (y, w') ∧ (cut s e' = true → y = m.nodes.length + ns.length) ∧ ks.length ≤ 5 ∧
      Grown m w' (ns ++ ([e'].filter (cut s)).map (middle mid m)) (es ++ ks) (del ++ [e'].filter (cut s)) ∧
      ks.Perm (halves (edgeAt m) [e'] (marks s (m.nodes.length + ns.length) [e']) ++
        bridges (edgeAt m) [e, e'] (some n :: marks s (m.nodes.length + ns.length) [e'])) := by
  have t := tab_of x es.length (by omega)
  rw [splitElement_read x h ho a a' (by omega), if_neg (t.ne_missing hg), if_pos hg]
  rcases Bool.eq_false_or_eq_true (cut s e') with hc | hc
  · rw [if_pos hc, marks_cut hc]
    obtain ⟨w1, s1, g1⟩ := splitEdge_new (mid := mid) x h (ho.symm t).borders (by omega)
    obtain ⟨w2, s2, g2⟩ := connect_new x g1 (a := n) (b := m.nodes.length + ns.length) (by simp; omega) (by simp) (Or.inl h1) (by simp; omega)
    refine ⟨_, w2, [((edgeAt m e').1, m.nodes.length + ns.length), (m.nodes.length + ns.length, (edgeAt m e').2), (n, m.nodes.length + ns.length)],
      ?_, fun _ => rfl, by simp, by simpa [hc] using g2, by simp [halves, bridges, bridge]⟩
    rw [s1, Res.ok_bind]
    simp only []
    rw [s2, Res.ok_bind]
  · rw [if_neg (by rw [hc]; exact Bool.false_ne_true), marks_not hc]
    obtain ⟨q, _, hq, q1, q2, _⟩ := edge_of x (ho.symm t).borders
    rw [hq]
    obtain ⟨w1, s1, g1⟩ := fork_new x h (n := n) q1 q2 h1 h2 (by omega)
    refine ⟨missing, w1, [(q.1, n), (n, q.2)], ?_, fun hh => absurd hh (by simp [hc]), by simp, by simpa [hc] using g1,
      by simp [halves, bridges, bridge, hq]⟩
    rw [s1, Res.ok_bind]

/-- The first element. -/
theorem splitElement_first (x : Exact m s) (h : Grown m w ns es del) {e e' f g g' : Nat} (ho : Opposite s f e e') (a : Across s e f g)
    (a' : Across s e' f g') (hg : ¬ Quadrilateral s g) (hn : m.nodes.length + ns.length + 2 ≤ missing) (he : m.edges.length + es.length + 5 ≤ missing)
    (n : Nat) :
    ∃ y w' ks, splitElement mid s f e n w = .ok (y, w') ∧ (cut s e' = true → y = m.nodes.length + ns.length + ([e].filter (cut s)).length) ∧ ks.length ≤ 5 ∧
      Grown m w' (ns ++ ([e, e'].filter (cut s)).map (middle mid m)) (es ++ ks) (del ++ [e, e'].filter (cut s)) ∧
      ks.Perm (halves (edgeAt m) [e, e'] (marks s (m.nodes.length + ns.length) [e, e']) ++
        bridges (edgeAt m) [e, e'] (marks s (m.nodes.length + ns.length) [e, e'])) := by
  have t := tab_of x es.length (by omega)
  have hce := cut_across x t ho.1 ho.borders a
  rw [splitElement_read x h ho a a' (by omega), if_neg hg]
  by_cases hgm : g = missing
  · have hc0 : cut s e = true := hce.2 (Or.inl hgm)
    rw [if_pos hgm, marks_cut hc0]
    rcases Bool.eq_false_or_eq_true (cut s e') with hc | hc
    · rw [if_pos hc, marks_cut hc]
      obtain ⟨w1, s1, g1⟩ := splitBoth_new (mid := mid) x h ho hn he
      refine ⟨_, w1, [((edgeAt m e).1, m.nodes.length + ns.length), (m.nodes.length + ns.length, (edgeAt m e).2),
        ((edgeAt m e').1, m.nodes.length + ns.length + 1), (m.nodes.length + ns.length + 1, (edgeAt m e').2),
        (m.nodes.length + ns.length, m.nodes.length + ns.length + 1)], by rw [s1, Res.ok_bind], fun _ => by simp [hc0], by simp,
        by simpa [hc, hc0] using g1, by simp [halves, bridges, bridge]⟩
    · rw [if_neg (by rw [hc]; exact Bool.false_ne_true), marks_not hc]
      obtain ⟨q, _, hq, q1, q2, _⟩ := edge_of x (ho.symm t).borders
      rw [hq]
      obtain ⟨w1, s1, g1⟩ := splitEdge_new (mid := mid) x h ho.borders (by omega)
      obtain ⟨w2, s2, g2⟩ := fork_new x g1 (p := q) (n := m.nodes.length + ns.length) q1 q2 (by omega) (by simp) (by simp; omega)
      refine ⟨missing, w2, [((edgeAt m e).1, m.nodes.length + ns.length), (m.nodes.length + ns.length, (edgeAt m e).2), (q.1, m.nodes.length + ns.length),
        (m.nodes.length + ns.length, q.2)], ?_, fun hh => absurd hh (by simp [hc]), by simp, by simpa [hc, hc0] using g2,
        by simp [halves, bridges, bridge, hq]⟩
      rw [s1, Res.ok_bind]
      simp only []
      rw [s2, Res.ok_bind]
  · have hc0 : cut s e = false := by
      rw [← Bool.not_eq_true, hce]
      exact fun hh => hh.elim hgm hg
    rw [if_neg hgm, marks_not hc0]
    rcases Bool.eq_false_or_eq_true (cut s e') with hc | hc
    · rw [if_pos hc, marks_cut hc]
      obtain ⟨q, _, hq, q1, q2, _⟩ := edge_of x ho.borders
      rw [hq]
      obtain ⟨w1, s1, g1⟩ := splitEdge_new (mid := mid) x h (ho.symm t).borders (by omega)
      obtain ⟨w2, s2, g2⟩ := fork_new x g1 (p := q) (n := m.nodes.length + ns.length) q1 q2 (by omega) (by simp) (by simp; omega)
      refine ⟨_, w2, [((edgeAt m e').1, m.nodes.length + ns.length), (m.nodes.length + ns.length, (edgeAt m e').2), (q.1, m.nodes.length + ns.length),
        (m.nodes.length + ns.length, q.2)], ?_, fun _ => by simp [hc0]; rfl, by simp, by simpa [hc, hc0] using g2,
        by simp [halves, bridges, bridge, hq]⟩
      rw [s1, Res.ok_bind]
      simp only []
      rw [s2, Res.ok_bind]
    · rw [if_neg (by rw [hc]; exact Bool.false_ne_true), marks_not hc]
      exact ⟨n, w, [], rfl, fun hh => absurd hh (by simp [hc]), by simp, by simpa [hc, hc0] using h, by simp [halves, bridges, bridge]⟩

theorem halves_cons (ends : Nat → Edge) (n e : Nat) (es : List Nat) : halves ends (e :: es) (marks s n (e :: es)) =
    halves ends [e] (marks s n [e]) ++ halves ends es (marks s (n + ([e].filter (cut s)).length) es) := by
  rcases Bool.eq_false_or_eq_true (cut s e) with hc | hc
  · simp [marks_cut hc, halves, hc]
  · simp [marks_not hc, halves, hc]

theorem filter_cons_eq (e : Nat) (es : List Nat) : (e :: es).filter (cut s) = [e].filter (cut s) ++ es.filter (cut s) := by
  rw [← List.filter_append]; rfl

theorem bridges_cons (ends : Nat → Edge) (e e' : Nat) (es : List Nat) (x y : Option Nat) (xs : List (Option Nat)) :
    bridges ends (e :: e' :: es) (x :: y :: xs) = bridges ends [e, e'] [x, y] ++ bridges ends (e' :: es) (y :: xs) := by
  simp [bridges]

theorem bridges_one (ends : Nat → Edge) (e : Nat) (x : Option Nat) : bridges ends [e] [x] = [] := by
  simp [bridges]

/-- The elements after the first one, for a row with two ends. -/
theorem splitFrom_rest (x : Exact m s) {first e f b q : Nat} {rs fs : List Nat} (tr : Trail s e f rs fs b q) (hq : ¬ Quadrilateral s q) {all : List Nat} {i : Nat}
    (hi : all.drop i = e :: rs) {g n : Nat} (a : fs ≠ [] → Across s e f g) (hg : Quadrilateral s g)
    {w : Work Pt} {ns : List (Option Pt)} {es : List Edge} {del : List Nat} (h : Grown m w ns es del)
    (hn : m.nodes.length + ns.length + 2 * fs.length ≤ missing) (he : m.edges.length + es.length + 5 * fs.length ≤ missing)
    (h1 : fs ≠ [] → m.nodes.length ≤ n ∧ n < m.nodes.length + ns.length) :
    ∃ w' ks, splitFrom mid s false first all i n fs w = .ok w' ∧
      Grown m w' (ns ++ (rs.filter (cut s)).map (middle mid m)) (es ++ ks) (del ++ rs.filter (cut s)) ∧
      ks.Perm (halves (edgeAt m) rs (marks s (m.nodes.length + ns.length) rs) ++
        bridges (edgeAt m) (e :: rs) (some n :: marks s (m.nodes.length + ns.length) rs)) := by
  induction tr generalizing i g n w ns es del with
  | nil e f =>
    refine ⟨w, [], ?_, by simpa using h, by simp [halves, bridges]⟩
    rw [splitFrom]
  | @step e f e' g' rs fs b q ho a' tr ih =>
    simp only [List.length_cons] at hn he
    obtain ⟨y, w1, ks, s1, hy, hlen, g1, p1⟩ := splitElement_next (mid := mid) x h ho (a (by simp)) a' hg (by omega) (by omega) (h1 (by simp)).1 (h1 (by simp)).2
    have hv : vget all i = .ok e := by
      rw [vget_eq_ok]
      have := congrArg (·[0]?) hi
      simpa using this
    have hdrop : all.drop (i + 1) = e' :: rs := by
      rw [← List.drop_drop, hi]
      rfl
    have hfl : ([e'].filter (cut s)).length ≤ 1 := List.length_filter_le _ _
    have hl1 : (ns ++ ([e'].filter (cut s)).map (middle mid m)).length = ns.length + ([e'].filter (cut s)).length := by simp
    have hl2 : (es ++ ks).length = es.length + ks.length := by simp
    obtain ⟨w2, ks2, s2, g2, p2⟩ := ih hq hdrop (g := f) (n := y) (fun _ => by
        obtain ⟨p, k1, k2⟩ := a'
        exact ⟨p, k1, k2.symm⟩) ho.1 g1 (by omega) (by omega) (by
        intro hne
        have hgq : Quadrilateral s g' := by
          obtain ⟨fs', rfl⟩ := tr.head hne
          exact tr.quads _ List.mem_cons_self
        have t := tab_of x es.length (by omega)
        have hc := (cut_across x t ho.1 (ho.symm t).borders a').2 (Or.inr hgq)
        rw [hy hc, hl1]
        simp [hc])
    refine ⟨w2, ks ++ ks2, ?_, ?_, ?_⟩
    · rw [splitFrom, if_neg (by simp), hv, Res.ok_bind, s1, Res.ok_bind, s2]
    · rw [filter_cons_eq, List.map_append, ← List.append_assoc, ← List.append_assoc, ← List.append_assoc]
      exact g2
    · rw [hl1, ← Nat.add_assoc] at p2
      rw [halves_cons]
      have hb : bridges (edgeAt m) (e :: e' :: rs) (some n :: marks s (m.nodes.length + ns.length) (e' :: rs)) =
          bridges (edgeAt m) [e, e'] (some n :: marks s (m.nodes.length + ns.length) [e']) ++
            bridges (edgeAt m) (e' :: rs) (some y :: marks s (m.nodes.length + ns.length + ([e'].filter (cut s)).length) rs) := by
        rcases Bool.eq_false_or_eq_true (cut s e') with hc | hc
        · rw [marks_cut hc, marks_cut hc, bridges_cons, hy hc]
          simp [hc, marks]
        · rw [marks_not hc, marks_not hc, bridges_cons]
          have : rs = [] := by
            cases tr with
            | nil => rfl
            | step h2 =>
              have t := tab_of x es.length (by omega)
              have := (cut_across x t ho.1 (ho.symm t).borders a').2 (Or.inr h2.1)
              rw [hc] at this
              exact absurd this (by simp)
          subst this
          simp [marks, bridges_one]
      rw [hb]
      refine (p1.append p2).trans ?_
      simp only [List.append_assoc]
      refine List.Perm.append_left _ ?_
      rw [← List.append_assoc, ← List.append_assoc]
      exact List.Perm.append_right _ List.perm_append_comm

/-- The elements after the first one, for a row that closes. -/
theorem splitFrom_ring (x : Exact m s) {first e f b q : Nat} {rs fs : List Nat} (tr : Trail s e f rs fs b q) (hq : Quadrilateral s q) (hne : fs ≠ [])
    {all : List Nat} {i : Nat} (hi : all.drop i = e :: rs) {g n : Nat} (a : Across s e f g) (hg : Quadrilateral s g)
    {w : Work Pt} {ns : List (Option Pt)} {es : List Edge} {del : List Nat} (h : Grown m w ns es del)
    (hn : m.nodes.length + ns.length + 2 * fs.length ≤ missing) (he : m.edges.length + es.length + 5 * fs.length ≤ missing)
    (h1 : m.nodes.length ≤ n ∧ n < m.nodes.length + ns.length) (h2 : m.nodes.length ≤ first ∧ first < m.nodes.length + ns.length) :
    ∃ w' ks, splitFrom mid s true first all i n fs w = .ok w' ∧
      Grown m w' (ns ++ (rs.dropLast.filter (cut s)).map (middle mid m)) (es ++ ks) (del ++ rs.dropLast.filter (cut s)) ∧
      ks.Perm (halves (edgeAt m) rs.dropLast (marks s (m.nodes.length + ns.length) rs.dropLast) ++
        bridges (edgeAt m) (e :: rs) (some n :: marks s (m.nodes.length + ns.length) rs.dropLast ++ [some first])) := by
  induction tr generalizing i g n w ns es del with
  | nil e f => exact absurd rfl hne
  | @step e f e' g' rs fs b q ho a' tr ih =>
    simp only [List.length_cons] at hn he
    have hv : vget all i = .ok e := by
      rw [vget_eq_ok]
      have := congrArg (·[0]?) hi
      simpa using this
    have hdrop : all.drop (i + 1) = e' :: rs := by
      rw [← List.drop_drop, hi]
      rfl
    have t := tab_of x es.length (by omega)
    by_cases hfs : fs = []
    · subst hfs
      cases tr
      obtain ⟨w1, c1, g1⟩ := connect_new x h (a := n) (b := first) h1.2 h2.2 (Or.inl h1.1) (by omega)
      refine ⟨w1, [(n, first)], ?_, by simpa using g1, by simp [halves, bridges, bridge, marks]⟩
      rw [splitFrom, if_pos ⟨rfl, rfl⟩, c1]
    · have hgq : Quadrilateral s g' := by
        obtain ⟨fs', rfl⟩ := tr.head hfs
        exact tr.quads _ List.mem_cons_self
      have hc := (cut_across x t ho.1 (ho.symm t).borders a').2 (Or.inr hgq)
      obtain ⟨y, w1, ks, s1, hy, hlen, g1, p1⟩ := splitElement_next (mid := mid) x h ho a a' hg (by omega) (by omega) h1.1 h1.2
      have hfl : ([e'].filter (cut s)).length ≤ 1 := List.length_filter_le _ _
      have hl1 : (ns ++ ([e'].filter (cut s)).map (middle mid m)).length = ns.length + ([e'].filter (cut s)).length := by simp
      have hl2 : (es ++ ks).length = es.length + ks.length := by simp
      obtain ⟨w2, ks2, s2, g2, p2⟩ := ih hq hfs hdrop (g := f) (n := y) (by
        obtain ⟨p, k1, k2⟩ := a'
        exact ⟨p, k1, k2.symm⟩) ho.1 g1 (by omega) (by omega) (by
        rw [hy hc, hl1]
        simp [hc]) (by omega)
      have hrs : rs ≠ [] := by
        intro hr
        have := tr.lengths
        rw [hr] at this
        exact hfs (List.length_eq_zero_iff.1 this.symm)
      refine ⟨w2, ks ++ ks2, ?_, ?_, ?_⟩
      · rw [splitFrom, if_neg (by simp [hfs]), hv, Res.ok_bind, s1, Res.ok_bind, s2]
      · rw [List.dropLast_cons_of_ne_nil hrs, filter_cons_eq, List.map_append, ← List.append_assoc, ← List.append_assoc, ← List.append_assoc]
        exact g2
      · rw [hl1, ← Nat.add_assoc] at p2
        rw [List.dropLast_cons_of_ne_nil hrs, halves_cons]
        have hb : bridges (edgeAt m) (e :: e' :: rs) (some n :: marks s (m.nodes.length + ns.length) (e' :: rs.dropLast) ++ [some first]) =
            bridges (edgeAt m) [e, e'] (some n :: marks s (m.nodes.length + ns.length) [e']) ++
              bridges (edgeAt m) (e' :: rs) (some y :: marks s (m.nodes.length + ns.length + ([e'].filter (cut s)).length) rs.dropLast ++ [some first]) := by
          rw [marks_cut hc, marks_cut hc, List.cons_append, List.cons_append, bridges_cons, hy hc]
          simp [hc, marks]
        rw [hb]
        refine (p1.append p2).trans ?_
        simp only [List.append_assoc]
        refine List.Perm.append_left _ ?_
        rw [← List.append_assoc, ← List.append_assoc]
        exact List.Perm.append_right _ List.perm_append_comm

theorem Opposite.ne {f e e' : Nat} (t : Tab numEdges m.edges s) (h : Opposite s f e e') : e ≠ e' := by
  obtain ⟨hq, es, i, h1, h2, h3⟩ := h
  obtain ⟨_, es', _, _, q3, q4, hp⟩ := t.quad hq
  rw [h1] at q3
  obtain rfl := Option.some.inj q3
  have hi := (List.getElem?_eq_some_iff.1 h2).1
  rintro rfl
  have := (List.getElem?_inj hi hp.edgesDistinct).1 (h2.trans h3.symm)
  omega

theorem Trail.behind {e f b q : Nat} {rs fs : List Nat} (tr : Trail s e f rs fs b q) (hne : fs ≠ []) :
    ∃ g, fs.getLast? = some g ∧ Across s b g q ∧ ∃ e', Opposite s g e' b := by
  induction tr with
  | nil => exact absurd rfl hne
  | @step e f e' g' rs fs b q ho a' tr ih =>
    cases tr with
    | nil => exact ⟨f, rfl, a', e, ho⟩
    | step h2 a2 t2 =>
      obtain ⟨g, h3, h4⟩ := ih (by simp)
      exact ⟨g, by rw [List.getLast?_cons_cons]; exact h3, h4⟩

/-- The two ends of a row are different edges. -/
theorem Trail.ends_ne (t : Tab numEdges m.edges s) {e f b q g : Nat} {rs fs : List Nat} (tr : Trail s e f rs fs b q) (hne : fs ≠ []) (hd : fs.Nodup)
    (a : Across s e f g) (hg : ¬ Quadrilateral s g) : e ≠ b := by
  rintro rfl
  obtain ⟨l, h1, h2, e', h3⟩ := tr.behind hne
  have hb : Borders s l e := (h3.symm t).borders
  cases tr with
  | nil => exact hne rfl
  | @step _ _ e2 g2 rs fs _ _ ho a' tr =>
    obtain ⟨_, g0, _, _, k3, _, _, _, _, k8⟩ := Across.of t ho.borders
    obtain rfl := Across.unique t ho.borders a k3
    rcases k8 l hb with rfl | rfl
    · have : fs = [] := by
        by_contra hc
        rw [List.getLast?_cons_of_ne_nil hc] at h1
        exact (List.nodup_cons.1 hd).1 (List.mem_of_getLast? h1)
      subst this
      cases tr
      exact ho.ne t rfl
    · exact hg h3.1

/-- The split row with two ends. -/
theorem splitAlong_path (x : Exact m s) {e f b q g : Nat} {rs fs : List Nat} (tr : Trail s e f rs fs b q) (hq : ¬ Quadrilateral s q)
    (hd : fs.Nodup) (hne : fs ≠ []) (a : Across s e f g) (hg : ¬ Quadrilateral s g)
    (hn : m.nodes.length + 2 * fs.length ≤ missing) (he : m.edges.length + 5 * fs.length ≤ missing) :
    ∃ w' ks, splitAlong mid s fs (e :: rs) ⟨m, [], []⟩ = .ok w' ∧
      Grown m w' (((e :: rs).filter (cut s)).map (middle mid m)) ks ((e :: rs).filter (cut s)) ∧
      ks.Perm (halves (edgeAt m) (e :: rs) (marks s m.nodes.length (e :: rs)) ++ bridges (edgeAt m) (e :: rs) (marks s m.nodes.length (e :: rs))) := by
  have t := tab_of x 0 (by omega)
  have hne2 := tr.ends_ne t hne hd a hg
  have hlast : (e :: rs).getLast? = some b := by rw [← tr.last, List.getLast?_eq_getLast_of_ne_nil]
  cases tr with
  | nil => exact absurd rfl hne
  | @step _ _ e' g' rs fs _ _ ho a' tr =>
    simp only [List.length_cons] at hn he
    obtain ⟨y, w1, ks, s1, hy, hlen, g1, p1⟩ := splitElement_first (mid := mid) x (Grown.start m) ho a a' hg (by simp; omega) (by simp; omega) missing
    simp only [List.length_nil, Nat.add_zero, List.nil_append] at hy g1 p1
    have hfl : ([e, e'].filter (cut s)).length ≤ 2 := List.length_filter_le _ _
    have hl1 : (([e, e'].filter (cut s)).map (middle mid m)).length = ([e, e'].filter (cut s)).length := by simp
    obtain ⟨w2, ks2, s2, g2, p2⟩ := splitFrom_rest (mid := mid) (first := missing) x tr hq (all := e :: e' :: rs) (i := 1) rfl (g := f) (n := y)
      (fun _ => by
        obtain ⟨p, k1, k2⟩ := a'
        exact ⟨p, k1, k2.symm⟩) ho.1 g1 (by omega) (by omega) (by
        intro hne
        have hgq : Quadrilateral s g' := by
          obtain ⟨fs', rfl⟩ := tr.head hne
          exact tr.quads _ List.mem_cons_self
        have hc := (cut_across x t ho.1 (ho.symm t).borders a').2 (Or.inr hgq)
        rw [hy hc, hl1, filter_cons_eq e [e']]
        simp [hc])
    refine ⟨w2, ks ++ ks2, ?_, ?_, ?_⟩
    · unfold splitAlong
      rw [hlast]
      simp only [List.head?_cons, if_neg hne2]
      rw [splitFrom, if_neg (by simp), vget_eq_ok.2 (by rfl), Res.ok_bind, s1, Res.ok_bind, s2]
    · have : (e :: e' :: rs).filter (cut s) = [e, e'].filter (cut s) ++ rs.filter (cut s) := by rw [← List.filter_append]; rfl
      rw [this, List.map_append]
      exact g2
    · rw [hl1] at p2
      have hlen2 : m.nodes.length + ([e, e'].filter (cut s)).length = m.nodes.length + ([e].filter (cut s)).length + ([e'].filter (cut s)).length := by
        rw [filter_cons_eq e [e'], List.length_append]; omega
      rw [hlen2] at p2
      have hh : halves (edgeAt m) (e :: e' :: rs) (marks s m.nodes.length (e :: e' :: rs)) = halves (edgeAt m) [e, e'] (marks s m.nodes.length [e, e']) ++
          halves (edgeAt m) rs (marks s (m.nodes.length + ([e].filter (cut s)).length + ([e'].filter (cut s)).length) rs) := by
        rw [halves_cons, halves_cons (e := e'), halves_cons (es := [e']), List.append_assoc]
      have hb : bridges (edgeAt m) (e :: e' :: rs) (marks s m.nodes.length (e :: e' :: rs)) =
          bridges (edgeAt m) [e, e'] (marks s m.nodes.length [e, e']) ++
            bridges (edgeAt m) (e' :: rs) (some y :: marks s (m.nodes.length + ([e].filter (cut s)).length + ([e'].filter (cut s)).length) rs) := by
        have hm0 : ∀ l, marks s m.nodes.length (e :: l) = (marks s m.nodes.length [e]) ++ marks s (m.nodes.length + ([e].filter (cut s)).length) l := by
          intro l
          rcases Bool.eq_false_or_eq_true (cut s e) with hc | hc
          · simp [marks, hc]
          · simp [marks, hc]
        have hm1 : ∃ z, marks s m.nodes.length [e] = [z] := by
          rcases Bool.eq_false_or_eq_true (cut s e) with hc | hc
          · exact ⟨_, by simp [marks, hc]; rfl⟩
          · exact ⟨_, by simp [marks, hc]; rfl⟩
        obtain ⟨z, hz⟩ := hm1
        rw [hm0, hm0 [e'], hz]
        rcases Bool.eq_false_or_eq_true (cut s e') with hc | hc
        · rw [marks_cut hc, marks_cut hc, List.singleton_append, bridges_cons, hy hc]
          simp [hc, marks]
        · rw [marks_not hc, marks_not hc, List.singleton_append, bridges_cons]
          have : rs = [] := by
            cases tr with
            | nil => rfl
            | step h2 =>
              have := (cut_across x t ho.1 (ho.symm t).borders a').2 (Or.inr h2.1)
              rw [hc] at this
              exact absurd this (by simp)
          subst this
          simp [marks, bridges_one]
      rw [hh, hb]
      refine (p1.append p2).trans ?_
      simp only [List.append_assoc]
      refine List.Perm.append_left _ ?_
      rw [← List.append_assoc, ← List.append_assoc]
      exact List.Perm.append_right _ List.perm_append_comm

/-- The split ring. -/
theorem splitAlong_ring (x : Exact m s) {e f : Nat} {rs fs : List Nat} (tr : Trail s e f rs fs e f) (hne : fs ≠ [])
    (hn : m.nodes.length + 2 * fs.length ≤ missing) (he : m.edges.length + 5 * fs.length ≤ missing) :
    ∃ w' ks, splitAlong mid s fs (e :: rs) ⟨m, [], []⟩ = .ok w' ∧
      Grown m w' (((e :: rs.dropLast).filter (cut s)).map (middle mid m)) ks ((e :: rs.dropLast).filter (cut s)) ∧
      ks.Perm (halves (edgeAt m) (e :: rs.dropLast) (marks s m.nodes.length (e :: rs.dropLast)) ++
        bridges (edgeAt m) (e :: rs) (marks s m.nodes.length (e :: rs.dropLast) ++ [some m.nodes.length])) := by
  have t := tab_of x 0 (by omega)
  have hlast : (e :: rs).getLast? = some e := by
    rw [List.getLast?_eq_getLast_of_ne_nil (by simp), tr.last]
  have hback := tr.behind hne
  cases tr with
  | nil => exact absurd rfl hne
  | @step _ _ e' g' rs fs _ _ ho a' tr =>
    simp only [List.length_cons] at hn he
    have hfs : fs ≠ [] := by
      rintro rfl
      cases tr
      exact ho.ne t rfl
    have hrs : rs ≠ [] := by
      intro hr
      have := tr.lengths
      rw [hr] at this
      exact hfs (List.length_eq_zero_iff.1 this.symm)
    have hgq : Quadrilateral s g' := by
      obtain ⟨fs', rfl⟩ := tr.head hfs
      exact tr.quads _ List.mem_cons_self
    have hc := (cut_across x t ho.1 (ho.symm t).borders a').2 (Or.inr hgq)
    have hce : cut s e = true := by
      obtain ⟨l, _, k2, e2, k3⟩ := hback
      exact (cut_across x t k3.1 (k3.symm t).borders k2).2 (Or.inr ho.1)
    obtain ⟨w1, s1, g1⟩ := splitBoth_new (mid := mid) x (Grown.start m) ho (by simp; omega) (by simp; omega)
    simp only [List.length_nil, Nat.add_zero, List.nil_append] at s1 g1
    obtain ⟨w2, ks2, s2, g2, p2⟩ := splitFrom_ring (mid := mid) (first := m.nodes.length) x tr ho.1 hfs (all := e :: e' :: rs) (i := 1) rfl (g := f)
      (n := m.nodes.length + 1) (by
        obtain ⟨p, k1, k2⟩ := a'
        exact ⟨p, k1, k2.symm⟩) ho.1 g1 (by simp; omega) (by simp; omega) (by simp) (by simp)
    have hfil : (e :: (e' :: rs).dropLast).filter (cut s) = [e, e'] ++ rs.dropLast.filter (cut s) := by
      rw [List.dropLast_cons_of_ne_nil hrs]
      simp [hc, hce]
    refine ⟨w2, [((edgeAt m e).1, m.nodes.length), (m.nodes.length, (edgeAt m e).2), ((edgeAt m e').1, m.nodes.length + 1),
        (m.nodes.length + 1, (edgeAt m e').2), (m.nodes.length, m.nodes.length + 1)] ++ ks2, ?_, ?_, ?_⟩
    rotate_left
    · rw [hfil, List.map_append]
      exact g2
    · rw [List.dropLast_cons_of_ne_nil hrs, marks_cut hce, marks_cut hc]
      simp only [List.length_cons, List.length_nil] at p2
      simp only [List.cons_append, halves]
      rw [bridges_cons]
      simp only [List.cons_append] at p2
      simp only [bridges, bridge, List.append_nil, List.singleton_append, List.nil_append]
      refine List.Perm.cons _ (List.Perm.cons _ (List.Perm.cons _ (List.Perm.cons _ ?_)))
      refine (List.Perm.cons _ p2).trans ?_
      exact List.perm_middle.symm
    · unfold splitAlong
      rw [hlast]
      simp only [List.head?_cons, if_true]
      rw [s1, Res.ok_bind, s2]

end Verif.SplitRow
