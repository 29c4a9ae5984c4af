import Verif.SplitRow.PropsLemmas
import Verif.Delete.Props
import Verif.Polygons.AreaProps
import Mathlib.Tactic.Ring
/-!
# Splitting a row of quadrilaterals (C61)
-/
namespace Verif.SplitRow
open Verif.Mesh Verif.Faces
open Verif.Polygons (Pt)
open Verif.Flip (Exact Linked)

variable {m m' : Mesh Pt} {s : State} {mid : Pt → Pt → Pt}

/-- There is room for the new nodes and edges. -/
def Room (m : Mesh Pt) : Prop := m.nodes.length + 2 * m.edges.length ≤ missing ∧ 5 * m.edges.length ≤ missing

/-- Row of an edge: through the quadrilaterals on both sides of it, it ends on both sides, or it closes. -/
theorem row_ends_or_closes (x : Exact m s) (hr : Room m) {e p1 p2 : Nat} (hp : s.edgesFaces[e]? = some (p1, p2)) (hb : Borders s p1 e) :
    (∃ es fs, Ring s e p1 es fs) ∨ ∃ es1 fs1 es2 fs2, Arm s e p1 es1 fs1 ∧ Arm s e p2 es2 fs2 := by
  have t := tab_of x 0 (by have := hr.2; omega)
  obtain ⟨p, g, k1, _, k3, k4, k5, k6, k7, _⟩ := Across.of t hb
  rw [hp] at k1
  obtain rfl := Option.some.inj k1
  have hg : p2 = g := by
    rcases k7 with h | h
    · exact (Prod.mk.inj h).2
    · exact absurd (Prod.mk.inj h).1.symm k6
  subst hg
  obtain ⟨es1, fs1, h1 | h1, _⟩ := arm_or_ring t (e := e) (f := p1) (fun _ => hb)
  · obtain ⟨es2, fs2, h2 | h2, _⟩ := arm_or_ring t (e := e) (f := p2) (fun hq => k5.resolve_left (t.ne_missing hq))
    · exact Or.inr ⟨es1, fs1, es2, fs2, h1, h2⟩
    · have hq2 : Quadrilateral s p2 := by
        obtain ⟨fs', rfl⟩ := h2.1.head h2.2
        exact h2.1.quads _ List.mem_cons_self
      obtain ⟨es', h3, _⟩ := h2.reverse t (k5.resolve_left (t.ne_missing hq2)) k3.symm
      exact Or.inl ⟨_, _, h3⟩
  · exact Or.inl ⟨es1, fs1, h1⟩

/-- Collecting the row always returns, whatever the mesh looks like. -/
theorem collecting_returns (x : Exact m s) (hr : Room m) {e : Nat} (he : e < m.edges.length) : ∃ r, collect m.edges.length s e = .ok r := by
  have t := tab_of x 0 (by have := hr.2; omega)
  obtain ⟨p, h1, h2⟩ := t.sides he
  unfold collect
  rw [vget_eq_ok.2 h1, Res.ok_bind]
  rcases h2 with ⟨rfl, _⟩ | ⟨f, rfl, h2⟩ | ⟨f, g, rfl, hne, h2⟩
  · exact ⟨([], []), rfl⟩
  · have hb := (h2 f).2 rfl
    have hm : f ≠ missing := by have := Borders.known t hb; have := t.facesFit; omega
    obtain ⟨a, ha⟩ := collectSide_returns t h1 hb false
    simp only [if_neg hm]
    rw [Nat.add_zero] at ha
    rw [ha, Res.ok_bind]
    split
    · exact ⟨_, rfl⟩
    · exact ⟨_, rfl⟩
  · have hb := (h2 f).2 (Or.inl rfl)
    have hm : f ≠ missing := by have := Borders.known t hb; have := t.facesFit; omega
    obtain ⟨a, ha⟩ := collectSide_returns t h1 hb false
    obtain ⟨b, hbb⟩ := collectSide_returns t h1 hb true
    simp only [if_neg hm]
    rw [Nat.add_zero] at ha hbb
    rw [ha, Res.ok_bind]
    split
    · exact ⟨_, rfl⟩
    · split
      · exact ⟨_, rfl⟩
      · rw [hbb]
        exact ⟨_, rfl⟩

/-- A call that succeeds has recorded all changes: undo gives back all nodes and edges, and redo the new ones. -/
theorem split_recorded {e : Nat} {acts : List (Act Pt)} (h : split mid s m e = .ok (some (acts, m'))) (hc : m.numEdges.length = m.nodes.length) :
    ∃ bs m1, Undo.restoreAll (meshSem Pt) (committed acts) (.ok m') = (bs, .ok m1) ∧ content m1 = content m ∧
      ∃ cs m2, Undo.commitAll (meshSem Pt) bs (.ok m1) = (cs, .ok m2) ∧ content m2 = content m' :=
  (split_good h).undo_redo hc

/-- An edge number that is missing or too large is refused. -/
theorem wrong_edge_refused {e : Nat} (h : m.edges.length ≤ e) : split mid s m e = .throw := by
  unfold split
  rw [if_pos h, ite_self]

/-- A deleted edge is refused. -/
theorem deleted_edge_refused {e : Nat} (h : m.edges[e]? = some noEdge) : split mid s m e = .throw := by
  have := (List.getElem?_eq_some_iff.1 h).1
  unfold split
  split
  · rfl
  · rw [if_neg (by omega)]
    unfold getEdge
    rw [h]
    rfl

/-- If no face of the edge is a quadrilateral, nothing happens. -/
theorem no_quadrilateral_nothing (x : Exact m s) (hr : Room m) {e : Nat} {p : Edge} (he : m.edges[e]? = some p) (hne : p ≠ noEdge)
    (hq : ∀ f, Borders s f e → ¬ Quadrilateral s f) : split mid s m e = .ok none := by
  have hlt := (List.getElem?_eq_some_iff.1 he).1
  have t := tab_of x 0 (by have := hr.2; omega)
  have hfit := hr.2
  obtain ⟨v1, v2, _⟩ := (x.ends e p he).resolve_left hne
  have l1 := validNode_lt v1
  have l2 := validNode_lt v2
  have hn := x.nodesFit
  unfold split
  rw [if_neg (by omega), if_neg (by omega)]
  have ge : getEdge m e = .ok p := by unfold getEdge; rw [he]
  have gn1 : ∀ n, n < m.nodes.length → getNode m n = .ok (m.nodes[n]?).join := by
    intro n hn
    unfold getNode
    rw [List.getElem?_eq_getElem hn]
    rfl
  have hnn : hasNodes p = true := by
    unfold hasNodes
    simp only [Bool.and_eq_true]
    constructor <;> simp <;> omega
  have hv : endsValid m p = .ok true := by
    unfold validNode at v1 v2
    unfold endsValid
    rw [gn1 _ l1, Res.ok_bind, if_pos v1, gn1 _ l2, Res.ok_bind, v2]
  have hcan : canBeSplit s e = .ok false := by
    unfold canBeSplit
    rw [if_neg (by omega)]
    obtain ⟨q, h1, h2⟩ := t.sides hlt
    rw [vget_eq_ok.2 h1, Res.ok_bind]
    have nq : ∀ f, Borders s f e → isQuad s f = .ok false := fun f hf => isQuad_not (Or.inr (Borders.known t hf)) (hq f hf)
    have nm : isQuad s missing = .ok false := rfl
    rcases h2 with ⟨rfl, _⟩ | ⟨f, rfl, h2⟩ | ⟨f, g, rfl, _, h2⟩
    · rw [nm]; rfl
    · rw [nq f ((h2 f).2 rfl)]; exact nm
    · rw [nq f ((h2 f).2 (Or.inl rfl))]; exact nq g ((h2 g).2 (Or.inr rfl))
  rw [ge, Res.ok_bind, hnn]
  simp only [Bool.not_true]
  rw [if_neg Bool.false_ne_true, hv, Res.ok_bind]
  simp only [Bool.not_true]
  rw [if_neg Bool.false_ne_true, hcan]
  rfl

/-- A row with two ends that does not cross itself is split: the edges between its quadrilaterals, and its ends at the boundary, are cut in the middle; each
quadrilateral gets an edge between the middles, or two edges to the corners at an end that is not cut; nothing else changes.  Missing: the second face of the
edge handed in must not be a face with more or fewer than four corners. -/
theorem row_split_partial (x : Exact m s) (hr : Room m) {e p1 p2 : Nat} {es1 fs1 es2 fs2 : List Nat} (hp : s.edgesFaces[e]? = some (p1, p2)) (hb : Borders s p1 e)
    (h1 : Arm s e p1 es1 fs1) (h2 : Arm s e p2 es2 fs2) (hd : (fs2.reverse ++ fs1).Nodup) (hne : fs2.reverse ++ fs1 ≠ []) (hend : p2 = missing ∨ fs2 ≠ []) :
    ∃ acts m' row, row = es2.reverse ++ e :: es1 ∧ split mid s m e = .ok (some (acts, m')) ∧
      SplitBy mid s m m' row (bridges (edgeAt m) row (marks s m.nodes.length row)) ∧
      Divided s m m' row (marks s m.nodes.length row) (fs2.reverse ++ fs1) ∧ Whole m' := by
  have t := tab_of x 0 (by have := hr.2; omega)
  obtain ⟨p, g, k1, _, k3, k4, k5, k6, k7, _⟩ := Across.of t hb
  rw [hp] at k1
  obtain rfl := Option.some.inj k1
  have hg : p2 = g := by
    rcases k7 with h | h
    · exact (Prod.mk.inj h).2
    · exact absurd (Prod.mk.inj h).1.symm k6
  subst hg
  have hfs2 : fs2 ≠ [] → Quadrilateral s p2 := by
    intro hf
    obtain ⟨_, _, tr, _⟩ := h2
    obtain ⟨fs', rfl⟩ := tr.head hf
    exact tr.quads _ List.mem_cons_self
  obtain ⟨f, hbf, hqf⟩ : ∃ f, Borders s f e ∧ Quadrilateral s f := by
    by_cases hf : fs1 = []
    · have hq2 := hfs2 (by rintro rfl; rw [hf] at hne; simp at hne)
      exact ⟨p2, k5.resolve_left (t.ne_missing hq2), hq2⟩
    · obtain ⟨_, _, tr, _⟩ := h1
      obtain ⟨fs', rfl⟩ := tr.head hf
      exact ⟨p1, hb, tr.quads _ List.mem_cons_self⟩
  have hc := collect_arms t hp (Borders.lt t hb) h1 h2 hb hd hend
  rw [Nat.add_zero] at hc
  obtain ⟨a, k, rs, b, q1, q2, r1, r2, r3, r4, r5⟩ := row_of_arms t k3.symm h1 h2
  obtain ⟨c1, c2⟩ := count_of x hd r2.quads
  have hr1 := hr.1
  have hr2 := hr.2
  have hpos : 0 < (fs2.reverse ++ fs1).length := List.length_pos_iff.2 hne
  obtain ⟨w, ks, s1, s2, s3⟩ := splitAlong_path (mid := mid) x r2 r3 hd hne r4 r5 (by omega) (by omega)
  have hlt : ∀ c ∈ a :: rs, ∃ g, Borders s g c := by
    intro c hc
    obtain ⟨j, hj⟩ := List.mem_iff_getElem?.1 hc
    exact r2.bordered t hne hj
  rw [r1] at hc
  obtain ⟨acts, m', d1, d2, _⟩ := split_of_row (mid := mid) x hbf hqf hr2 hc s1 s2 (fun c hc => Borders.lt t (hlt c hc).choose_spec) rfl (by
    rw [s3.length_eq, List.length_append]
    have := halves_length (edgeAt m) (a :: rs) (marks s m.nodes.length (a :: rs))
    have := bridges_length (edgeAt m) (a :: rs) (marks s m.nodes.length (a :: rs))
    have := r2.lengths
    simp only [List.length_cons] at *
    omega) s3
  refine ⟨acts, m', a :: rs, r1.symm, d1, d2, ?_, used_drawn x d2 hlt (fun _ h => h) (fun _ h => h)⟩
  refine divided_of x (by omega) d2 r2 hd ?_ ?_
  · intro c hc hcut g hg
    obtain ⟨j, hj⟩ := List.mem_iff_getElem?.1 hc
    have hgq := (cut_iff x).1 hcut g hg
    rcases r2.around t r4 hj hg with h | ⟨i, rfl, h⟩ | ⟨_, rfl⟩ | ⟨_, rfl⟩
    · exact ⟨j, h, Or.inl hj⟩
    · exact ⟨i, h, Or.inr hj⟩
    · exact absurd hgq r5
    · exact absurd hgq r3
  · intro i c hi
    obtain ⟨m1, m2⟩ := marks_at (s := s) (ends := edgeAt m) (n := m.nodes.length) hi
    rcases Bool.eq_false_or_eq_true (cut s c) with hcc | hcc
    · obtain ⟨z, z1, z2, z3⟩ := m1 hcc
      exact ⟨_, z1, Or.inl ⟨z, rfl, hcc, z2, z3⟩⟩
    · exact ⟨_, m2 hcc, Or.inr ⟨rfl, hcc⟩⟩

/-- A row that closes and does not cross itself is split: all its edges are cut in the middle, and each quadrilateral gets an edge between the middles. -/
theorem ring_split (x : Exact m s) (hr : Room m) {e p1 p2 : Nat} {es fs : List Nat} (hp : s.edgesFaces[e]? = some (p1, p2))
    (h : Ring s e p1 es fs) (hd : fs.Nodup) :
    ∃ acts m', split mid s m e = .ok (some (acts, m')) ∧
      SplitBy mid s m m' (e :: es.dropLast) (bridges (edgeAt m) (e :: es) (marks s m.nodes.length (e :: es.dropLast) ++ [some m.nodes.length])) ∧
      Divided s m m' (e :: es) (marks s m.nodes.length (e :: es.dropLast) ++ [some m.nodes.length]) fs ∧ Whole m' ∧
      ∀ c ∈ e :: es, cut s c = true := by
  have t := tab_of x 0 (by have := hr.2; omega)
  obtain ⟨tr, hne⟩ := h
  obtain ⟨fs', hfs⟩ := tr.head hne
  have hq1 : Quadrilateral s p1 := tr.quads _ (by rw [hfs]; exact List.mem_cons_self)
  have hb : Borders s p1 e := by
    obtain ⟨u, v, hu, _, ho⟩ := tr.at (i := 0) (k := p1) (by rw [hfs]; rfl)
    simp only [List.getElem?_cons_zero, Option.some.injEq] at hu
    subst hu
    exact ho.borders
  obtain ⟨c1, c2⟩ := count_of x hd tr.quads
  have hr1 := hr.1
  have hr2 := hr.2
  have hpos : 0 < fs.length := List.length_pos_iff.2 hne
  have hc := collect_ring t hp (Borders.lt t hb) ⟨tr, hne⟩ hd
  rw [Nat.add_zero] at hc
  obtain ⟨w, ks, s1, s2, s3⟩ := splitAlong_ring (mid := mid) x tr hne (by omega) (by omega)
  have hlens := tr.lengths
  have hes : es ≠ [] := by rintro rfl; simp at hlens; omega
  have hlast : es.getLast hes = e := by
    have := tr.last
    rwa [List.getLast_cons hes] at this
  have hrow : e :: es = (e :: es.dropLast) ++ [e] := by
    conv_lhs => rw [← List.dropLast_concat_getLast hes, hlast]
    rfl
  have hlt : ∀ c ∈ e :: es, ∃ g, Borders s g c := by
    intro c hc
    obtain ⟨j, hj⟩ := List.mem_iff_getElem?.1 hc
    exact tr.bordered t hne hj
  have hsub : ∀ c ∈ e :: es.dropLast, c ∈ e :: es := by
    intro c hc
    rw [hrow]
    exact List.mem_append_left _ hc
  obtain ⟨l, l1, l2, _, l3⟩ := tr.behind hne
  have hround : ∀ (j c g : Nat), (e :: es)[j]? = some c → Borders s g c →
      ∃ i : Nat, fs[i]? = some g ∧ ((e :: es)[i]? = some c ∨ (e :: es)[i + 1]? = some c) := by
    intro j c g hj hg
    rcases tr.around t l2.symm hj hg with h | ⟨i, rfl, h⟩ | ⟨rfl, rfl⟩ | ⟨rfl, rfl⟩
    · exact ⟨j, h, Or.inl hj⟩
    · exact ⟨i, h, Or.inr hj⟩
    · refine ⟨fs.length - 1, by rw [← List.getLast?_eq_getElem?]; exact l1, Or.inr ?_⟩
      simp only [List.getElem?_cons_zero, Option.some.injEq] at hj
      subst hj
      rw [Nat.sub_add_cancel hpos, ← hlens, List.getElem?_cons]
      rw [if_neg (by omega), ← List.getLast?_eq_getElem?, List.getLast?_eq_getLast_of_ne_nil hes, hlast]
    · refine ⟨0, by rw [hfs]; rfl, Or.inl ?_⟩
      rw [← hlens, List.getElem?_cons, if_neg (by omega), ← List.getLast?_eq_getElem?, List.getLast?_eq_getLast_of_ne_nil hes, hlast] at hj
      exact hj
  have hcut : ∀ c ∈ e :: es, cut s c = true := by
    intro c hc
    rw [cut_iff x]
    intro g hg
    obtain ⟨j, hj⟩ := List.mem_iff_getElem?.1 hc
    obtain ⟨i, h1, _⟩ := hround j c g hj hg
    exact tr.quads g (List.mem_of_getElem? h1)
  obtain ⟨acts, m', d1, d2, _⟩ := split_of_row (mid := mid) x hb hq1 hr2 hc s1 s2 (fun c hc => Borders.lt t (hlt c (hsub c hc)).choose_spec) rfl (by
    rw [s3.length_eq, List.length_append]
    have := halves_length (edgeAt m) (e :: es.dropLast) (marks s m.nodes.length (e :: es.dropLast))
    have := bridges_length (edgeAt m) (e :: es) (marks s m.nodes.length (e :: es.dropLast) ++ [some m.nodes.length])
    simp only [List.length_cons, List.length_dropLast] at *
    omega) s3
  have hce : cut s e = true := hcut e List.mem_cons_self
  refine ⟨acts, m', d1, d2, ?_, used_drawn x d2 hlt hsub ?_, hcut⟩
  rotate_left
  · intro z hz
    rcases List.mem_append.1 hz with h | h
    · exact h
    · rw [List.mem_singleton] at h
      rw [h, marks_cut hce]
      exact List.mem_cons_self
  refine divided_of x (by omega) d2 tr hd ?_ ?_
  · intro c hc hcut g hg
    obtain ⟨j, hj⟩ := List.mem_iff_getElem?.1 (hsub c hc)
    exact hround j c g hj hg
  · intro i c hi
    have hcc : cut s c = true := hcut c (List.mem_of_getElem? hi)
    rw [hrow] at hi
    by_cases hil : i < (e :: es.dropLast).length
    · rw [List.getElem?_append_left hil] at hi
      obtain ⟨z, z1, z2, z3⟩ := (marks_at (s := s) (ends := edgeAt m) (n := m.nodes.length) hi).1 hcc
      refine ⟨_, ?_, Or.inl ⟨z, rfl, hcc, z2, z3⟩⟩
      rw [List.getElem?_append_left (List.getElem?_eq_some_iff.1 z1).1, z1]
    · have hi0 := (List.getElem?_eq_some_iff.1 hi).1
      simp only [List.length_append, List.length_cons, List.length_nil, List.length_dropLast] at hi0 hil
      rw [List.getElem?_append_right (by simp only [List.length_cons, List.length_dropLast]; omega)] at hi
      have hie : i = (e :: es.dropLast).length := by simp only [List.length_cons, List.length_dropLast]; omega
      subst hie
      simp only [Nat.sub_self, List.getElem?_cons_zero, Option.some.injEq] at hi
      subst hi
      refine ⟨some m.nodes.length, ?_, Or.inl ⟨_, rfl, hcc, ?_⟩⟩
      · rw [List.getElem?_append_right (by rw [marks_length]), marks_length, Nat.sub_self]
        rfl
      · rw [marks_cut hcc]
        simp [halves]

/-- After the administration at the end of the call, which is not recorded, undo still gives back all nodes and edges: the administration changes nothing.
Missing: the new mesh must have no node with more than sixteen edges (`Manageable`). -/
theorem split_undone_partial {e : Nat} {acts : List (Act Pt)} (h : split mid s m e = .ok (some (acts, m'))) (hc : m.numEdges.length = m.nodes.length)
    (hw : Whole m') (hm : Manageable m') (hn : m.nodes ≠ []) (he : m.edges ≠ []) {order : Nat → List Nat → List Nat} (hp : ∀ n l, (order n l).Perm l) :
    ∃ m1, compute mid order s m e = .ok (some (acts, m1)) ∧ content m1 = content m' ∧
      ∃ bs m2, Undo.restoreAll (meshSem Pt) (committed acts) (.ok m1) = (bs, .ok m2) ∧ content m2 = content m ∧
        ∃ cs m3, Undo.commitAll (meshSem Pt) bs (.ok m2) = (cs, .ok m3) ∧ content m3 = content m' := by
  have g := split_good h
  have hn' : m'.nodes ≠ [] := by
    have := List.length_pos_iff.2 hn
    have := g.nodes
    exact List.length_pos_iff.1 (by omega)
  have he' : m'.edges ≠ [] := by
    have := List.length_pos_iff.2 he
    have := g.edges
    exact List.length_pos_iff.1 (by omega)
  obtain ⟨m1, h1, a⟩ := administrate_ok hm hn' he' order hp
  have hcon := Delete.administration_changes_nothing hm hn' he' hw.1 hw.2 hp h1
  refine ⟨m1, ?_, hcon, ?_⟩
  · unfold compute
    rw [h, Res.ok_bind]
    simp only
    rw [h1]
    rfl
  · have g1 : Good m acts m1 := by
      refine ⟨by rw [hcon]; exact g.chain, by rw [a.nodesLen]; exact g.nodes, by rw [a.edgesLen]; exact g.edges, ?_, fun _ => ?_⟩
      · rw [a.nodesLen, a.edgesLen]
        exact g.fits
      · rw [a.counts, List.length_map, a.lists, a.nodesLen]
    rw [← hcon]
    exact g1.undo_redo hc

/-- The parts of a quadrilateral cover it: their signed areas add up to its area, wherever the new nodes are on the lines of its sides, as the middles are. -/
theorem parts_area (at' : Nat → Pt) {a b c d : Nat} {x y : Option Nat}
    (hx : ∀ z, x = some z → ∃ l : ℚ, at' z = ⟨(1 - l) * (at' a).x + l * (at' b).x, (1 - l) * (at' a).y + l * (at' b).y⟩)
    (hy : ∀ z, y = some z → ∃ l : ℚ, at' z = ⟨(1 - l) * (at' c).x + l * (at' d).x, (1 - l) * (at' c).y + l * (at' d).y⟩) :
    ((parts a b c d x y).map (fun p => Polygons.shoelace (p.map at'))).sum = Polygons.shoelace ([a, b, c, d].map at') := by
  cases x with
  | none =>
    cases y with
    | none => simp [parts]
    | some y =>
      obtain ⟨l, hl⟩ := hy y rfl
      simp only [parts, List.map_cons, List.map_nil, List.sum_cons, List.sum_nil, Polygons.shoelace, Polygons.ringOf, Polygons.sides, List.head?_cons,
        List.cons_append, List.nil_append, List.zip_cons_cons, List.tail_cons, List.zip_nil_right, Option.toList, hl]
      ring
  | some x =>
    obtain ⟨l, hl⟩ := hx x rfl
    cases y with
    | none =>
      simp only [parts, List.map_cons, List.map_nil, List.sum_cons, List.sum_nil, Polygons.shoelace, Polygons.ringOf, Polygons.sides, List.head?_cons,
        List.cons_append, List.nil_append, List.zip_cons_cons, List.tail_cons, List.zip_nil_right, Option.toList, hl]
      ring
    | some y =>
      obtain ⟨k, hk⟩ := hy y rfl
      simp only [parts, List.map_cons, List.map_nil, List.sum_cons, List.sum_nil, Polygons.shoelace, Polygons.ringOf, Polygons.sides, List.head?_cons,
        List.cons_append, List.nil_append, List.zip_cons_cons, List.tail_cons, List.zip_nil_right, Option.toList, hl, hk]
      ring

theorem wf_of_exact (x : Exact m s) (he : m.edges.length ≤ missing) : WF m := by
  have some_of : ∀ i, edgeAt m i ≠ noEdge → m.edges[i]? = some (edgeAt m i) := by
    intro i hi
    have hlt : i < m.edges.length := edgeAt_lt hi
    simp [edgeAt, hlt]
  have fits : ∀ i, edgeAt m i ≠ noEdge → (edgeAt m i).1 < m.nodes.length ∧ (edgeAt m i).2 < m.nodes.length := by
    intro i hi
    obtain ⟨h1, h2, _⟩ := (x.ends i _ (some_of i hi)).resolve_left hi
    exact ⟨validNode_lt h1, validNode_lt h2⟩
  have list_of : ∀ n, n < m.nodes.length → m.nodesEdges[n]? = some (listAt m n) := by
    intro n hn
    rw [← x.lists] at hn
    simp [listAt, hn]
  refine ⟨x.nodesFit, he, ?_, x.lists, x.counts, ?_, ?_, ?_⟩
  · intro i
    by_cases hi : edgeAt m i = noEdge
    · exact Or.inl hi
    · exact Or.inr (fits i hi)
  · intro n i hi
    by_cases hn : n < m.nodes.length
    · obtain ⟨p, hp, hq⟩ := (x.listed n _ (list_of n hn) i).1 hi
      refine ⟨(List.getElem?_eq_some_iff.1 hp).1, Or.inr ?_⟩
      have : edgeAt m i = p := by simp [edgeAt, hp]
      rw [this]
      exact hq
    · rw [← x.lists] at hn
      simp [listAt, hn] at hi
  · intro n
    by_cases hn : n < m.nodes.length
    · exact x.nodup n _ (list_of n hn)
    · rw [← x.lists] at hn
      simp [listAt, hn]
  · intro i n hi ht
    have hn : n < m.nodes.length := by
      have := fits i hi
      rcases ht with h | h <;> omega
    exact (x.listed n _ (list_of n hn) i).2 ⟨_, some_of i hi, ht⟩

/-- The call splits at an edge between the two nodes, and is refused if there is none. -/
theorem api_split_row (x : Exact m s) (hf : m.edges.length ≤ missing) {order : Nat → List Nat → List Nat} {a b : Nat} (ha : a < m.nodes.length) (hb : b ≠ missing) :
    (apiSplitRow mid order s m a b = .throw ∧ ∀ i, ¬ joins (edgeAt m i) a b) ∨
    ∃ i, joins (edgeAt m i) a b ∧ i < m.edges.length ∧ apiSplitRow mid order s m a b = compute mid order s m i := by
  rcases findEdge_ok (wf_of_exact x hf) ha hb with ⟨h1, h2⟩ | ⟨i, h1, h2, h3⟩
  · left
    refine ⟨?_, h2⟩
    unfold apiSplitRow compute
    rw [h1, Res.ok_bind, wrong_edge_refused (by omega)]
    rfl
  · right
    refine ⟨i, h3, h1, ?_⟩
    unfold apiSplitRow
    rw [h2, Res.ok_bind]

end Verif.SplitRow
