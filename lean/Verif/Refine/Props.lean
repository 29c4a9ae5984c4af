import Verif.Refine.LevelLemmas
import Verif.Refine.ExactLemmas
import Verif.Refine.Example
import Mathlib.Tactic.Linarith
import Mathlib.Tactic.IntervalCases
import Mathlib.Tactic.FieldSimp
import Mathlib.Tactic.Ring
import Mathlib.Tactic.LinearCombination
import Mathlib.Algebra.Order.Field.Rat
import Mathlib.Algebra.Order.Field.Basic
/-!
# C53: refinement of a mesh
-/
namespace Verif.Refine
open Verif.Mesh Verif.Faces
open Verif.Polygons (Pt)
variable {P : Type}

/-! ## What is kept -/

/-- **C53** Whatever the samples, the polygon, the number of levels and the treatment of hanging nodes: when the refinement of a mesh succeeds, all
nodes of edges are where they were and have their numbers, and every edge is there, as a chain of edges between the same two ends. -/
theorem refinement_keeps_nodes_and_edges {g : Setting P} {m m' : Mesh P} {as : List (Act P)} (h : compute g m = .ok (as, m'))
    (hn : m'.nodes.length ≤ missing) (he : m'.edges.length ≤ missing) : Refines g.mid m m' :=
  (compute_makes h).refines hn he

/-- Points on the straight line from `p` to `q`. -/
def OnLine (p q r : Pt) : Prop := ∃ t : ℚ, 0 ≤ t ∧ t ≤ 1 ∧ r.x = p.x + t * (q.x - p.x) ∧ r.y = p.y + t * (q.y - p.y)

/-- **C53** In the plane the chain lies on the straight line between the two ends, so that no edge is moved. -/
theorem edges_stay_on_their_lines {g : Setting Pt} (hg : g.mid = midPt) {m m' : Mesh Pt} {as : List (Act Pt)} (h : compute g m = .ok (as, m'))
    (hn : m'.nodes.length ≤ missing) (he : m'.edges.length ≤ missing) {i x y : Nat} {p q : Pt} (hj : joins (edgeAt m i) x y)
    (hp : m.nodes[x]? = some (some p)) (hq : m.nodes[y]? = some (some q)) : Path m' (OnLine p q) x y := by
  refine (refinement_keeps_nodes_and_edges h hn he).edges (OnLine p q) ?_ x y ⟨i, hj, ⟨p, hp, 0, ?_⟩, q, hq, 1, ?_⟩
  · rw [hg]
    rintro a b ⟨s, s0, s1, sx, sy⟩ ⟨t, t0, t1, tx, ty⟩
    refine ⟨(s + t) / 2, by linarith, by linarith, ?_, ?_⟩
    · simp only [midPt, sx, tx]; ring
    · simp only [midPt, sy, ty]; ring
  · exact ⟨le_refl _, by norm_num, by ring, by ring⟩
  · exact ⟨by norm_num, le_refl _, by ring, by ring⟩

/-- **C53** Undoing a refinement brings back all nodes and edges, redoing it the refined mesh. -/
theorem refinement_undone {g : Setting P} {m m' : Mesh P} {as : List (Act P)} (h : compute g m = .ok (as, m'))
    (hc : m.numEdges.length = m.nodes.length) :
    ∃ bs m1, Undo.restoreAll (meshSem P) (committed as) (.ok m') = (bs, .ok m1) ∧ content m1 = content m ∧
      ∃ cs m2, Undo.commitAll (meshSem P) bs (.ok m1) = (cs, .ok m2) ∧ content m2 = content m' :=
  (compute_makes h).good.undo_redo hc

/-- A square is refined into four. -/
theorem square_in_four : shape (compute (plain [1, 1, 1, 1] 1 true) square) = .ok
    ([some ⟨0, 0⟩, some ⟨4, 0⟩, some ⟨4, 4⟩, some ⟨0, 4⟩, some ⟨2, 0⟩, some ⟨4, 2⟩, some ⟨2, 4⟩, some ⟨0, 2⟩, some ⟨2, 2⟩],
      [(0, 4), (1, 5), (2, 6), (3, 7), (4, 8), (5, 8), (6, 8), (7, 8), (4, 1), (5, 2), (6, 3), (7, 0)]) := by decide +kernel

/-- One of two squares is refined; the node in the common side is connected with the other square's nodes. -/
theorem neighbour_connected : shape (compute (plain [1, 1, 1, 1, 0, 0] 1 true) twoSquares) = .ok
    (twoSquares.nodes ++ [some ⟨2, 0⟩, some ⟨4, 2⟩, some ⟨2, 4⟩, some ⟨0, 2⟩, some ⟨2, 2⟩],
      [(0, 6), (1, 7), (2, 8), (3, 9), (1, 4), (4, 5), (5, 2), (6, 10), (7, 10), (8, 10), (9, 10), (6, 1), (7, 2), (8, 3), (9, 0), (5, 7), (4, 7)]) := by
  decide +kernel

theorem ok_of_shape {r : Res (List (Act Pt) × Mesh Pt)} {ns : List (Option Pt)} {es : List Edge} (h : shape r = .ok (ns, es)) :
    ∃ as m, r = .ok (as, m) ∧ m.nodes = ns ∧ m.edges = es := by
  match r, h with
  | .ok (as, m), h =>
    simp only [shape, Res.ok.injEq, Prod.mk.injEq] at h
    exact ⟨as, m, rfl, h.1, h.2⟩

/-- The square meets the hypotheses of the three theorems above. -/
example : ∃ as m', compute (plain [1, 1, 1, 1] 1 true) square = .ok (as, m') ∧ Refines midPt square m' ∧ Path m' (OnLine ⟨0, 0⟩ ⟨4, 0⟩) 0 1 := by
  obtain ⟨as, m', h, hn, he⟩ := ok_of_shape square_in_four
  have h1 : m'.nodes.length ≤ missing := by rw [hn]; decide
  have h2 : m'.edges.length ≤ missing := by rw [he]; decide
  exact ⟨as, m', h, refinement_keeps_nodes_and_edges h h1 h2,
    edges_stay_on_their_lines rfl h h1 h2 (i := 0) (Or.inl (by decide)) (by decide +kernel) (by decide +kernel)⟩

example : ∃ m' as, compute (plain [1, 1, 1, 1] 1 true) { square with numEdges := [0, 0, 0, 0] } = .ok (as, m') ∧
    ∃ bs m1, Undo.restoreAll (meshSem Pt) (committed as) (.ok m') = (bs, .ok m1) ∧ content m1 = content { square with numEdges := [0, 0, 0, 0] } := by
  have hs : shape (compute (plain [1, 1, 1, 1] 1 true) { square with numEdges := [0, 0, 0, 0] }) = .ok
    ([some ⟨0, 0⟩, some ⟨4, 0⟩, some ⟨4, 4⟩, some ⟨0, 4⟩, some ⟨2, 0⟩, some ⟨4, 2⟩, some ⟨2, 4⟩, some ⟨0, 2⟩, some ⟨2, 2⟩],
      [(0, 4), (1, 5), (2, 6), (3, 7), (4, 8), (5, 8), (6, 8), (7, 8), (4, 1), (5, 2), (6, 3), (7, 0)]) := by decide +kernel
  obtain ⟨as, m', h, _, _⟩ := ok_of_shape hs
  obtain ⟨bs, m1, h1, h2, _⟩ := refinement_undone h rfl
  exact ⟨m', as, h, bs, m1, h1, h2⟩

/-! ## What is added -/

/-- **C53** One round on a mesh without hanging nodes: exactly one node in the middle of every marked edge, one node in every marked face with at
least four sides of which more than two are marked, the edges inside the marked faces, and the two halves of the marked edges. -/
theorem round_exact {mid : P → P → P} {centre : Nat → P} {s : Split P} {st : State} {face : List Int}
    (r : Ready s.mesh st s.edge face s.node s.bro) (hroom : ∀ f, f < st.facesEdges.length → ¬ Full st s.edge face f) :
    ∃ u, refineBySplitting mid centre st face s = .ok u ∧ u.mesh.nodes = roundNodes mid centre s.mesh st s.edge face ∧
      u.mesh.edges = roundEdges s.mesh st s.edge face ∧ u.node = roundMarks s.mesh st s.edge face s.node :=
  round_exact_aux r hroom

/-- A quadrilateral with four marked sides gets four edges to the node inside. -/
theorem quadrilateral_in_four {m : Mesh P} {st : State} {mask face : List Int} {f a b c d : Nat} (hf : face.getD f 0 ≠ 0)
    (hs : sidesOf st f = [a, b, c, d]) (ha : mask.getD a 0 ≠ 0) (hb : mask.getD b 0 ≠ 0) (hc : mask.getD c 0 ≠ 0) (hd : mask.getD d 0 ≠ 0) :
    faceEdges m st mask face f = [(middleNo m mask a, centreNo m st mask face f), (middleNo m mask b, centreNo m st mask face f),
      (middleNo m mask c, centreNo m st mask face f), (middleNo m mask d, centreNo m st mask face f)] := by
  have h : sideMiddles m mask [a, b, c, d] = [middleNo m mask a, middleNo m mask b, middleNo m mask c, middleNo m mask d] := by
    unfold sideMiddles
    rw [List.filter_eq_self.2]
    · rfl
    · intro e he
      simp only [List.mem_cons, List.not_mem_nil, or_false] at he
      rcases he with rfl | rfl | rfl | rfl <;> simp only [bne_iff_ne, ne_eq] <;> assumption
  unfold faceEdges
  rw [if_neg hf, hs, h]
  rfl

/-- A triangle with three marked sides gets the three edges between the middles. -/
theorem triangle_in_four {m : Mesh P} {st : State} {mask face : List Int} {f a b c : Nat} (hf : face.getD f 0 ≠ 0)
    (hs : sidesOf st f = [a, b, c]) (ha : mask.getD a 0 ≠ 0) (hb : mask.getD b 0 ≠ 0) (hc : mask.getD c 0 ≠ 0) :
    faceEdges m st mask face f = [(middleNo m mask a, middleNo m mask b), (middleNo m mask b, middleNo m mask c),
      (middleNo m mask c, middleNo m mask a)] := by
  have h : sideMiddles m mask [a, b, c] = [middleNo m mask a, middleNo m mask b, middleNo m mask c] := by
    unfold sideMiddles
    rw [List.filter_eq_self.2]
    · rfl
    · intro e he
      simp only [List.mem_cons, List.not_mem_nil, or_false] at he
      rcases he with rfl | rfl | rfl <;> simp only [bne_iff_ne, ne_eq] <;> assumption
  unfold faceEdges
  rw [if_neg hf, hs, h]
  rfl

/-- The state in which a round on the square starts. -/
def squareSplit : Split Pt := ⟨[], { square with nodesEdges := [[], [], [], []], numEdges := [0, 0, 0, 0] }, [1, 1, 1, 1], [1, 1, 1, 1], List.replicate 4 missing⟩

def squareFaces : State := ⟨[1, 1, 1, 1], [(0, missing), (0, missing), (0, missing), (0, missing)], [[0, 1, 2, 3]], [[0, 1, 2, 3]]⟩

theorem squareSplit_ready : Ready squareSplit.mesh squareFaces squareSplit.edge [1] squareSplit.node squareSplit.bro where
  lists := rfl
  counts := rfl
  fits := by decide
  edgesFit := by decide
  placed e he _ := by
    have : e < 4 := he
    interval_cases e <;> decide +kernel
  masks := rfl
  marks := rfl
  faces := rfl
  corners := rfl
  noHanging := rfl
  sides f es hf := by
    have h := (List.getElem?_eq_some_iff.1 hf).1
    have : f < 1 := h
    obtain rfl : f = 0 := by omega
    obtain rfl := Option.some.inj hf
    decide
  ends f es hf := by
    have h := (List.getElem?_eq_some_iff.1 hf).1
    have : f < 1 := h
    obtain rfl : f = 0 := by omega
    obtain rfl := Option.some.inj hf
    decide

example : ∃ u, refineBySplitting midPt (fun _ => ⟨2, 2⟩) squareFaces [1] squareSplit = .ok u ∧
    u.mesh.edges = [(0, 4), (1, 5), (2, 6), (3, 7), (4, 8), (5, 8), (6, 8), (7, 8), (4, 1), (5, 2), (6, 3), (7, 0)] ∧ u.node = [1, 1, 1, 1, 1, 1, 1, 1, 1] := by
  obtain ⟨u, h, _, he, hn⟩ := round_exact (mid := midPt) (centre := fun _ => ⟨2, 2⟩) squareSplit_ready fun f hf => by
    have : f < 1 := hf
    obtain rfl : f = 0 := by omega
    unfold Full
    decide +kernel
  exact ⟨u, h, by rw [he]; decide +kernel, by rw [hn]; decide +kernel⟩

/-! ## Which faces are split -/

/-- **C53** Refinement by edge length, without hanging nodes: a face that is active and whose sides are all long enough is marked, and so are all its
sides. -/
theorem selected_faces_are_split {g : Setting P} {short : Option P → Option P → Bool} {level : Nat} {v : Level P} {w : Spread}
    (h : levelMasks g level v = .ok w) (hg : g.marks = sizeMarks short) (hfit : v.mesh.edges.length ≤ missing)
    (hbro : v.bro = List.replicate v.mesh.edges.length missing) (hcache : v.hang.edge.countP id = 0) {f : Nat} {es ns : List Nat}
    (hes : v.st.facesEdges[f]? = some es) (hns : v.st.facesNodes[f]? = some ns) (hne : es ≠ []) (hs : ∀ e ∈ es, e < v.mesh.edges.length)
    (hact : Active level v.node ns)
    (hlong : ∀ e ∈ es, short (v.mesh.nodes[(edgeAt v.mesh e).1]?.join) (v.mesh.nodes[(edgeAt v.mesh e).2]?.join) = false) :
    w.face.getD f 0 ≠ 0 ∧ ∀ e ∈ es, w.edge.getD e 0 ≠ 0 :=
  selected_marked h hg hfit hbro hcache hes hns hne hs hact hlong

/-- The square, before its first level. -/
def squareLevel : Level Pt := ⟨[], squareSplit.mesh, squareFaces, [1, 1, 1, 1], List.replicate 4 missing, ⟨[], []⟩⟩

/-- The masks of faces and edges and the number of edges marked last. -/
def masks (r : Res Spread) : Option (List Int × List Int × Nat) :=
  match r with
  | .ok w => some (w.face, w.edge, w.num)
  | _ => none

theorem ok_of_masks {r : Res Spread} {a b : List Int} {c : Nat} (h : masks r = some (a, b, c)) : ∃ w, r = .ok w ∧ w.face = a ∧ w.edge = b ∧ w.num = c := by
  match r, h with
  | .ok w, h =>
    simp only [masks, Option.some.injEq, Prod.mk.injEq] at h
    exact ⟨w, rfl, h.1, h.2.1, h.2.2⟩

theorem squareLevel_masks : masks (levelMasks (plain [1, 1, 1, 1] 1 true) 0 squareLevel) = some ([1], [1, 1, 1, 1], 0) := by decide +kernel

example : ∃ w, levelMasks (plain [1, 1, 1, 1] 1 true) 0 squareLevel = .ok w ∧ w.face.getD 0 0 ≠ 0 ∧ ∀ e ∈ [0, 1, 2, 3], w.edge.getD e 0 ≠ 0 := by
  obtain ⟨w, h, _⟩ := ok_of_masks squareLevel_masks
  exact ⟨w, h, selected_faces_are_split (short := fun _ _ => false) h rfl (by decide) rfl (by decide) (f := 0) (es := [0, 1, 2, 3]) (ns := [0, 1, 2, 3]) rfl rfl (by decide) (by decide)
    ⟨0, by decide, by decide⟩ fun _ _ => rfl⟩

/-- **C53** When the polygon selects no node, a mesh without hanging nodes is not changed, apart from the administration. -/
theorem nothing_selected {g : Setting P} {short : Option P → Option P → Bool} {m m' : Mesh P} {as : List (Act P)} (h : compute g m = .ok (as, m'))
    (hg : g.marks = sizeMarks short) (hc : g.connectHanging = false) {a : List (Act P) × Mesh P × State} (ha : administrateAll g m = .ok a)
    (hbro : findBrotherEdges g.middle a.2.1 a.2.2 = .ok (List.replicate a.2.1.edges.length missing))
    (hsz : ∀ (f : Nat) es, a.2.2.facesEdges[f]? = some es → 2 ≤ es.length ∧ es.length ≤ 6)
    (hlen : a.2.2.facesNodes.length = a.2.2.facesEdges.length) (hz : ∀ k ∈ g.nodeMask a.2.1 a.2.2, k = 0) : m' = a.2.1 ∧ as = a.1 := by
  simp only [compute, Res.bind_eq_ok] at h
  obtain ⟨a', ha', bro, hb, node, hn, v, hv, h⟩ := h
  rw [ha] at ha'
  obtain rfl := Res.ok.inj ha'
  rw [hbro] at hb
  obtain rfl := Res.ok.inj hb
  obtain ⟨h1, h2, _, _⟩ := levels_unmarked hv hg rfl hsz hlen (perimeterMask_zero hz hn)
  simp only [finish, hc, Bool.false_eq_true, if_false, Res.ok.injEq, Prod.mk.injEq] at h
  exact ⟨by rw [← h.2, h1], by rw [← h.1, h2]⟩

example : shape (compute (plain [0, 0, 0, 0] 3 false) square) = .ok (square.nodes, square.edges) := by decide +kernel

/-- Faces, brothers and number of edges after the administration. -/
def administered (r : Res (List (Act Pt) × Mesh Pt × State)) : Option (List (List Nat) × List (List Nat) × Res (List Nat) × Nat) :=
  match r with
  | .ok a => some (a.2.2.facesEdges, a.2.2.facesNodes, findBrotherEdges isMiddle a.2.1 a.2.2, a.2.1.edges.length)
  | _ => none

theorem ok_of_administered {r : Res (List (Act Pt) × Mesh Pt × State)} {x y : List (List Nat)} {z : Res (List Nat)} {n : Nat}
    (h : administered r = some (x, y, z, n)) : ∃ a, r = .ok a ∧ a.2.2.facesEdges = x ∧ a.2.2.facesNodes = y ∧ findBrotherEdges isMiddle a.2.1 a.2.2 = z ∧
      a.2.1.edges.length = n := by
  match r, h with
  | .ok a, h =>
    simp only [administered, Option.some.injEq, Prod.mk.injEq] at h
    exact ⟨a, rfl, h.1, h.2.1, h.2.2.1, h.2.2.2⟩

theorem square_administrated : administered (administrateAll (plain [0, 0, 0, 0] 3 false) square) =
    some ([[0, 1, 2, 3]], [[0, 1, 2, 3]], .ok (List.replicate 4 missing), 4) := by decide +kernel

example : ∃ as m' a, compute (plain [0, 0, 0, 0] 3 false) square = .ok (as, m') ∧ administrateAll (plain [0, 0, 0, 0] 3 false) square = .ok a ∧ m' = a.2.1 := by
  have hs : shape (compute (plain [0, 0, 0, 0] 3 false) square) = .ok (square.nodes, square.edges) := by decide +kernel
  obtain ⟨as, m', h, _, _⟩ := ok_of_shape hs
  obtain ⟨a, h2, a1, a2, a3, a4⟩ := ok_of_administered square_administrated
  refine ⟨as, m', a, h, h2, (nothing_selected (short := fun _ _ => false) h rfl rfl h2 (by rw [a4]; exact a3) ?_ (by rw [a1, a2]) ?_).1⟩
  · intro f es hf
    rw [a1] at hf
    have hl : f < 1 := (List.getElem?_eq_some_iff.1 hf).1
    obtain rfl : f = 0 := by omega
    obtain rfl := Option.some.inj hf
    decide
  · exact (by decide : ∀ k ∈ ([0, 0, 0, 0] : List Int), k = 0)

/-- **C53** A face that is not split has at most six sides afterwards, provided that the search for faces to be split came to an end: its sides and the new
nodes on them are together at most six. -/
theorem unsplit_faces_stay_small {g : Setting P} {level : Nat} {v : Level P} {w : Spread} (h : levelMasks g level v = .ok w) (hend : w.num = 0)
    {f : Nat} {es : List Nat} (hes : v.st.facesEdges[f]? = some es) (hs : ∀ e ∈ es, e < w.edge.length) (h0 : w.face[f]? = some 0) :
    es.length + (es.filter (fun e => w.edge.getD e 0 != 0)).length ≤ 6 := by
  obtain ⟨k, fm, em, _, _, _, h4⟩ := levelMasks_eq h
  exact ((spread_ok h4).2 (by decide) hend f (List.getElem?_eq_some_iff.1 hes).1 h0).small es _ hes (countToRefine_eq hs)

/-- Two squares of which one is to be refined: the other one keeps five sides. -/
def twoLevel : Level Pt :=
  ⟨[], { twoSquares with nodesEdges := List.replicate 6 [], numEdges := List.replicate 6 0 },
    ⟨[1, 2, 1, 1, 1, 1, 1], [(0, missing), (0, 1), (0, missing), (0, missing), (1, missing), (1, missing), (1, missing)], [[0, 1, 2, 3], [1, 4, 5, 2]], [[0, 1, 2, 3], [4, 5, 6, 1]]⟩,
    [1, -2, -2, 1, 0, 0], List.replicate 7 missing, ⟨[], []⟩⟩

theorem twoLevel_masks : masks (levelMasks (plain [1, 1, 1, 1, 0, 0] 1 true) 0 twoLevel) = some ([1, 0], [1, 1, 1, 1, 0, 0, 0], 0) := by decide +kernel

example : ∃ w, levelMasks (plain [1, 1, 1, 1, 0, 0] 1 true) 0 twoLevel = .ok w ∧
    4 + ([4, 5, 6, 1].filter (fun e => w.edge.getD e 0 != 0)).length ≤ 6 := by
  obtain ⟨w, h, h1, h2, h3⟩ := ok_of_masks twoLevel_masks
  exact ⟨w, h, unsplit_faces_stay_small h h3 (f := 1) (es := [4, 5, 6, 1]) rfl (by rw [h2]; decide) (by rw [h1]; rfl)⟩

/-- **C53** Two edges are taken as the halves of one edge only if they have a node in common that lies in the middle between their other ends. -/
theorem halves_meet_in_the_middle {middle : Option P → Option P → Option P → Bool} {m : Mesh P} {s : State} {bro : List Nat}
    (h : findBrotherEdges middle m s = .ok bro) {e f : Nat} (hf : bro[e]? = some f) (h0 : f ≠ missing) : ∃ n, BrotherAt middle m n e f :=
  ((brothers_sound h).2 e f hf).resolve_left h0

/-- A square with a node in the middle of a side. -/
def hangingSquare : Mesh Pt :=
  ⟨[some ⟨0, 0⟩, some ⟨4, 0⟩, some ⟨4, 4⟩, some ⟨0, 4⟩, some ⟨4, 2⟩], [(0, 1), (1, 4), (4, 2), (2, 3), (3, 0)], [[0, 4], [0, 1], [2, 3], [3, 4], [1, 2]], [2, 2, 2, 2, 2]⟩

def hangingFaces : State := ⟨[1, 1, 1, 1, 1], List.replicate 5 (0, missing), [[0, 1, 4, 2, 3]], [[0, 1, 2, 3, 4]]⟩

theorem hangingSquare_brothers : findBrotherEdges isMiddle hangingSquare hangingFaces = .ok [missing, 2, 1, missing, missing] := by decide +kernel

example : ∃ n, BrotherAt isMiddle hangingSquare n 1 2 := halves_meet_in_the_middle hangingSquare_brothers (e := 1) rfl (by decide)

/-! ## Where refinement fails -/

/-- **C53, violation** A face with six marked sides ends the round (`MeshRefinement.cpp:637-640`): the middles of all marked edges have been added, but no
edge is cut, and the faces after it are left as they were. -/
theorem round_gives_up {mid : P → P → P} {centre : Nat → P} {s : Split P} {st : State} {face : List Int} (r : Ready s.mesh st s.edge face s.node s.bro)
    {k : Nat} (hk : k < st.facesEdges.length) (hfull : Full st s.edge face k) (hroom : ∀ f, f < k → ¬ Full st s.edge face f) :
    ∃ u, refineBySplitting mid centre st face s = .ok u ∧
      u.mesh.nodes = s.mesh.nodes ++ (markedUpTo s.edge s.mesh.edges.length).map (midPoint mid s.mesh) ++
        (centresUpTo st s.edge face k).map (fun f => some (centre f)) ∧
      u.mesh.edges = s.mesh.edges ++ (List.range k).flatMap (faceEdges s.mesh st s.edge face) :=
  round_gives_up_aux r hk hfull hroom

/-- **C53, violation** A hexagon is selected, but not refined: its edges are those from before, and the new nodes are deleted by the administration. -/
theorem hexagon_is_not_refined : shape (compute (plain [1, 1, 1, 1, 1, 1] 1 true) hexagon) = .ok (hexagon.nodes ++ List.replicate 6 none, hexagon.edges) := by
  decide +kernel

def hexagonSplit : Split Pt :=
  ⟨[], { hexagon with nodesEdges := List.replicate 6 [], numEdges := List.replicate 6 0 }, List.replicate 6 1, List.replicate 6 1, List.replicate 6 missing⟩

def hexagonFaces : State := ⟨List.replicate 6 1, List.replicate 6 (0, missing), [[0, 1, 2, 3, 4, 5]], [[0, 1, 2, 3, 4, 5]]⟩

theorem hexagonSplit_ready : Ready hexagonSplit.mesh hexagonFaces hexagonSplit.edge [1] hexagonSplit.node hexagonSplit.bro where
  lists := rfl
  counts := rfl
  fits := by decide
  edgesFit := by decide
  placed e he _ := by
    have : e < 6 := he
    interval_cases e <;> decide +kernel
  masks := rfl
  marks := rfl
  faces := rfl
  corners := rfl
  noHanging := rfl
  sides f es hf := by
    have h := (List.getElem?_eq_some_iff.1 hf).1
    have : f < 1 := h
    obtain rfl : f = 0 := by omega
    obtain rfl := Option.some.inj hf
    decide
  ends f es hf := by
    have h := (List.getElem?_eq_some_iff.1 hf).1
    have : f < 1 := h
    obtain rfl : f = 0 := by omega
    obtain rfl := Option.some.inj hf
    decide

example : ∃ u, refineBySplitting midPt (fun _ => ⟨0, 0⟩) hexagonFaces [1] hexagonSplit = .ok u ∧ u.mesh.edges = hexagon.edges := by
  obtain ⟨u, h, _, he⟩ := round_gives_up (mid := midPt) (centre := fun _ => ⟨0, 0⟩) hexagonSplit_ready (k := 0) (by decide)
    (by unfold Full; decide +kernel) fun f hf => absurd hf (Nat.not_lt_zero _)
  exact ⟨u, h, by rw [he]; decide +kernel⟩

/-- **C53, violation** A pentagon next to a refined square has one hanging node, and connecting it throws (`MeshRefinement.cpp:494-497`) after the square was
refined. Without connecting hanging nodes the refinement succeeds. -/
theorem pentagon_makes_refinement_fail : shape (compute (plain [1, 1, 1, 1, 0, 0, 0] 1 true) squareAndPentagon) = .throw ∧
    ∃ r, shape (compute (plain [1, 1, 1, 1, 0, 0, 0] 1 false) squareAndPentagon) = .ok r := by
  constructor
  · decide +kernel
  · exact ⟨(squareAndPentagon.nodes ++ [some ⟨2, 0⟩, some ⟨4, 2⟩, some ⟨2, 4⟩, some ⟨0, 2⟩, some ⟨2, 2⟩],
      [(0, 7), (1, 8), (2, 9), (3, 10), (1, 4), (4, 5), (5, 6), (6, 2), (7, 11), (8, 11), (9, 11), (10, 11), (7, 1), (8, 2), (9, 3), (10, 0)]), by decide +kernel⟩

/-- **C53, violation** Two neighbouring sides of a quadrilateral are recognised as such only if the first side is not one of them: 0 stands for "none"
(`MeshRefinement.cpp:1230-1239`). -/
theorem neighbouring_sides_missed : twoNeighbours [0, 1, 1, 0] = true ∧ twoNeighbours [0, 0, 1, 1] = true ∧
    twoNeighbours [1, 1, 0, 0] = false ∧ twoNeighbours [1, 0, 0, 1] = false := by decide +kernel

/-- **C53, violation** The number of hanging edges is that of the face handled last (`MeshRefinement.cpp:1165`). With 2 left from another face, a hexagon without
hanging nodes is handled as a quadrilateral, and a fifth entry of an array of four is written. -/
theorem stale_count_writes_out_of_range : edgesRefinementMask (List.replicate 6 missing) [1] ⟨List.replicate 6 false, [true, true, false, false, false, false]⟩
    ⟨List.replicate 6 1, List.replicate 6 (0, missing), [[0, 1, 2, 3, 4, 5]], [[0, 1, 2, 3, 4, 5]]⟩ (List.replicate 6 (-1)) = .ub := by decide +kernel

end Verif.Refine
