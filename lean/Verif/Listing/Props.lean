import Verif.Listing.NodeLemmas
import Verif.Quality.Props
/-!
# C73: the polygons of the faces; C74: the nodes in polygons
-/
namespace Verif.Listing
open Verif.Mesh Verif.Faces Verif.Quality
open Verif.Polygons (Pt Enclosure InArea InHole isPointInPolygons)
variable {P : Type}

/-! ## C73: faces with a number of edges -/

section
variable {order : List (Option P) → List Edge → Nat → List Nat → List Nat} (hperm : ∀ v e n l, (order v e n l).Perm l)
  (cw : List (Option P) → List Nat → Bool)
include hperm

/-- **C73.** The arrays receive, in the order of the faces of the mesh, each face with the asked number of edges: its corners and the first
corner once more, with missing values between the polygons and the rest of the arrays as before.  Arrays that are too short are overrun. -/
theorem face_polygons_exact {m : Mesh P} (hn : m.nodes.length ≤ missing) (hb : inBounds m = true) :
    ∃ m1 s, administer order cw m = .ok (m1, s) ∧ ∀ (k : Int) (buf : List (Option P)),
      let rs := (s.facesNodes.filter fun ns => decide ((ns.length : Int) = k)).map (ring m1.nodes)
      (∀ r ∈ rs, none ∉ r ∧ (r.length : Int) = k + 1 ∧ r.head? = r.getLast?) ∧
      ((listing rs).length ≤ buf.length → getFacePolygons order cw m k buf = .ok (m1, listing rs ++ buf.drop (listing rs).length)) ∧
      (buf.length < (listing rs).length → getFacePolygons order cw m k buf = .ub) := by
  obtain ⟨m1, s, h1, _, _, h4⟩ := administer_ok hperm cw hn hb
  have hv : ∀ ns ∈ s.facesNodes, ns ≠ [] ∧ ∀ n ∈ ns, n < m1.nodes.length := fun ns hns =>
    ⟨fun h => by have := (h4 ns hns).1.1; rw [h] at this; simp at this, fun n hn' => validNode_lt ((h4 ns hns).2 n hn')⟩
  have hg : ∀ (k : Int) (buf : List (Option P)), getFacePolygons order cw m k buf =
      (fillFacePolygons m1.nodes s.facesNodes (validFace s.facesNodes k) buf >>= fun b => .ok (m1, b)) := by
    intro k buf
    rw [getFacePolygons, h1]; rfl
  refine ⟨m1, s, h1, fun k buf => ⟨?_, fun hl => ?_, fun hl => ?_⟩⟩
  · intro r hr
    obtain ⟨ns, hns, rfl⟩ := List.mem_map.1 hr
    obtain ⟨hm, hk⟩ := List.mem_filter.1 hns
    refine ⟨?_, ?_, ?_⟩
    · intro hx
      unfold ring at hx
      obtain ⟨n, hn', hj⟩ := List.mem_map.1 hx
      have hnm : n ∈ ns := by
        rcases List.mem_append.1 hn' with h | h
        · exact h
        · exact List.mem_of_mem_take h
      have := (h4 ns hm).2 n hnm
      unfold validNode at this
      rw [hj] at this
      simp at this
    · rw [ring_length (hv ns hm).1]
      have := of_decide_eq_true hk
      push_cast; omega
    · obtain ⟨n, ns', rfl⟩ := List.exists_cons_of_ne_nil (hv ns hm).1
      have e : ring m1.nodes (n :: ns') = (n :: ns').map (fun n => m1.nodes[n]?.join) ++ [m1.nodes[n]?.join] := by simp [ring]
      rw [e, List.getLast?_concat]; simp
  · rw [hg, fillFacePolygons_eq (by simp [validFace]) hv, validFace, picked_filter, if_pos hl]; rfl
  · rw [hg, fillFacePolygons_eq (by simp [validFace]) hv, validFace, picked_filter, if_neg (by omega)]; rfl

/-- **C73.** If some face has the asked number of edges, the announced size is the number of values written. -/
theorem face_polygons_size {m : Mesh P} (hn : m.nodes.length ≤ missing) (hb : inBounds m = true) :
    ∃ m1 s, administer order cw m = .ok (m1, s) ∧ ∀ k d : Int,
      let rs := (s.facesNodes.filter fun ns => decide ((ns.length : Int) = k)).map (ring m1.nodes)
      (rs ≠ [] → getFacePolygonsDimension order cw m k d = .ok (m1, ((listing rs).length : Int))) ∧
      (rs = [] → getFacePolygonsDimension order cw m k d = .ok (m1, d)) := by
  obtain ⟨m1, s, h1, _, _, h4⟩ := administer_ok hperm cw hn hb
  have hg : ∀ k d : Int, getFacePolygonsDimension order cw m k d = .ok (m1, dimensionOf s.facesNodes k d) := by
    intro k d
    rw [getFacePolygonsDimension, h1]; rfl
  refine ⟨m1, s, h1, fun k d => ⟨fun hr => ?_, fun hr => ?_⟩⟩
  · rw [hg]
    congr 2
    have e : numMatching s.facesNodes k = (s.facesNodes.filter fun ns => decide ((ns.length : Int) = k)).length := by
      unfold numMatching; rw [List.countP_eq_length_filter]
    have hl : ∀ l : List (List Nat), (∀ ns ∈ l, ns ≠ [] ∧ (ns.length : Int) = k) →
        ((l.map (ring m1.nodes)).map fun r => (r.length : Int) + 1).sum = (k + 2) * (l.length : Int) := by
      intro l
      induction l with
      | nil => intro _; simp
      | cons a l ih =>
        intro h
        have ha := h a (by simp)
        rw [List.map_cons, List.map_cons, List.sum_cons, ih (fun x hx => h x (List.mem_cons_of_mem _ hx)), ring_length ha.1, List.length_cons]
        push_cast
        rw [ha.2]; ring
    have hm := hl (s.facesNodes.filter fun ns => decide ((ns.length : Int) = k)) (fun ns hns => by
      obtain ⟨hm, hk⟩ := List.mem_filter.1 hns
      exact ⟨fun h => by have := (h4 ns hm).1.1; rw [h] at this; simp at this, of_decide_eq_true hk⟩)
    have hk : 3 ≤ k ∧ 0 < (s.facesNodes.filter fun ns => decide ((ns.length : Int) = k)).length := by
      have hne : (s.facesNodes.filter fun ns => decide ((ns.length : Int) = k)) ≠ [] := fun h => hr (by rw [h]; rfl)
      refine ⟨?_, List.length_pos_iff.2 hne⟩
      obtain ⟨ns, hns⟩ := List.exists_mem_of_ne_nil _ hne
      obtain ⟨hm, hk⟩ := List.mem_filter.1 hns
      have := (h4 ns hm).1.1
      have := of_decide_eq_true hk
      omega
    rw [listing_length, hm, if_pos (by have := hk.1; have := hk.2; positivity)]
    unfold dimensionOf
    rw [e, if_pos hk.2]
    ring
  · rw [hg]
    congr 2
    have hz : (s.facesNodes.filter fun ns => decide ((ns.length : Int) = k)) = [] := List.map_eq_nil_iff.1 hr
    unfold dimensionOf numMatching
    rw [List.countP_eq_length_filter, hz]
    simp

/-- **C73.** Asking for the size, reserving that much and asking for the polygons works: the polygons fill the arrays, and reading them back gives the
faces with the asked number of edges.  The second call does not change the mesh any more. -/
theorem face_polygons_two_calls {m : Mesh P} (hn : m.nodes.length ≤ missing) (hb : inBounds m = true) {k d D : Int} {m1 : Mesh P}
    (h : getFacePolygonsDimension order cw m k d = .ok (m1, D)) :
    ∃ s, administer order cw m = .ok (m1, s) ∧ administer order cw m1 = .ok (m1, s) ∧
      ∀ buf : List (Option P), (buf.length : Int) = D → (∃ ns ∈ s.facesNodes, (ns.length : Int) = k) →
        ∃ out, getFacePolygons order cw m1 k buf = .ok (m1, out) ∧ out.length = buf.length ∧
          parts out = (s.facesNodes.filter fun ns => decide ((ns.length : Int) = k)).map (ring m1.nodes) := by
  obtain ⟨m2, s, h1, h2⟩ := face_polygons_size hperm cw hn hb
  obtain ⟨m3, s3, h3, h4⟩ := face_polygons_exact hperm cw hn hb
  rw [h1] at h3
  obtain ⟨rfl, rfl⟩ := Prod.mk.inj (Res.ok.inj h3)
  have hm : m1 = m2 := by
    rw [getFacePolygonsDimension, h1] at h
    exact (Prod.mk.inj (Res.ok.inj h)).1.symm
  subst hm
  have again := administer_again h1
  have same : ∀ buf, getFacePolygons order cw m1 k buf = getFacePolygons order cw m k buf := by
    intro buf
    rw [getFacePolygons, getFacePolygons, h1, again]
  refine ⟨s, h1, again, fun buf hbuf ⟨ns, hns, hk⟩ => ?_⟩
  have hne : (s.facesNodes.filter fun ns => decide ((ns.length : Int) = k)).map (ring m1.nodes) ≠ [] := by
    rw [ne_eq, List.map_eq_nil_iff]
    intro hz
    have : ns ∈ s.facesNodes.filter fun ns => decide ((ns.length : Int) = k) := List.mem_filter.2 ⟨hns, by simpa using hk⟩
    rw [hz] at this
    simp at this
  have hd := (h2 k d).1 hne
  rw [h] at hd
  have hD : D = _ := (Prod.mk.inj (Res.ok.inj hd)).2
  obtain ⟨g1, g2, _⟩ := h4 k buf
  have hlen : (listing ((s.facesNodes.filter fun ns => decide ((ns.length : Int) = k)).map (ring m1.nodes))).length = buf.length := by
    rw [hD] at hbuf
    exact_mod_cast hbuf.symm
  refine ⟨_, by rw [same]; exact g2 (by omega), ?_, ?_⟩
  · simp [hlen]
  · rw [hlen, List.drop_length, List.append_nil]
    obtain ⟨r, rs, hr⟩ := List.exists_cons_of_ne_nil hne
    rw [hr] at g1 ⊢
    exact parts_listing (fun x hx => (g1 x hx).1)

end

/-! ## C73: faces chosen by a value of their edges -/

/-- **C73.** The faces of which every edge has an orthogonality within the bounds are written in the same way, and the announced size is the number of
values written, for no face 0. -/
theorem filtered_polygons_exact (other : List Pt → List Nat → Pt) {m m1 : Mesh Pt} {s : State} (hn : m.nodes.length ≤ missing) (hb : inBounds m = true)
    (hrun : doAdministrationCartesian m = .ok (m1, s)) (hF : s.facesNodes.length ≤ missing) (h0 : m1.nodes.length ≠ 0) (lo hi : ℝ) :
    ∃ l mask, orthogonality (tables other m1 s) = .ok l ∧ mask.length = s.facesNodes.length ∧
      (∀ (f : Nat) es, s.facesEdges[f]? = some es → (mask[f]? = some true ↔ ∀ e ∈ es, ∀ v, l[e]? = some v → lo ≤ v.getD (-999) ∧ v.getD (-999) ≤ hi)) ∧
      getFilteredDimension m1.nodes s (orthogonalityValues (tables other m1 s)) 0 lo hi =
        .ok (((listing ((picked s.facesNodes mask).map (ring m1.nodes))).length : Nat) : Int) ∧
      ∀ buf : List (Option Pt),
        ((listing ((picked s.facesNodes mask).map (ring m1.nodes))).length ≤ buf.length →
          getFiltered m1.nodes s (orthogonalityValues (tables other m1 s)) 0 lo hi buf =
            .ok (listing ((picked s.facesNodes mask).map (ring m1.nodes)) ++
              buf.drop (listing ((picked s.facesNodes mask).map (ring m1.nodes))).length)) ∧
        (buf.length < (listing ((picked s.facesNodes mask).map (ring m1.nodes))).length →
          getFiltered m1.nodes s (orthogonalityValues (tables other m1 s)) 0 lo hi buf = .ub) := by
  have r := ready_of_run hn hb hrun hF
  obtain ⟨l, hl, hlen, _⟩ := orthogonality_exact other hn hb hrun hF
  have hvals : orthogonalityValues (tables other m1 s) = .ok (l.map fun v => v.getD (-999)) := by rw [orthogonalityValues, hl]; rfl
  have hedges : ∀ es ∈ s.facesEdges, ∀ e ∈ es, e < (l.map fun v => v.getD (-999)).length := by
    intro es hes e he
    obtain ⟨f, hf, hg⟩ := List.getElem_of_mem hes
    have hf' : f < s.facesNodes.length := by rw [r.consistent.lengths]; exact hf
    have hp := (r.consistent.proper f _ es (List.getElem?_eq_getElem hf') (by rw [List.getElem?_eq_getElem hf, hg])).1
    obtain ⟨i, hi, hie⟩ := List.getElem_of_mem he
    obtain ⟨_, _, e', p, _, _, h3, h4, _⟩ := hp.sides i (by rw [← hp.len]; exact hi)
    rw [List.getElem?_eq_getElem hi, hie] at h3
    obtain rfl := Option.some.inj h3
    rw [List.length_map, hlen]
    exact (List.getElem?_eq_some_iff.1 h4).1
  obtain ⟨mask, k1, k2, k3⟩ := filterFaces_ok (lo := lo) (hi := hi) hedges
  have hv : ∀ ns ∈ s.facesNodes, ns ≠ [] ∧ ∀ n ∈ ns, n < m1.nodes.length := by
    intro ns hns
    obtain ⟨f, hf, hg⟩ := List.getElem_of_mem hns
    have hfe : f < s.facesEdges.length := by rw [← r.consistent.lengths]; exact hf
    have hf' : s.facesNodes[f]? = some ns := by rw [List.getElem?_eq_getElem hf, hg]
    have hp := (r.consistent.proper f ns _ hf' (List.getElem?_eq_getElem hfe)).1
    exact ⟨fun h => by have := hp.atLeast; rw [h] at this; simp at this, fun n hn' => validNode_lt (r.valid f ns hf' n hn')⟩
  have hmask : mask.length = s.facesNodes.length := by rw [k2, r.consistent.lengths]
  have hfilter : filterBasedOnMetric 0 (orthogonalityValues (tables other m1 s)) s.facesEdges lo hi = .ok mask := by
    rw [filterBasedOnMetric, if_neg (by simp), hvals]; exact k1
  refine ⟨l, mask, hl, hmask, ?_, ?_, fun buf => ⟨fun hle => ?_, fun hlt => ?_⟩⟩
  · intro f es hf
    rw [k3 f es hf]
    constructor
    · intro h e he v hv'
      exact h e he _ (by rw [List.getElem?_map, hv']; rfl)
    · intro h e he v hv'
      rw [List.getElem?_map] at hv'
      obtain ⟨w, hw, rfl⟩ := Option.map_eq_some_iff.1 hv'
      exact h e he w hw
  · rw [getFilteredDimension, if_neg (by omega), hfilter, Res.ok_bind, filteredDimension_eq m1.nodes (fun ns hns => (hv ns hns).1)]
  · rw [getFiltered, if_neg (by omega), hfilter, Res.ok_bind, fillFacePolygons_eq hmask hv, if_pos hle]
  · rw [getFiltered, if_neg (by omega), hfilter, Res.ok_bind, fillFacePolygons_eq hmask hv, if_neg (by omega)]

/-- **C73.** Every other property than orthogonality, and a mesh without nodes, are refused. -/
theorem filtered_refused {K : Type} [LinearOrder K] (nodes : List (Option P)) (s : State) (values : Res (List K)) (property : Nat) (lo hi : K)
    (h : property ≠ 0 ∨ nodes = []) (buf : List (Option P)) :
    getFilteredDimension nodes s values property lo hi = .throw ∧ getFiltered nodes s values property lo hi buf = .throw := by
  unfold getFilteredDimension getFiltered
  by_cases h0 : nodes.length ≤ 0
  · rw [if_pos h0, if_pos h0]; exact ⟨rfl, rfl⟩
  · have hp : property ≠ 0 := by
      rcases h with h | h
      · exact h
      · rw [h] at h0; simp at h0
    rw [if_neg h0, if_neg h0]
    unfold filterBasedOnMetric
    rw [if_pos hp]
    exact ⟨rfl, rfl⟩

example : (0 : Nat) ≠ 0 ∨ ([] : List (Option Pt)) = [] := Or.inr rfl

/-! ## C74: nodes in polygons -/

/-- **C74, partial.** The call writes the indices of the chosen nodes in increasing order and leaves the rest of the array; the count is their number,
and too short an array is overrun.  A node is in one of the two selections, inside or outside.  For a node at a place where no polygon lies in the hole of
another one, inside means: within the outer ring of some polygon and within none of its holes.

Missing: with a polygon within a hole the answer depends on the order (C23), and deleted nodes are chosen too (`deleted_node_chosen`). -/
theorem nodes_in_polygons_partial (test : List Pt → Pt → Bool) (es : List Enclosure) (nodes : List (Option Pt)) (inside : Int) :
    ∃ l : List Nat, l.Pairwise (· < ·) ∧ countNodesInPolygons test es nodes inside = .ok l.length ∧
      (∀ buf : List Int, l.length ≤ buf.length →
        getNodesInPolygons test es nodes inside buf = .ok (l.map (fun (j : Nat) => (j : Int)) ++ buf.drop l.length)) ∧
      (∀ buf : List Int, buf.length < l.length → getNodesInPolygons test es nodes inside buf = .ub) ∧
      (∀ i ∈ l, i < nodes.length) ∧
      (∀ (i : Nat) p, nodes[i]? = some (some p) → p.isValid = true → es ≠ [] →
        ((∃ e ∈ es, InHole test e p) → ¬ ∃ e ∈ es, InArea test e p) → (i ∈ l ↔ (inside = 1 ↔ ∃ e ∈ es, InArea test e p))) ∧
      (∀ (i : Nat) v, nodes[i]? = some v → es = [] → (i ∈ l ↔ inside = 1)) := by
  have hlen := mask_length test es nodes (decide (inside = 1))
  have hmem : ∀ (i : Nat) v, nodes[i]? = some v → (i ∈ chosenFrom (nodeMaskFromPolygon test es nodes (decide (inside = 1))) 0 ↔
      (inside = 1 ↔ (isPointInPolygons test es (stored v)).1 = true)) := by
    intro i v hv
    have hlt := (List.getElem?_eq_some_iff.1 hv).1
    rw [mem_chosen, hlen, mask_get test es nodes _ i v hv]
    simp [hlt]
  refine ⟨chosenFrom (nodeMaskFromPolygon test es nodes (decide (inside = 1))) 0, chosen_increasing _, ?_, ?_, ?_, ?_, ?_, ?_⟩
  · rw [countNodesInPolygons, forRange, Nat.sub_zero, count_loop _ _ (by omega)]; simp
  · intro buf h
    rw [getNodesInPolygons, forRange, Nat.sub_zero, select_loop _ _ (by omega) _ _ (by omega), if_pos (by omega)]
    simp
  · intro buf h
    rw [getNodesInPolygons, forRange, Nat.sub_zero, select_loop _ _ (by omega) _ _ (by omega), if_neg (by omega)]
    rfl
  · intro i hi
    rw [mem_chosen] at hi
    omega
  · intro i p hp hv hne hisl
    rw [hmem i _ hp]
    rw [show stored (some p) = p from rfl, Polygons.list_answer_partial test es hne p hv hisl]
  · intro i v hv he
    rw [hmem i v hv, he, (Polygons.no_polygon_contains_everything test _ 0).1]
    simp

/-- **C74.** The two selections together hold every node once. -/
theorem inside_or_outside (test : List Pt → Pt → Bool) (es : List Enclosure) (nodes : List (Option Pt)) {a b : Int} (ha : a = 1) (hb : b ≠ 1) :
    ∃ k k', countNodesInPolygons test es nodes a = .ok k ∧ countNodesInPolygons test es nodes b = .ok k' ∧ k + k' = nodes.length := by
  have hcount : ∀ inside : Int, countNodesInPolygons test es nodes inside =
      .ok (nodes.countP fun v => decide ((inside = 1) ↔ (isPointInPolygons test es (stored v)).1 = true)) := by
    intro inside
    have hlen := mask_length test es nodes (decide (inside = 1))
    rw [countNodesInPolygons, forRange, Nat.sub_zero, count_loop _ _ (by omega), Nat.zero_add]
    congr 1
    unfold chosenFrom
    rw [Nat.sub_zero, hlen, ← List.countP_eq_length_filter]
    have e : nodes = (List.range' 0 nodes.length).map fun i => (nodes[i]?).join := by
      apply List.ext_getElem?
      intro i
      rw [List.getElem?_map]
      by_cases h : i < nodes.length
      · simp [h]
      · simp [h]
    conv_rhs => rw [e]
    rw [List.countP_map]
    apply List.countP_congr
    intro i hi
    have hlt : i < nodes.length := by simpa [List.mem_range'_1] using hi
    simp only [decide_eq_true_eq, Function.comp]
    rw [mask_get test es nodes _ i nodes[i] (List.getElem?_eq_getElem hlt)]
    simp [hlt]
  refine ⟨_, _, hcount a, hcount b, ?_⟩
  have := List.length_eq_countP_add_countP (fun v => decide ((a = 1) ↔ (isPointInPolygons test es (stored v)).1 = true)) (l := nodes)
  rw [this]
  congr 1
  apply List.countP_congr
  intro v _
  simp [ha, hb]

example : (1 : Int) = 1 ∧ (0 : Int) ≠ 1 := ⟨rfl, by decide⟩

/-- A polygon around the first two nodes of `small`. -/
def leftPart : Enclosure := ⟨[⟨-1, -1⟩, ⟨3/2, -1⟩, ⟨3/2, 1/2⟩, ⟨-1, 1/2⟩, ⟨-1, -1⟩], []⟩

end Verif.Listing
