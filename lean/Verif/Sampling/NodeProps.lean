import Verif.Sampling.NodeLemmas
import Verif.Sampling.Props
import Verif.Flip.StartLemmas
/-!
# C62: averaging interpolation at nodes and at edges
-/
namespace Verif.Sampling
open Verif.Polygons Verif.Faces Verif.Mesh
open Verif.Averaging (Val)

/-- The search area of node `n`: the polygon around it, moved away from its own centre, and then again from the node. -/
def nodeArea (radius : ℚ) (m : Mesh Pt) (s : State) (n : Nat) : List Pt :=
  (scaledRing radius (centreFound (dualPolygon m s n)) (dualPolygon m s n)).map (scaled radius (position m.nodes n))

theorem searchPolygon_eq (r : ℚ) (l : List Pt) (c : Pt) : searchPolygon r l c = l.map (scaled r c) := by
  unfold searchPolygon
  apply List.map_congr_left
  intro p _
  simp only [scaled, Pt.add, Pt.scale]
  congr 1 <;> ring

/-- What the theorem asks of the samples and the areas around the nodes. -/
def FitNodes (env : Env) (radius : ℚ) (m : Mesh Pt) (s : State) (ss : List Spot) : Prop :=
  ∀ n < m.nodes.length, Regular m s n ∧ Ordinary env (position m.nodes n) ss ∧ Sound (nodeArea radius m s n) (position m.nodes n) ss

theorem nodes_run {m : Mesh Pt} {s : State} (x : Flip.Exact m s) (env : Env) (st : Settings) (ss : List Spot) (hm : 1 ≤ st.minNum)
    (hu : st.useClosest = false) (hss : ss ≠ []) (hall : ∀ n < m.nodes.length, validNode m.nodes n = true)
    (hface : ∀ (e : Nat) p, m.edges[e]? = some p → p ≠ noEdge → ∃ f, Borders s f e) (hfit : FitNodes env st.radius m s ss) :
    ∃ vs, onNodes env st (around m s) ss = .ok vs ∧ vs.length = m.nodes.length ∧
      ∀ n < m.nodes.length, ∃ v, vs[n]? = some v ∧
        Average env.dist st.method st.minNum (position m.nodes n) (within (nodeArea st.radius m s n) ss) v := by
  have key : ∀ n < m.nodes.length, ∃ v, atNode env st (around m s) ss n = .ok v ∧
      Average env.dist st.method st.minNum (position m.nodes n) (within (nodeArea st.radius m s n) ss) v := by
    intro n hn
    have hv := hall n hn
    obtain ⟨hr, ho, hsl⟩ := hfit n hn
    have h2 := dualFace_ok x hv st.radius hr (fun e p hp hpn => hface e p hp (by
      rintro rfl
      have := x.nodesFit
      rcases hpn with h | h <;> simp only [noEdge] at h <;> omega))
    obtain ⟨v, found, h4, h5, -⟩ := onPolygon_ok env st ss (scaledRing st.radius (centreFound (dualPolygon m s n)) (dualPolygon m s n))
      (nodeArea st.radius m s n) (position m.nodes n) (searchPolygon_eq _ _ _) ho hsl.centre hsl.nodes hsl.move hsl.off hm hu
    refine ⟨v, ?_, h5⟩
    unfold atNode
    have hnode : nodeAt (around m s).nodes n = .ok (position m.nodes n) := by
      unfold nodeAt
      have : (around m s).nodes[n]? = some m.nodes[n] := List.getElem?_eq_getElem hn
      rw [this]
      unfold position Quality.stored
      rw [List.getElem?_eq_getElem hn]
      rfl
    rw [h2, Res.ok_bind, hnode, Res.ok_bind, h4, Res.ok_bind]
  obtain ⟨vs, h1, h2, h3⟩ := Quality.fill_ok (f := atNode env st (around m s) ss) (k := m.nodes.length) (j := 0) (fun n hn => by
    obtain ⟨v, h, _⟩ := key n hn
    exact ⟨v, by rw [Nat.zero_add]; exact h⟩)
  refine ⟨vs, ?_, h2, ?_⟩
  · unfold onNodes
    have he : ss.isEmpty = false := by simpa using hss
    rw [he]
    exact h1
  · intro n hn
    obtain ⟨v, g1, g2⟩ := key n hn
    exact ⟨v, h3 n v hn (by rw [Nat.zero_add]; exact g1), g2⟩

/-- **C62, nodes.** In a mesh in which no node is deleted and every edge has a face, averaging interpolation at the nodes reports, for every node, the
average of exactly the samples within the polygon around it, enlarged about its own centre of mass and then about the node.  The polygon runs
through the middles of the edges at the node and the centres of mass of the faces between them.  Partial: as `face_values_partial`; for the excluded meshes
the call is undefined, see `deleted_node_undefined` and `edge_without_face_undefined`. -/
theorem node_values_partial (env : Env) (method : Method) (radius : ℚ) (minNum room : Nat) (m m1 : Mesh Pt) (s : State) (ss : List Spot)
    (hm : Manageable m) (hn : m.nodes ≠ []) (he : m.edges ≠ []) (hrun : doAdministrationCartesian m = .ok (m1, s)) (hmin : 1 ≤ minNum) (hss : ss ≠ [])
    (hall : ∀ n < m1.nodes.length, validNode m1.nodes n = true) (hface : ∀ (e : Nat) p, m1.edges[e]? = some p → p ≠ noEdge → ∃ f, Borders s f e)
    (hfit : FitNodes env radius m1 s ss) (hroom : room ≤ m1.nodes.length) :
    ∃ vs, apiAveraging env method radius minNum .nodes room m1 s ss = .ok vs ∧ vs.length = room ∧
      ∀ n < room, ∃ v, vs[n]? = some v ∧
        Average env.dist method minNum (position m1.nodes n) (within (nodeArea radius m1 s n) ss) v ∧
        (minArea ≤ |shoelace (dualPolygon m1 s n)| → centreFound (dualPolygon m1 s n) = centroid (dualPolygon m1 s n)) := by
  obtain ⟨as, m1', s', -, g1, x, -, -, g2⟩ := Flip.administrateAll_ok hm hn he
  rw [hrun] at g1
  obtain ⟨rfl, rfl⟩ := Prod.mk.inj (Res.ok.inj g1)
  obtain ⟨vs, h1, h2, h3⟩ := nodes_run x env ⟨method, radius, false, false, minNum⟩ ss hmin rfl hss hall hface hfit
  refine ⟨vs.take room, ?_, by rw [List.length_take, h2]; omega, ?_⟩
  · unfold apiAveraging resultsAt
    have e1 : m1.nodes.isEmpty = false := by
      have : m.nodes.length ≠ 0 := fun h => hn (List.length_eq_zero_iff.1 h)
      rw [← g2] at this
      cases h : m1.nodes <;> simp_all
    have e2 : ss.isEmpty = false := by simpa using hss
    rw [e1, e2]
    simp only [Bool.false_eq_true, if_false, h1, Res.ok_bind]
    rw [if_neg (by omega)]
  · intro n hr
    obtain ⟨v, k1, k2⟩ := h3 n (by omega)
    exact ⟨v, by rw [List.getElem?_take_of_lt hr]; exact k1, k2, centreFound_eq⟩

/-- **C62, edges.** If the values at the nodes are found and no edge is deleted, the value at an edge is the mean of those at its two ends; it is
missing if one of these is.  Deleted edges: see `deleted_edge_undefined`. -/
theorem edge_values_partial (env : Env) (method : Method) (radius : ℚ) (minNum room : Nat) (m : Mesh Pt) (s : State) (ss : List Spot)
    (vs : List (Val ℚ)) (hn : m.nodes ≠ []) (hss : ss ≠ [])
    (hvs : apiAveraging env method radius minNum .nodes m.nodes.length m s ss = .ok vs)
    (hends : ∀ (e : Nat) p, m.edges[e]? = some p → p.1 < m.nodes.length ∧ p.2 < m.nodes.length) (hroom : room ≤ m.edges.length) :
    ∃ ws, apiAveraging env method radius minNum .edges room m s ss = .ok ws ∧ ws.length = room ∧
      ∀ (e : Nat) p (a b : ℚ), e < room → m.edges[e]? = some p → vs[p.1]? = some (.num a) → vs[p.2]? = some (.num b) →
        ws[e]? = some (if a = -999 ∨ b = -999 then .num (-999) else .num ((a + b) / 2)) := by
  obtain ⟨h1, all, h2, h3, h4⟩ := room_checked _ _ _ _ _ _ _ _ _ _ hvs
  have h2' : onNodes env ⟨method, radius, false, false, minNum⟩ (around m s) ss = .ok all := h2
  have hlen : all.length = m.nodes.length := by
    unfold onNodes at h2'
    split at h2'
    · cases h2'
    · have : ∀ {α : Type} (f : Nat → Res α) (k j : Nat) (l : List α), Quality.fill f k j = .ok l → l.length = k := by
        intro α f k
        induction k with
        | zero =>
          intro j l h
          obtain rfl := Res.ok.inj h
          rfl
        | succ k ih =>
          intro j l h
          rw [Quality.fill] at h
          obtain ⟨v, _, h⟩ := Res.bind_eq_ok.1 h
          obtain ⟨l', h', h⟩ := Res.bind_eq_ok.1 h
          obtain rfl := Res.ok.inj h
          simp [ih _ _ h']
      exact this _ _ _ _ h2'
  have hva : vs = all := by rw [h4, List.take_of_length_le (by omega)]
  rw [← hva] at h2' hlen
  have key : ∀ e p, m.edges[e]? = some p → ∃ a b, vs[p.1]? = some a ∧ vs[p.2]? = some b ∧ atEdge (around m s).edges vs e = .ok (meanOf a b) := by
    intro e p hp
    obtain ⟨p1, p2⟩ := hends e p hp
    rw [← hlen] at p1 p2
    refine ⟨vs[p.1], vs[p.2], List.getElem?_eq_getElem p1, List.getElem?_eq_getElem p2, ?_⟩
    unfold atEdge
    have : vget (around m s).edges e = .ok p := vget_eq_ok.2 hp
    rw [this, Res.ok_bind, vget_ok p1, Res.ok_bind, vget_ok p2, Res.ok_bind]
  obtain ⟨ws, k1, k2, k3⟩ := Quality.fill_ok (f := atEdge (around m s).edges vs) (k := m.edges.length) (j := 0) (fun e he => by
    obtain ⟨a, b, _, _, h⟩ := key e m.edges[e] (List.getElem?_eq_getElem he)
    exact ⟨_, by rw [Nat.zero_add]; exact h⟩)
  refine ⟨ws.take room, ?_, by rw [List.length_take, k2]; omega, ?_⟩
  · unfold apiAveraging resultsAt onEdges
    have e1 : m.nodes.isEmpty = false := by simpa using hn
    have e2 : ss.isEmpty = false := by simpa using hss
    have k1' : Quality.fill (atEdge (around m s).edges vs) (around m s).edges.length 0 = .ok ws := k1
    rw [e1, e2]
    simp only [Bool.false_eq_true, if_false, h2', Res.ok_bind, k1']
    rw [if_neg (by omega)]
  · intro e p a b hr hp ha hb
    obtain ⟨a', b', q1, q2, q3⟩ := key e p hp
    rw [ha] at q1
    rw [hb] at q2
    obtain rfl := Option.some.inj q1
    obtain rfl := Option.some.inj q2
    rw [List.getElem?_take_of_lt hr, k3 e _ (by omega) (by rw [Nat.zero_add]; exact q3)]
    congr 1
    simp only [meanOf]
    by_cases h1 : a = -999
    · simp [h1]
    · by_cases h2 : b = -999
      · simp [h2]
      · rw [if_pos ⟨h1, h2⟩, if_neg (by simp [h1, h2])]
        congr 1
        ring

/-- **C62, closest.** With the option to use the closest sample: if no sample lies in the circle around the location, the value of a closest sample is
reported.  If there is a sample in the circle but none in the area, the value is missing all the same: `closest_not_used`. -/
theorem closest_when_none_near (env : Env) (st : Settings) (ss : List Spot) (polygon ring : List Pt) (c : Pt)
    (hring : searchPolygon st.radius polygon c = ring) (ho : Ordinary env c ss) (hs : Sound ring c ss) (hu : st.useClosest = true)
    (hnear : ∀ t, ss[env.nearest ss c]? = some t → ∀ t' ∈ ss, sqDist c t.pos ≤ sqDist c t'.pos) (hlt : env.nearest ss c < ss.length)
    (hnone : ∀ t ∈ ss, ¬ Reached ring c t.pos) :
    ∃ t ∈ ss, onPolygon env st ss polygon c = .ok (.num t.value, [env.nearest ss c]) ∧ ∀ t' ∈ ss, sqDist c t.pos ≤ sqDist c t'.pos := by
  refine ⟨ss[env.nearest ss c], List.getElem_mem hlt, ?_, hnear _ (List.getElem?_eq_getElem hlt)⟩
  have hn := near_iff ho.lowest hs.centre hs.nodes.2.2 hs.move
  have hpos : 0 < searchRadius env.lowest ring c := by
    obtain ⟨q, hq, hne⟩ := hs.move
    refine lt_of_lt_of_le (sqDist_pos hne) ?_
    rw [← squared_eq hs.centre (hs.nodes.2.2 q hq)]
    exact (searchRadius_ge env.lowest ring c).2 q hq
  obtain ⟨found, h1, h2, h3, h4⟩ := searchPoints_ok ho c (searchRadius env.lowest ring c)
  have hf : found = [] := by
    apply List.eq_nil_iff_forall_not_mem.2
    intro i hi
    have hi2 := h3.mem_iff.1 hi
    rw [List.mem_filter] at hi2
    obtain ⟨i1, i2⟩ := hi2
    rw [List.mem_range] at i1
    simp only [hit, List.getElem?_eq_getElem i1, Bool.and_eq_true] at i2
    exact hnone ss[i] (List.getElem_mem i1) ((hn _).1 (by simpa using i2.2))
  unfold onPolygon
  simp only [hs.centre, Bool.not_true, Bool.false_eq_true, if_false, hring]
  rw [if_neg (not_le.2 hpos), h1, hf, Res.ok_bind]
  simp only [answer, List.isEmpty_nil, if_true, hu, nearestValue]
  rw [vget_ok hlt, Res.ok_bind]

end Verif.Sampling
