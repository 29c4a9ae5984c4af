import Verif.Sampling.FaceLemmas
import Verif.Faces.Props
import Verif.Flip.Witness
/-!
# C62: averaging interpolation uses the samples of the cell
-/
namespace Verif.Sampling
open Verif.Polygons Verif.Faces Verif.Mesh
open Verif.Averaging (Val)
open Verif.Quality (Ready ready_of_run corners massOf areas_get)

/-! ## Supporting lemmas -/

/-- A polygon with an area has a corner away from any point. -/
theorem moved_corner {l : List Pt} {c : Pt} {k : ℚ} (hk : k ≠ 0) (h : 0 < shoelace l) : ∃ q ∈ scaledRing k c l, q ≠ c := by
  by_contra hc
  push Not at hc
  have hall : ∀ p ∈ l, p = c := by
    intro p hp
    have := hc (scaled k c p) (by simp only [scaledRing, ringOf, List.mem_append]; exact .inl (List.mem_map_of_mem hp))
    rcases p with ⟨px, py⟩; rcases c with ⟨cx, cy⟩
    simp only [scaled, Pt.mk.injEq] at this ⊢
    constructor
    · have : k * (px - cx) = 0 := by linarith [this.1]
      rcases mul_eq_zero.1 this with h | h
      · exact absurd h hk
      · linarith
    · have : k * (py - cy) = 0 := by linarith [this.2]
      rcases mul_eq_zero.1 this with h | h
      · exact absurd h hk
      · linarith
  have hz : shoelace l = 0 := by
    rw [shoelace_eq, sumSides]
    have : (sides (ringOf l)).map (fun s => shoe s.1 s.2) = (sides (ringOf l)).map (fun _ => (0 : ℚ)) := by
      apply List.map_congr_left
      intro s hs
      have hm := mem_of_sides hs
      have hr : ∀ p ∈ ringOf l, p = c := by
        intro p hp
        simp only [ringOf, List.mem_append, Option.mem_toList] at hp
        rcases hp with hp | hp
        · exact hall p hp
        · exact hall p (List.mem_of_mem_head? hp)
      rw [hr _ hm.1, hr _ hm.2]
      simp only [shoe]; ring
    rw [this]
    simp
  linarith

theorem ring_nodes {l : List Pt} {c : Pt} {k : ℚ} (h3 : 3 ≤ l.length) (hv : ∀ p ∈ l, (scaled k c p).isValid = true) : RingNodes (scaledRing k c l) := by
  cases l with
  | nil => simp at h3
  | cons a l =>
    refine ⟨?_, ?_, ?_⟩
    · simp only [List.length_cons] at h3
      simp [scaledRing, ringOf]; omega
    · simp [scaledRing, ringOf, List.getLast?_cons]
    · intro q hq
      simp only [scaledRing, ringOf, List.map_cons, List.head?_cons, Option.toList_some, List.mem_append, List.mem_cons, List.mem_map,
        List.not_mem_nil, or_false] at hq
      rcases hq with (rfl | ⟨p, hp, rfl⟩) | rfl
      · exact hv a (by simp)
      · exact hv p (by simp [hp])
      · exact hv a (by simp)

/-! ## Faces -/

/-- What the theorems ask of the samples and the faces: the samples are ordinary numbers; the centres and the enlarged corners are not mistaken for
missing ones; and no sample lies on the line of a side of the search area. -/
def Fit (env : Env) (radius : ℚ) (m : Mesh Pt) (s : State) (ss : List Spot) : Prop :=
  ∀ f < s.facesNodes.length, Ordinary env (massOf m s f) ss ∧ (massOf m s f).isValid = true ∧
    (∀ p ∈ corners m s f, (scaled (radius * radius) (massOf m s f) p).isValid = true) ∧
    ∀ t ∈ ss, OffLines (scaledRing (radius * radius) (massOf m s f) (corners m s f)) t.pos

/-- The search area of face `f`: the face, moved away from its centre of mass by the square of the radius. -/
def area (radius : ℚ) (m : Mesh Pt) (s : State) (f : Nat) : List Pt := scaledRing (radius * radius) (massOf m s f) (corners m s f)

theorem faces_run {m : Mesh Pt} {s : State} (r : Ready m s) (env : Env) (st : Settings) (ss : List Spot) (hm : 1 ≤ st.minNum)
    (hu : st.useClosest = false) (hk : st.radius ≠ 0) (hss : ss ≠ []) (hfit : Fit env st.radius m s ss)
    (hl : st.transform = true → ∀ t ∈ ss, env.lowest < t.value - 1) (hh : st.transform = true → ∀ t ∈ ss, |t.value| + 1 < env.top) :
    ∃ vs : List (Val ℚ), onFaces env st m.nodes (s.facesNodes.zip (around m s).masses) ss =
        .ok (vs, downIf (touched st.transform (((List.range s.facesNodes.length).map (fun f => (area st.radius m s f, massOf m s f))).zip vs)) ss) ∧
      vs.length = s.facesNodes.length ∧
      ∀ (f : Nat) v, vs[f]? = some v → Average env.dist st.method st.minNum (massOf m s f) (within (area st.radius m s f)
        (downIf (touched st.transform ((((List.range s.facesNodes.length).map (fun f => (area st.radius m s f, massOf m s f))).zip vs).take f)) ss)) v := by
  have hfs : s.facesNodes.zip (around m s).masses = (List.range s.facesNodes.length).map (fun f => (s.facesNodes.getD f [], massOf m s f)) := by
    apply List.ext_getElem?
    intro f
    by_cases hf : f < s.facesNodes.length
    · simp [around, massOf, hf, List.zip]
    · rw [List.getElem?_eq_none (by simp [around]; omega), List.getElem?_eq_none (by simp; omega)]
  have htarget : (s.facesNodes.zip (around m s).masses).map (target st.radius m.nodes)
      = (List.range s.facesNodes.length).map (fun f => (area st.radius m s f, massOf m s f)) := by
    rw [hfs, List.map_map]
    rfl
  have hall : ∀ f ∈ s.facesNodes.zip (around m s).masses, f.1 ≠ [] ∧ (∀ n ∈ f.1, n < m.nodes.length) ∧ Ordinary env f.2 ss ∧
      Sound (target st.radius m.nodes f).1 f.2 ss := by
    rw [hfs]
    intro g hg
    obtain ⟨f, hf, rfl⟩ := List.mem_map.1 hg
    rw [List.mem_range] at hf
    have hf' : f < s.facesEdges.length := by rw [← r.consistent.lengths]; exact hf
    have hg : s.facesNodes[f]? = some s.facesNodes[f] := List.getElem?_eq_getElem hf
    have hd : s.facesNodes.getD f [] = s.facesNodes[f] := by simp [hf]
    obtain ⟨hp, -⟩ := r.consistent.proper f _ _ hg (List.getElem?_eq_getElem hf')
    obtain ⟨-, -, -, -, hpos⟩ := areas_get (other := fun _ _ => ⟨0, 0⟩) r hf'
    obtain ⟨h1, h2, h3, h4⟩ := hfit f hf
    have hlen : 3 ≤ (corners m s f).length := by simp only [corners, List.length_map, hd]; exact hp.atLeast
    refine ⟨?_, ?_, h1, h2, ring_nodes hlen h3, moved_corner (mul_ne_zero hk hk) hpos, h4⟩
    · simp only [hd]
      intro e
      have := hp.atLeast
      rw [e] at this
      simp at this
    · simp only [hd]
      intro n hn
      exact validNode_lt (r.valid f _ hg n hn)
  obtain ⟨vs, h1, h2, h3⟩ := facesLoop_ok env st m.nodes ss hm hu hl hh _ hall (fun _ => false) (fun _ => rfl)
  simp only [Bool.false_or, htarget] at h1 h3
  have hid : downIf (fun _ => false) ss = ss := by simp [downIf]
  rw [hid] at h1
  have hlen : (s.facesNodes.zip (around m s).masses).length = s.facesNodes.length := by rw [hfs]; simp
  refine ⟨vs, ?_, by rw [h2, hlen], ?_⟩
  · unfold onFaces
    have he : ss.isEmpty = false := by simpa using hss
    rw [he]
    simp only [Bool.false_eq_true, if_false]
    have : List.replicate ss.length false = ss.map (fun _ => false) := by simp
    rw [this]
    exact h1
  · intro f v hv
    have hf : f < s.facesNodes.length := by
      have := (List.getElem?_eq_some_iff.1 hv).1
      rw [h2, hlen] at this; exact this
    exact h3 f (s.facesNodes.getD f [], massOf m s f) v (by rw [hfs, List.getElem?_map, List.getElem?_range hf]; rfl) hv

theorem downIf_none (l : List ((List Pt × Pt) × Val ℚ)) (ss : List Spot) : downIf (touched false l) ss = ss := by
  have : touched false l = fun _ => false := by
    funext p
    simp [touched, raised]
  rw [this]
  simp [downIf]

/-- **C62, faces.** Averaging interpolation at the faces reports, for every face, the average of exactly the samples that lie within the face,
enlarged about its centre of mass by the square of the search radius; missing if there are none, or too few.  The centre is the centre of mass of
the corners.  Partial: samples on the line of a side are left out of the statement, at least one sample must be required, and the radius is
applied twice: see `radius_applied_twice`, `extension_of_side_counts`, `corner_sample_left_out` and `nothing_required_gives_nan`. -/
theorem face_values_partial (env : Env) (method : Method) (radius : ℚ) (minNum room : Nat) (m m1 : Mesh Pt) (s : State) (ss : List Spot)
    (hn : m.nodes.length ≤ missing) (hb : inBounds m = true) (hrun : doAdministrationCartesian m = .ok (m1, s))
    (hF : s.facesNodes.length ≤ missing) (hne : m1.nodes ≠ []) (hm : 1 ≤ minNum) (hk : radius ≠ 0) (hss : ss ≠ [])
    (hfit : Fit env radius m1 s ss) (hroom : room ≤ s.facesNodes.length) :
    ∃ vs, apiAveraging env method radius minNum .faces room m1 s ss = .ok vs ∧ vs.length = room ∧
      ∀ f < room, ∃ v, vs[f]? = some v ∧
        Average env.dist method minNum (massOf m1 s f) (within (scaledRing (radius * radius) (massOf m1 s f) (corners m1 s f)) ss) v ∧
        (minArea ≤ shoelace (corners m1 s f) → massOf m1 s f = centroid (corners m1 s f)) := by
  have r := ready_of_run hn hb hrun hF
  obtain ⟨vs, h1, h2, h3⟩ := faces_run r env ⟨method, radius, false, false, minNum⟩ ss hm rfl hk hss hfit (by simp) (by simp)
  refine ⟨vs.take room, ?_, by rw [List.length_take, h2]; omega, ?_⟩
  · unfold apiAveraging resultsAt
    have e1 : m1.nodes.isEmpty = false := by simpa using hne
    have e2 : ss.isEmpty = false := by simpa using hss
    rw [e1, e2]
    simp only [Bool.false_eq_true, if_false, h1, Res.ok_bind]
    rw [if_neg (by omega)]
  · intro f hf
    have hf2 : f < vs.length := by omega
    refine ⟨vs[f], by rw [List.getElem?_take_of_lt hf, List.getElem?_eq_getElem hf2], ?_, ?_⟩
    · have := h3 f vs[f] (List.getElem?_eq_getElem hf2)
      rw [downIf_none] at this
      exact this
    · exact (areas_get (other := fun _ _ => ⟨0, 0⟩) r (by rw [← r.consistent.lengths]; omega)).2.2.2.1

/-- **C62.** Too few results for the memory that the caller provides: the call throws, it does not write beyond the results. -/
theorem room_checked (env : Env) (method : Method) (radius : ℚ) (minNum room : Nat) (place : Place) (m : Mesh Pt) (s : State) (ss : List Spot)
    (vs : List (Val ℚ)) (h : apiAveraging env method radius minNum place room m s ss = .ok vs) :
    vs.length = room ∧ ∃ all, resultsAt env ⟨method, radius, false, false, minNum⟩ place m s ss = .ok all ∧ room ≤ all.length ∧ vs = all.take room := by
  unfold apiAveraging at h
  split at h
  · cases h
  · split at h
    · cases h
    · obtain ⟨all, h1, h2⟩ := Res.bind_eq_ok.1 h
      split at h2
      · cases h2
      · rename_i hr
        obtain rfl := Res.ok.inj h2
        exact ⟨by rw [List.length_take]; omega, all, h1, by omega, rfl⟩

/-! ## Refinement by levels -/

/-- **C62, levels.** With the lowering of samples, as in refinement by levels: the value of each face is the average over the samples within its
search area, each lowered by one if it lies in the *circle* around an earlier face with a positive value; and the samples handed back are lowered
by one, at most once, where such a face exists.  That a sample in the circle but outside the face is lowered too is the defect
`neighbour_uses_up_sample`. -/
theorem levels_partial (env : Env) (method : Method) (radius : ℚ) (minNum : Nat) (m m1 : Mesh Pt) (s : State) (ss : List Spot)
    (hn : m.nodes.length ≤ missing) (hb : inBounds m = true) (hrun : doAdministrationCartesian m = .ok (m1, s))
    (hF : s.facesNodes.length ≤ missing) (hm : 1 ≤ minNum) (hk : radius ≠ 0) (hss : ss ≠ []) (hfit : Fit env radius m1 s ss)
    (hl : ∀ t ∈ ss, env.lowest < t.value - 1) (hh : ∀ t ∈ ss, |t.value| + 1 < env.top) :
    ∃ vs ss', onFaces env ⟨method, radius, false, true, minNum⟩ m1.nodes (s.facesNodes.zip (around m1 s).masses) ss = .ok (vs, ss') ∧
      vs.length = s.facesNodes.length ∧
      ss' = lowered (((List.range s.facesNodes.length).map (fun f => (area radius m1 s f, massOf m1 s f))).zip vs) ss ∧
      ∀ (f : Nat) v, vs[f]? = some v → Average env.dist method minNum (massOf m1 s f) (within (area radius m1 s f)
        (lowered ((((List.range s.facesNodes.length).map (fun f => (area radius m1 s f, massOf m1 s f))).zip vs).take f) ss)) v := by
  have hlow : ∀ l, downIf (touched true l) ss = lowered l ss := by
    intro l
    unfold downIf lowered
    apply List.map_congr_left
    intro t _
    have : touched true l t.pos = true ↔ ∃ d ∈ l, Positive d.2 ∧ Reached d.1.1 d.1.2 t.pos := by
      simp [touched, raised]
    by_cases hc : touched true l t.pos = true
    · rw [if_pos hc, if_pos (this.1 hc)]
    · rw [if_neg hc, if_neg (fun h => hc (this.2 h))]
  obtain ⟨vs, h1, h2, h3⟩ := faces_run (ready_of_run hn hb hrun hF) env ⟨method, radius, false, true, minNum⟩ ss hm rfl hk hss hfit (fun _ => hl)
    (fun _ => hh)
  simp only [hlow] at h1 h3
  exact ⟨vs, _, h1, h2, rfl, h3⟩

end Verif.Sampling
