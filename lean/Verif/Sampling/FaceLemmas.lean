import Verif.Sampling.PolygonLemmas
import Verif.Quality.FaceLemmas
/-!
# Lemmas: the loop over the faces
-/
namespace Verif.Sampling
open Verif.Polygons Verif.Faces Verif.Mesh
open Verif.Averaging (Val)

theorem nodeAt_ok {nodes : List (Option Pt)} {n : Nat} (h : n < nodes.length) : nodeAt nodes n = .ok (position nodes n) := by
  unfold nodeAt position Quality.stored
  rw [List.getElem?_eq_getElem h]
  rfl

theorem enlarged_ok {r : ℚ} {c : Pt} {nodes : List (Option Pt)} {ns : List Nat} (h : ∀ n ∈ ns, n < nodes.length) :
    enlarged r c nodes ns = .ok ((ns.map (position nodes)).map (scaled r c)) := by
  induction ns with
  | nil => rfl
  | cons n ns ih =>
    rw [enlarged, nodeAt_ok (h n (by simp)), Res.ok_bind, ih (fun k hk => h k (by simp [hk])), Res.ok_bind]
    simp only [List.map_cons, scaled, Pt.add, Pt.scale]

theorem facePolygon_ok {r : ℚ} {c : Pt} {nodes : List (Option Pt)} {ns : List Nat} (h : ∀ n ∈ ns, n < nodes.length) (hne : ns ≠ []) :
    facePolygon r c nodes ns = .ok (scaledRing r c (ns.map (position nodes))) := by
  unfold facePolygon
  rw [enlarged_ok h, Res.ok_bind]
  cases ns with
  | nil => exact absurd rfl hne
  | cons n ns =>
    rw [vget_ok (by simp)]
    simp [scaledRing, ringOf]

theorem scaled_twice (r : ℚ) (c p : Pt) : ((scaled r c p).scale r).add (c.scale (1 - r)) = scaled (r * r) c p := by
  simp only [scaled, Pt.scale, Pt.add, Pt.mk.injEq]
  constructor <;> ring

/-- The radius is applied twice. -/
theorem search_twice (r : ℚ) (c : Pt) (l : List Pt) : searchPolygon r (scaledRing r c l) c = scaledRing (r * r) c l := by
  unfold searchPolygon scaledRing ringOf
  rw [List.map_append, List.map_map]
  congr 1
  · apply List.map_congr_left
    intro p _
    exact scaled_twice r c p
  · cases l with
    | nil => rfl
    | cons a l => simp [scaled_twice]

theorem searchRadius_attained (lowest : ℚ) (l : List Pt) (c : Pt) :
    searchRadius lowest l c = lowest ∨ ∃ q ∈ l, searchRadius lowest l c = squared c q := by
  unfold searchRadius
  induction l generalizing lowest with
  | nil => exact .inl rfl
  | cons a l ih =>
    rw [List.foldl_cons]
    rcases ih (max lowest (squared c a)) with h | ⟨q, hq, h⟩
    · rcases max_choice lowest (squared c a) with e | e
      · exact .inl (h.trans e)
      · exact .inr ⟨a, by simp, h.trans e⟩
    · exact .inr ⟨q, by simp [hq], h⟩

theorem near_iff {ring : List Pt} {c : Pt} {lowest : ℚ} (hl : lowest < 0) (hc : c.isValid = true) (hv : ∀ q ∈ ring, q.isValid = true)
    (hmove : ∃ q ∈ ring, q ≠ c) (p : Pt) : near c (searchRadius lowest ring c) p = true ↔ Reached ring c p := by
  unfold near Reached
  simp only [Bool.and_eq_true, decide_eq_true_eq]
  constructor
  · rintro ⟨⟨h1, h2⟩, h3⟩
    rcases searchRadius_attained lowest ring c with h | ⟨q, hq, h⟩
    · exfalso
      obtain ⟨q, hq, hne⟩ := hmove
      have := (searchRadius_ge lowest ring c).2 q hq
      rw [squared_eq hc (hv q hq), h] at this
      linarith [sqDist_pos hne]
    · rw [h, squared_eq hc (hv q hq)] at h1 h2 h3
      refine ⟨q, hq, by linarith, by linarith, ?_⟩
      simp only [sqDist] at h3 ⊢
      linarith
  · rintro ⟨q, hq, h1, h2, h3⟩
    have := (searchRadius_ge lowest ring c).2 q hq
    rw [squared_eq hc (hv q hq)] at this
    simp only [sqDist] at *
    exact ⟨⟨by linarith, by linarith⟩, by linarith⟩

theorem hit_iff {env : Env} {c : Pt} {ss : List Spot} (ho : Ordinary env c ss) {r2 : ℚ} {i : Nat} {s : Spot} (h : ss[i]? = some s) :
    hit ss c r2 i = near c r2 s.pos := by
  unfold hit
  rw [h]
  simp only
  rw [inTree_of_valid (ho.valid s (List.mem_of_getElem? h)), Bool.true_and]

theorem lower_ok : ∀ (found : List Nat) (ss : List Spot) (visited : List Bool), visited.length = ss.length → (∀ i ∈ found, i < ss.length) →
    ∃ ss' visited', lower found ss visited = .ok (ss', visited') ∧ ss'.length = ss.length ∧ visited'.length = ss.length ∧
      ∀ (i : Nat) (s : Spot) (b : Bool), ss[i]? = some s → visited[i]? = some b →
        ss'[i]? = some (if i ∈ found ∧ b = false then ⟨s.pos, s.value - 1⟩ else s) ∧ visited'[i]? = some (b || decide (i ∈ found))
  | [], ss, visited, hl, _ => ⟨ss, visited, rfl, rfl, hl, fun i s b h1 h2 => by simp [h1, h2]⟩
  | j :: found, ss, visited, hl, hf => by
    have hj := hf j (by simp)
    have hj' : j < visited.length := by omega
    rcases Bool.eq_false_or_eq_true visited[j] with hb | hb
    · obtain ⟨ss', visited', h1, h2, h3, h4⟩ := lower_ok found ss visited hl (fun i hi => hf i (by simp [hi]))
      refine ⟨ss', visited', ?_, h2, h3, ?_⟩
      · rw [lower, vget_ok hj', hb]
        exact h1
      · intro i s b hs hbi
        obtain ⟨e1, e2⟩ := h4 i s b hs hbi
        rw [e1, e2]
        by_cases hij : i = j
        · subst hij
          have : b = true := by rw [List.getElem?_eq_getElem hj', hb] at hbi; exact (Option.some.inj hbi).symm
          subst this
          simp
        · simp [hij]
    · have hl' : (visited.set j true).length = (ss.set j ⟨ss[j].pos, ss[j].value - 1⟩).length := by simp [hl]
      obtain ⟨ss', visited', h1, h2, h3, h4⟩ := lower_ok found (ss.set j ⟨ss[j].pos, ss[j].value - 1⟩) (visited.set j true) hl'
        (fun i hi => by rw [List.length_set]; exact hf i (by simp [hi]))
      refine ⟨ss', visited', ?_, by simpa using h2, by simpa using h3, ?_⟩
      · rw [lower, vget_ok hj', hb, Res.ok_bind]
        simp only [Bool.false_eq_true, if_false]
        rw [vset_ok _ hj', Res.ok_bind, vget_ok hj, Res.ok_bind, vset_ok _ hj, Res.ok_bind]
        exact h1
      · intro i s b hs hbi
        by_cases hij : i = j
        · subst hij
          have hs' : ss[i] = s := by rw [List.getElem?_eq_getElem hj] at hs; exact Option.some.inj hs
          have hb' : b = false := by rw [List.getElem?_eq_getElem hj', hb] at hbi; exact (Option.some.inj hbi).symm
          obtain ⟨e1, e2⟩ := h4 i ⟨s.pos, s.value - 1⟩ true (by simp [hj, hs']) (by simp [hj'])
          rw [e1, e2, hb']
          simp
        · obtain ⟨e1, e2⟩ := h4 i s b (by rw [List.getElem?_set_ne (Ne.symm hij)]; exact hs) (by rw [List.getElem?_set_ne (Ne.symm hij)]; exact hbi)
          rw [e1, e2]
          simp [hij]

/-- Lower the samples where the condition holds. -/
def downIf (D : Pt → Bool) (ss : List Spot) : List Spot := ss.map (fun s => if D s.pos then ⟨s.pos, s.value - 1⟩ else s)

theorem downIf_get {D : Pt → Bool} {ss : List Spot} {i : Nat} {s : Spot} (h : ss[i]? = some s) :
    (downIf D ss)[i]? = some (if D s.pos then ⟨s.pos, s.value - 1⟩ else s) := by
  simp [downIf, h]

theorem downIf_pos {D : Pt → Bool} {ss : List Spot} {t : Spot} (h : t ∈ downIf D ss) :
    ∃ s ∈ ss, t.pos = s.pos ∧ (t.value = s.value ∨ t.value = s.value - 1) := by
  obtain ⟨s, hs, rfl⟩ := List.mem_map.1 h
  refine ⟨s, hs, ?_⟩
  by_cases hd : D s.pos = true <;> simp [hd]

theorem positive_iff (v : Val ℚ) : positive v = true ↔ Positive v := by
  cases v with
  | num x => simp [positive, Positive]
  | nan => simp [positive, Positive]

theorem Ordinary.down {env : Env} {c : Pt} {ss : List Spot} (ho : Ordinary env c ss) (hl : ∀ s ∈ ss, env.lowest < s.value - 1)
    (hh : ∀ s ∈ ss, |s.value| + 1 < env.top) (D : Pt → Bool) : Ordinary env c (downIf D ss) where
  some := by have := ho.some; simpa [downIf] using this
  order := ho.order
  lowest := ho.lowest
  valid := fun t ht => by obtain ⟨s, hs, e, -⟩ := downIf_pos ht; rw [e]; exact ho.valid s hs
  finite := fun t ht => by obtain ⟨s, hs, e, -⟩ := downIf_pos ht; rw [e]; exact ho.finite s hs
  low := fun t ht => by
    obtain ⟨s, hs, -, e | e⟩ := downIf_pos ht
    · rw [e]; exact ho.low s hs
    · rw [e]; exact hl s hs
  high := fun t ht => by
    obtain ⟨s, hs, -, e | e⟩ := downIf_pos ht
    · rw [e]; exact ho.high s hs
    · rw [e]
      have h1 := hh s hs
      have h2 := abs_sub s.value 1
      rw [abs_one] at h2
      exact lt_of_le_of_lt h2 h1
  reach := fun t ht => by obtain ⟨s, hs, e, -⟩ := downIf_pos ht; rw [e]; exact ho.reach s hs

open Classical in
/-- The sample at `p` is lowered by a polygon with value `v`. -/
noncomputable def raised (transform : Bool) (v : Val ℚ) (ring : List Pt) (c p : Pt) : Bool :=
  decide (transform = true ∧ Positive v ∧ Reached ring c p)

theorem raised_iff {b : Bool} {v : Val ℚ} {ring : List Pt} {c p : Pt} : raised b v ring c p = true ↔ b = true ∧ Positive v ∧ Reached ring c p := by
  simp [raised]

/-- A face raises the condition by its circle. -/
theorem after_ok {env : Env} {st : Settings} {ss : List Spot} {c : Pt} {ring : List Pt} {found : List Nat} {v : Val ℚ} (D : Pt → Bool)
    (ho : Ordinary env c ss) (hr : Sound ring c ss)
    (hf : found.Perm ((List.range (downIf D ss).length).filter (hit (downIf D ss) c (searchRadius env.lowest ring c))))
    (hod : Ordinary env c (downIf D ss)) :
    after st v found (downIf D ss) (ss.map (fun s => D s.pos))
      = .ok (downIf (fun p => D p || raised st.transform v ring c p) ss,
          ss.map (fun s => D s.pos || raised st.transform v ring c s.pos)) := by
  unfold after
  by_cases hp : (st.transform && positive v) = true
  · rw [if_pos hp]
    rw [Bool.and_eq_true, positive_iff] at hp
    have hlen : (downIf D ss).length = ss.length := by simp [downIf]
    obtain ⟨ss', visited', h1, h2, h3, h4⟩ := lower_ok found (downIf D ss) (ss.map (fun s => D s.pos)) (by simp [downIf]) (by
      intro i hi
      exact List.mem_range.1 (List.mem_of_mem_filter (hf.mem_iff.1 hi)))
    rw [h1]
    have hmem : ∀ (i : Nat) (s : Spot), ss[i]? = some s → (i ∈ found ↔ Reached ring c s.pos) := by
      intro i s hs
      have hi : i < ss.length := (List.getElem?_eq_some_iff.1 hs).1
      rw [hf.mem_iff, List.mem_filter, List.mem_range, hit_iff hod (downIf_get hs), hlen]
      have : (if D s.pos = true then ({ pos := s.pos, value := s.value - 1 } : Spot) else s).pos = s.pos := by split <;> rfl
      rw [this, near_iff ho.lowest hr.centre hr.nodes.2.2 hr.move]
      exact ⟨fun h => h.2, fun h => ⟨hi, h⟩⟩
    congr 2
    · apply List.ext_getElem?
      intro i
      by_cases hi : i < ss.length
      · have hs : ss[i]? = some ss[i] := List.getElem?_eq_getElem hi
        rw [(h4 i _ _ (downIf_get hs) (by rw [List.getElem?_map, hs]; rfl)).1, downIf_get hs]
        have hm := hmem i _ hs
        have hq : raised st.transform v ring c ss[i].pos = decide (i ∈ found) := by
          rw [Bool.eq_iff_iff, raised_iff, decide_eq_true_eq, hm]
          exact ⟨fun h => h.2.2, fun h => ⟨hp.1, hp.2, h⟩⟩
        rw [hq]
        by_cases hd : D ss[i].pos = true <;> by_cases hr' : i ∈ found <;> simp [hd, hr']
      · rw [List.getElem?_eq_none (by rw [h2]; simp [downIf]; omega), List.getElem?_eq_none (by simp [downIf]; omega)]
    · apply List.ext_getElem?
      intro i
      by_cases hi : i < ss.length
      · have hs : ss[i]? = some ss[i] := List.getElem?_eq_getElem hi
        rw [(h4 i _ _ (downIf_get hs) (by rw [List.getElem?_map, hs]; rfl)).2, List.getElem?_map, hs, Option.map_some]
        congr 2
        rw [Bool.eq_iff_iff, decide_eq_true_eq, raised_iff, hmem i _ hs]
        simp [hp]
      · rw [List.getElem?_eq_none (by rw [h3]; simp [downIf]; omega), List.getElem?_eq_none (by simp; omega)]
  · rw [if_neg hp]
    rw [Bool.and_eq_true, positive_iff] at hp
    have : ∀ p, raised st.transform v ring c p = false := by
      intro p
      rw [← Bool.not_eq_true, raised_iff]
      exact fun h => hp ⟨h.1, h.2.1⟩
    simp only [this, Bool.or_false]

/-- The ring and the centre for one face. -/
def target (r : ℚ) (nodes : List (Option Pt)) (f : List Nat × Pt) : List Pt × Pt :=
  (scaledRing (r * r) f.2 (f.1.map (position nodes)), f.2)

/-- The condition after some faces. -/
noncomputable def touched (transform : Bool) (done : List ((List Pt × Pt) × Val ℚ)) (p : Pt) : Bool :=
  done.any (fun d => raised transform d.2 d.1.1 d.1.2 p)

theorem touched_nil (b : Bool) : touched b [] = fun _ => false := by funext p; simp [touched]

theorem touched_cons (b : Bool) (d : (List Pt × Pt) × Val ℚ) (l : List ((List Pt × Pt) × Val ℚ)) (p : Pt) :
    touched b (d :: l) p = (raised b d.2 d.1.1 d.1.2 p || touched b l p) := by
  simp [touched]

theorem facesLoop_ok (env : Env) (st : Settings) (nodes : List (Option Pt)) (ss : List Spot) (hm : 1 ≤ st.minNum) (hu : st.useClosest = false)
    (hl : st.transform = true → ∀ s ∈ ss, env.lowest < s.value - 1) (hh : st.transform = true → ∀ s ∈ ss, |s.value| + 1 < env.top) :
    ∀ (fs : List (List Nat × Pt)), (∀ f ∈ fs, f.1 ≠ [] ∧ (∀ n ∈ f.1, n < nodes.length) ∧ Ordinary env f.2 ss ∧
      Sound (target st.radius nodes f).1 f.2 ss) → ∀ D : Pt → Bool, (st.transform = false → D = fun _ => false) →
    ∃ vs, facesLoop env st nodes fs (downIf D ss) (ss.map (fun s => D s.pos)) =
        .ok (vs, downIf (fun p => D p || touched st.transform ((fs.map (target st.radius nodes)).zip vs) p) ss) ∧ vs.length = fs.length ∧
      ∀ (k : Nat) f v, fs[k]? = some f → vs[k]? = some v →
        Average env.dist st.method st.minNum f.2 (within (target st.radius nodes f).1
          (downIf (fun p => D p || touched st.transform (((fs.map (target st.radius nodes)).zip vs).take k) p) ss)) v := by
  intro fs
  induction fs with
  | nil =>
    intro _ D _
    refine ⟨[], ?_, rfl, by simp⟩
    simp [facesLoop, touched_nil]
  | cons f fs ih =>
    intro hfs D hD
    obtain ⟨ns, c⟩ := f
    obtain ⟨h1, h2, h3, h4⟩ := hfs (ns, c) (by simp)
    simp only at h1 h2 h3
    have hod : Ordinary env c (downIf D ss) := by
      rcases Bool.eq_false_or_eq_true st.transform with ht | ht
      · exact h3.down (hl ht) (hh ht) D
      · have : downIf D ss = ss := by rw [hD ht]; simp [downIf]
        rw [this]; exact h3
    have hso : Sound (target st.radius nodes (ns, c)).1 c (downIf D ss) :=
      ⟨h4.centre, h4.nodes, h4.move, fun t ht => by obtain ⟨s, hs, e, -⟩ := downIf_pos ht; rw [e]; exact h4.off s hs⟩
    obtain ⟨v, found, e1, e2, e3⟩ := onPolygon_ok env st (downIf D ss) (scaledRing st.radius c (ns.map (position nodes)))
      (target st.radius nodes (ns, c)).1 c (search_twice _ _ _) hod h4.centre h4.nodes h4.move hso.off hm hu
    have e4 := after_ok (st := st) (v := v) D h3 h4 e3 hod
    obtain ⟨vs, g1, g2, g3⟩ := ih (fun g hg => hfs g (by simp [hg])) _ (by
      intro ht
      funext p
      rw [hD ht, ht]
      simp [raised] : st.transform = false → (fun p => D p || raised st.transform v (target st.radius nodes (ns, c)).1 c p) = fun _ => false)
    refine ⟨v :: vs, ?_, by simp [g2], ?_⟩
    · rw [facesLoop, facePolygon_ok h2 h1, Res.ok_bind, e1, Res.ok_bind, e4, Res.ok_bind]
      simp only []
      rw [g1, Res.ok_bind]
      simp only [List.map_cons, List.zip_cons_cons, touched_cons, Bool.or_assoc]
      rfl
    · intro k f w hk hw
      cases k with
      | zero =>
        simp only [List.getElem?_cons_zero, Option.some.injEq] at hk hw
        subst hk hw
        simpa [touched_nil] using e2
      | succ k =>
        simp only [List.getElem?_cons_succ] at hk hw
        have := g3 k f w hk hw
        simp only [List.map_cons, List.zip_cons_cons, List.take_succ_cons, touched_cons]
        simp only [Bool.or_assoc] at this
        exact this

end Verif.Sampling
