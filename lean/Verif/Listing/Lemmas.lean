import Verif.Listing.Model
import Verif.Listing.Spec
import Verif.Faces.Props
/-!
# Lemmas: writing the lists, administrating twice
-/
namespace Verif.Listing
open Verif.Mesh Verif.Faces
variable {P : Type}

/-! ## Reading back -/

theorem parts_append {r : List (Option P)} (h : none ∉ r) (l : List (Option P)) : parts (r ++ none :: l) = r :: parts l := by
  induction r with
  | nil => rfl
  | cons a r ih =>
    cases a with
    | none => simp at h
    | some a =>
      have := ih (fun hh => h (List.mem_cons_of_mem _ hh))
      rw [List.cons_append, parts, this]

theorem parts_plain {r : List (Option P)} (h : none ∉ r) : parts r = [r] := by
  induction r with
  | nil => rfl
  | cons a r ih =>
    cases a with
    | none => simp at h
    | some a => rw [parts, ih (fun hh => h (List.mem_cons_of_mem _ hh))]

theorem parts_listing {r : List (Option P)} {rs : List (List (Option P))} (h : ∀ x ∈ r :: rs, none ∉ x) : parts (listing (r :: rs)) = r :: rs := by
  induction rs generalizing r with
  | nil => simpa [listing] using parts_plain (h r (by simp))
  | cons q rs ih =>
    have := ih (r := q) (fun x hx => h x (List.mem_cons_of_mem _ hx))
    rw [listing] at this ⊢
    rw [List.flatMap_cons, List.cons_append, parts_append (h r (by simp)), this]

/-! ## Writing -/

/-- Several values written one after the other. -/
def putAll : List (Option P) → Out P → Res (Out P)
  | [], o => .ok o
  | v :: vs, o => do
    let o' ← put v o
    putAll vs o'

theorem putAll_append (u v : List (Option P)) (o : Out P) : putAll (u ++ v) o = (putAll u o >>= putAll v) := by
  induction u generalizing o with
  | nil => rfl
  | cons a u ih =>
    rw [List.cons_append, putAll, putAll]
    cases put a o with
    | ok o' => simp only [Res.ok_bind]; exact ih o'
    | throw => rfl
    | ub => rfl

theorem vset_ub {α : Type} {l : List α} {i : Nat} (a : α) (h : l.length ≤ i) : vset l i a = .ub := by
  unfold vset
  rw [if_neg (by omega)]

theorem putAll_ok (vs b : List (Option P)) (c : Nat) (h : c + vs.length ≤ b.length) :
    putAll vs (b, c) = .ok (b.take c ++ vs ++ b.drop (c + vs.length), c + vs.length) := by
  induction vs generalizing b c with
  | nil => simp [putAll]
  | cons v vs ih =>
    rw [List.length_cons] at h
    rw [putAll, put, vset_ok v (by simp only []; omega)]
    simp only [Res.ok_bind]
    rw [ih _ _ (by simp; omega)]
    congr 1
    refine Prod.ext ?_ (by simp; omega)
    simp only []
    have e1 : List.take (c + 1) (b.set c v) = b.take c ++ [v] := by
      rw [List.take_set, List.take_add_one, List.getElem?_eq_getElem (by omega)]
      rw [List.set_append_right _ _ (by simp)]
      simp [List.length_take, Nat.min_eq_left (by omega : c ≤ b.length)]
    have e2 : List.drop (c + 1 + vs.length) (b.set c v) = b.drop (c + (vs.length + 1)) := by
      rw [List.drop_set_of_lt (by omega)]
      congr 1; omega
    rw [e1, e2]; simp

theorem putAll_ub (vs b : List (Option P)) (c : Nat) (h : b.length < c + vs.length) (hc : c ≤ b.length) : putAll vs (b, c) = .ub := by
  induction vs generalizing b c with
  | nil => simp at h; omega
  | cons v vs ih =>
    rw [List.length_cons] at h
    rw [putAll, put]
    simp only []
    by_cases hl : c < b.length
    · rw [vset_ok v hl]
      simp only [Res.ok_bind]
      exact ih _ _ (by simp; omega) (by simp; omega)
    · rw [vset_ub v (by omega)]; rfl

theorem putAll_count {vs : List (Option P)} {o o' : Out P} (h : putAll vs o = .ok o') : o'.2 = o.2 + vs.length := by
  induction vs generalizing o with
  | nil => obtain rfl := Res.ok.inj h; rfl
  | cons v vs ih =>
    rw [putAll] at h
    obtain ⟨o1, h1, h2⟩ := Res.bind_eq_ok.1 h
    have := ih h2
    rw [put] at h1
    obtain ⟨b, _, h3⟩ := Res.bind_eq_ok.1 h1
    obtain rfl := Res.ok.inj h3
    rw [this]; simp; omega

theorem nodeAt_ok {nodes : List (Option P)} {n : Nat} (h : n < nodes.length) : nodeAt nodes n = .ok nodes[n]?.join := by
  rw [nodeAt, if_pos h, vget_ok h]
  simp [h]

theorem putNodes_eq {nodes : List (Option P)} {ns : List Nat} (h : ∀ n ∈ ns, n < nodes.length) (o : Out P) :
    putNodes nodes ns o = putAll (ns.map fun n => nodes[n]?.join) o := by
  induction ns generalizing o with
  | nil => rfl
  | cons n ns ih =>
    rw [putNodes, List.map_cons, putAll, nodeAt_ok (h n (by simp)), Res.ok_bind]
    congr 1
    funext o'
    exact ih (fun x hx => h x (List.mem_cons_of_mem _ hx)) o'

theorem fillFace_eq {nodes : List (Option P)} {ns : List Nat} (h : ∀ n ∈ ns, n < nodes.length) (h0 : ns ≠ []) (o : Out P) :
    fillFace nodes ns o = putAll ((if o.2 = 0 then [] else [none]) ++ ring nodes ns) o := by
  have e : separate o = putAll (if o.2 = 0 then [] else [none]) o := by
    unfold separate
    by_cases hc : o.2 = 0
    · rw [if_neg (by simp [hc]), if_pos hc]; rfl
    · rw [if_pos hc, if_neg hc, putAll]
      cases put none o <;> rfl
  rw [fillFace, putAll_append, e]
  congr 1
  funext o1
  rw [ring, List.map_append, putAll_append, putNodes_eq h]
  congr 1
  funext o2
  obtain ⟨n, ns', rfl⟩ := List.exists_cons_of_ne_nil h0
  rw [vget_ok (by simp), Res.ok_bind]
  simp only [List.getElem_cons_zero, List.take_succ_cons, List.take_zero, List.map_cons, List.map_nil]
  rw [nodeAt_ok (h n (by simp)), Res.ok_bind, putAll]
  cases put _ o2 <;> rfl

theorem ring_length {nodes : List (Option P)} {ns : List Nat} (h : ns ≠ []) : (ring nodes ns).length = ns.length + 1 := by
  obtain ⟨n, ns', rfl⟩ := List.exists_cons_of_ne_nil h
  simp [ring]

theorem fill_loop {nodes : List (Option P)} {faces : List (List Nat)} {mask : List Bool} (hm : mask.length = faces.length)
    (hv : ∀ ns ∈ faces, ns ≠ [] ∧ ∀ n ∈ ns, n < nodes.length) (k i : Nat) (hk : i + k = faces.length) (o : Out P) :
    loopN (fillStep nodes faces mask) k i o =
      putAll (if o.2 = 0 then listing ((picked (faces.drop i) (mask.drop i)).map (ring nodes))
        else ((picked (faces.drop i) (mask.drop i)).map (ring nodes)).flatMap (none :: ·)) o := by
  induction k generalizing i o with
  | zero =>
    rw [List.drop_eq_nil_of_le (by omega : faces.length ≤ i)]
    simp [picked, listing, loopN, putAll]
  | succ k ih =>
    have hi : i < faces.length := by omega
    rw [loopN, fillStep, vget_ok (by omega : i < mask.length), Res.ok_bind]
    have e : picked (faces.drop i) (mask.drop i) = (if mask[i] then [faces[i]] else []) ++ picked (faces.drop (i + 1)) (mask.drop (i + 1)) := by
      rw [List.drop_eq_getElem_cons hi, List.drop_eq_getElem_cons (by omega : i < mask.length)]
      simp only [picked, List.zip_cons_cons, List.filterMap_cons]
      by_cases hb : mask[i] = true
      · simp [hb]
      · simp [hb]
    rw [e]
    by_cases hb : mask[i] = true
    · obtain ⟨h1, h2⟩ := hv _ (List.getElem_mem hi)
      rw [if_pos hb, if_pos hb, vget_ok hi, Res.ok_bind, fillFace_eq h2 h1]
      have e2 : (if o.2 = 0 then listing (([faces[i]] ++ picked (faces.drop (i + 1)) (mask.drop (i + 1))).map (ring nodes))
          else (([faces[i]] ++ picked (faces.drop (i + 1)) (mask.drop (i + 1))).map (ring nodes)).flatMap (none :: ·)) =
          ((if o.2 = 0 then [] else [none]) ++ ring nodes faces[i]) ++
            ((picked (faces.drop (i + 1)) (mask.drop (i + 1))).map (ring nodes)).flatMap (none :: ·) := by
        by_cases hc : o.2 = 0
        · simp [hc, listing]
        · simp [hc]
      rw [e2, putAll_append (_ ++ _)]
      cases hp : putAll ((if o.2 = 0 then [] else [none]) ++ ring nodes faces[i]) o with
      | throw => rfl
      | ub => rfl
      | ok o' =>
        have hc := putAll_count hp
        rw [List.length_append, ring_length h1] at hc
        rw [Res.ok_bind, Res.ok_bind, ih (i + 1) (by omega) o', if_neg (by omega)]
    · rw [if_neg hb, if_neg hb, Res.ok_bind, ih (i + 1) (by omega) o]
      simp

/-- What is written. -/
theorem fillFacePolygons_eq {nodes : List (Option P)} {faces : List (List Nat)} {mask : List Bool} (hm : mask.length = faces.length)
    (hv : ∀ ns ∈ faces, ns ≠ [] ∧ ∀ n ∈ ns, n < nodes.length) (buf : List (Option P)) :
    fillFacePolygons nodes faces mask buf =
      if (listing ((picked faces mask).map (ring nodes))).length ≤ buf.length then
        .ok (listing ((picked faces mask).map (ring nodes)) ++ buf.drop (listing ((picked faces mask).map (ring nodes))).length)
      else .ub := by
  rw [fillFacePolygons, forRange, Nat.sub_zero, fill_loop hm hv _ _ (by omega)]
  simp only [List.drop_zero, if_true]
  split
  · next h => rw [putAll_ok _ _ _ (by omega)]; simp
  · next h => rw [putAll_ub _ _ _ (by omega) (by omega)]; rfl

/-! ## Lengths -/

theorem listing_length (rs : List (List (Option P))) : ((listing rs).length : Int) =
    if (rs.map fun r => (r.length : Int) + 1).sum > 0 then (rs.map fun r => (r.length : Int) + 1).sum - 1 else 0 := by
  have nn : ∀ l : List (List (Option P)), ((l.flatMap (none :: ·)).length : Int) = (l.map fun r => (r.length : Int) + 1).sum := by
    intro l
    induction l with
    | nil => rfl
    | cons a l ih => simp only [List.flatMap_cons, List.length_append, List.length_cons, List.map_cons, List.sum_cons, Nat.cast_add, ih]; push_cast; ring
  have pos : ∀ l : List (List (Option P)), 0 ≤ (l.map fun r => (r.length : Int) + 1).sum := by
    intro l; rw [← nn]; omega
  cases rs with
  | nil => rfl
  | cons r rs =>
    have := pos rs
    rw [if_pos (by simp only [List.map_cons, List.sum_cons]; omega), listing, List.length_append]
    push_cast
    rw [nn]
    simp only [List.map_cons, List.sum_cons]
    ring

theorem picked_filter {α : Type} (faces : List α) (q : α → Bool) : picked faces (faces.map q) = faces.filter q := by
  unfold picked
  induction faces with
  | nil => rfl
  | cons a l ih =>
    simp only [List.map_cons, List.zip_cons_cons, List.filterMap_cons, List.filter_cons]
    by_cases h : q a = true
    · simp only [h, if_true]; rw [ih]
    · rw [if_neg h, if_neg h]; exact ih

/-! ## Administrating twice -/

theorem validNode_connectedNodes {m : Mesh P} {e : Edge} (he : e ∈ m.edges) (hv : validEdge m.nodes e = true) : validEdge (connectedNodes m) e = true := by
  have key : ∀ i, (e.1 = i ∨ e.2 = i) → validNode m.nodes i = true → validNode (connectedNodes m) i = true := by
    intro i hi h
    have hc : connected m i = true := by
      unfold connected
      rw [List.any_eq_true]
      exact ⟨e, he, by rw [hv]; simpa using hi⟩
    unfold validNode at h ⊢
    unfold connectedNodes
    rw [List.getElem?_mapIdx]
    cases hg : m.nodes[i]? with
    | none => rw [hg] at h; simp at h
    | some v => rw [hg] at h; simpa [hc] using h
  unfold validEdge at hv ⊢
  simp only [Bool.and_eq_true] at hv ⊢
  exact ⟨⟨hv.1.1, key e.1 (Or.inl rfl) hv.1.2⟩, key e.2 (Or.inr rfl) hv.2⟩

theorem validNode_of_connectedNodes {m : Mesh P} {i : Nat} (h : validNode (connectedNodes m) i = true) : connected m i = true ∧ validNode m.nodes i = true := by
  unfold validNode connectedNodes at h
  rw [List.getElem?_mapIdx] at h
  unfold validNode
  cases hg : m.nodes[i]? with
  | none => rw [hg] at h; simp at h
  | some v =>
    rw [hg] at h
    by_cases hc : connected m i = true
    · simp only [Option.map_some, hc, if_true] at h
      exact ⟨hc, by simpa using h⟩
    · simp [hc] at h

/-- The result of the first step in one form. -/
theorem setUnconnectedInvalid_eq {m m1 : Mesh P} (h : setUnconnectedInvalid m = .ok m1) :
    m1.nodes = connectedNodes m ∧ m1.edges = m.edges.map (fun e => if validEdge (connectedNodes m) e then e else noEdge) := by
  unfold setUnconnectedInvalid at h
  split at h
  · simp at h
  · simp only [] at h
    split at h
    · next hc =>
      obtain rfl := Res.ok.inj h
      refine ⟨rfl, ?_⟩
      simp only []
      symm
      conv_rhs => rw [← List.map_id m.edges]
      apply List.map_congr_left
      intro e he
      have h1 := hc.1
      unfold numInvalidEdges at h1
      rw [List.countP_eq_zero] at h1
      have h2 := h1 e he
      rw [if_pos (validNode_connectedNodes he (by simpa using h2))]
      rfl
    · obtain rfl := Res.ok.inj h
      exact ⟨rfl, rfl⟩

theorem setUnconnectedInvalid_fixed {m : Mesh P} (he : ∀ e ∈ m.edges, e = noEdge ∨ validEdge m.nodes e = true)
    (hn : ∀ i, validNode m.nodes i = true → connected m i = true) : setUnconnectedInvalid m = .ok m := by
  have hb : inBounds m = true := by
    unfold inBounds
    rw [List.all_eq_true]
    intro e hm
    rcases he e hm with rfl | h
    · simp [hasNodes, noEdge]
    · unfold validEdge at h
      simp only [Bool.and_eq_true] at h
      simp [validNode_lt h.1.2, validNode_lt h.2]
  have hc : connectedNodes m = m.nodes := by
    apply List.ext_getElem?
    intro i
    unfold connectedNodes
    rw [List.getElem?_mapIdx]
    cases hg : m.nodes[i]? with
    | none => rfl
    | some v =>
      cases v with
      | none => simp
      | some p =>
        have := hn i (by simp [validNode, hg])
        simp [this]
  unfold setUnconnectedInvalid
  rw [if_neg (by simp [hb])]
  simp only [hc]
  split
  · rfl
  · congr 1
    have : m.edges.map (fun e => if validEdge m.nodes e then e else noEdge) = m.edges := by
      conv_rhs => rw [← List.map_id m.edges]
      apply List.map_congr_left
      intro e hm
      rcases he e hm with rfl | h
      · split <;> rfl
      · rw [if_pos h]; rfl
    rw [this]

theorem setUnconnectedInvalid_again {m m1 m2 : Mesh P} (h : setUnconnectedInvalid m = .ok m1) (h1 : m2.nodes = m1.nodes) (h2 : m2.edges = m1.edges) :
    setUnconnectedInvalid m2 = .ok m2 := by
  obtain ⟨a1, a2⟩ := setUnconnectedInvalid_eq h
  refine setUnconnectedInvalid_fixed ?_ ?_
  · intro e he
    rw [h2, a2, List.mem_map] at he
    obtain ⟨e0, _, rfl⟩ := he
    rw [h1, a1]
    split
    · next hv => exact Or.inr hv
    · exact Or.inl rfl
  · intro i hi
    rw [h1, a1] at hi
    obtain ⟨hc, _⟩ := validNode_of_connectedNodes hi
    unfold connected at hc ⊢
    rw [List.any_eq_true] at hc ⊢
    obtain ⟨e, he, hh⟩ := hc
    rw [Bool.and_eq_true] at hh
    have hv := validNode_connectedNodes he hh.1
    refine ⟨e, ?_, by rw [h1, a1, hv, hh.2]; rfl⟩
    rw [h2, a2, List.mem_map]
    exact ⟨e, he, if_pos hv⟩

theorem administrate_again {order : Nat → List Nat → List Nat} {m m1 m2 : Mesh P} (h : setUnconnectedInvalid m = .ok m1)
    (h2 : administrate order m = .ok m2) : m2.nodes = m1.nodes ∧ m2.edges = m1.edges ∧ administrate order m2 = .ok m2 := by
  unfold administrate at h2
  rw [h] at h2
  simp only [] at h2
  split at h2
  · next hc =>
    obtain rfl := Res.ok.inj h2
    refine ⟨rfl, rfl, ?_⟩
    unfold administrate
    rw [setUnconnectedInvalid_again h rfl rfl]
    simp only [hc, if_true]
  · next hc =>
    obtain rfl := Res.ok.inj h2
    refine ⟨rfl, rfl, ?_⟩
    unfold administrate
    have hs : ∀ a b, setUnconnectedInvalid { m1 with nodesEdges := a, numEdges := b } = .ok { m1 with nodesEdges := a, numEdges := b } :=
      fun a b => setUnconnectedInvalid_again h rfl rfl
    rw [hs]
    simp only []
    rw [if_neg hc]

/-- The second administration finds nothing to change. -/
theorem administer_again {order : List (Option P) → List Edge → Nat → List Nat → List Nat} {cw : List (Option P) → List Nat → Bool} {m m1 : Mesh P}
    {s : State} (h : administer order cw m = .ok (m1, s)) : administer order cw m1 = .ok (m1, s) := by
  unfold administer at h
  obtain ⟨m0, h0, h1⟩ := Res.bind_eq_ok.1 h
  unfold doAdministration at h1
  obtain ⟨m2, h2, h3⟩ := Res.bind_eq_ok.1 h1
  obtain ⟨s', h4, h5⟩ := Res.bind_eq_ok.1 h3
  obtain ⟨rfl, rfl⟩ := Prod.mk.inj (Res.ok.inj h5)
  obtain ⟨e1, e2, e3⟩ := administrate_again h0 h2
  unfold administer
  rw [setUnconnectedInvalid_again h0 e1 e2, Res.ok_bind, doAdministration, e1, e2, e3, Res.ok_bind]
  rw [e1, e2] at h4
  rw [e1, e2, h4, Res.ok_bind]

/-- The administration and what holds after it. -/
theorem administer_ok {order : List (Option P) → List Edge → Nat → List Nat → List Nat} (hperm : ∀ v e n l, (order v e n l).Perm l)
    (cw : List (Option P) → List Nat → Bool) {m : Mesh P} (hn : m.nodes.length ≤ missing) (hb : inBounds m = true) :
    ∃ m1 s, administer order cw m = .ok (m1, s) ∧ m1.nodes.length = m.nodes.length ∧ Consistent m1.edges (cw m1.nodes) s ∧
      ∀ ns ∈ s.facesNodes, (3 ≤ ns.length ∧ ns.length ≤ 6) ∧ ∀ n ∈ ns, validNode m1.nodes n = true := by
  obtain ⟨m0, h0, h0n, _⟩ := setUnconnectedInvalid_ok hn hb
  obtain ⟨m1, s, h1, h2, h3, h4, _⟩ := doAdministration_ok (hperm m0.nodes m0.edges) cw hn hb
  obtain ⟨e1, _, _⟩ := administrate_again h0 h1
  refine ⟨m1, s, by unfold administer; rw [h0]; exact h2, by rw [e1, h0n]; simp [connectedNodes], h3, fun ns hns => ?_⟩
  obtain ⟨f, hf, hg⟩ := List.getElem_of_mem hns
  have hf' : s.facesNodes[f]? = some ns := by rw [List.getElem?_eq_getElem hf, hg]
  have hl : f < s.facesEdges.length := by rw [← h3.lengths]; exact hf
  have := (h3.proper f ns _ hf' (List.getElem?_eq_getElem hl)).1
  exact ⟨⟨this.atLeast, this.atMost⟩, h4 f ns hf'⟩

/-! ## Filter -/

theorem allInRange_ok {K : Type} [LinearOrder K] {values : List K} {lo hi : K} {es : List Nat} (h : ∀ e ∈ es, e < values.length) :
    ∃ b, allInRange values lo hi es = .ok b ∧ (b = true ↔ ∀ e ∈ es, ∀ v, values[e]? = some v → lo ≤ v ∧ v ≤ hi) := by
  induction es with
  | nil => exact ⟨true, rfl, by simp⟩
  | cons e es ih =>
    obtain ⟨b, h1, h2⟩ := ih (fun x hx => h x (List.mem_cons_of_mem _ hx))
    have he := h e (by simp)
    rw [allInRange, vget_ok he, Res.ok_bind]
    by_cases hc : values[e] < lo ∨ values[e] > hi
    · refine ⟨false, if_pos hc, ?_⟩
      constructor
      · simp
      · intro hh
        have := hh e (by simp) _ (List.getElem?_eq_getElem he)
        rcases hc with hc | hc
        · exact absurd this.1 (not_le.2 hc)
        · exact absurd this.2 (not_le.2 hc)
    · refine ⟨b, by rw [if_neg hc, h1], ?_⟩
      rw [h2]
      push Not at hc
      constructor
      · intro hh x hx v hv
        rcases List.mem_cons.1 hx with rfl | hx
        · rw [List.getElem?_eq_getElem he] at hv
          obtain rfl := Option.some.inj hv
          exact hc
        · exact hh x hx v hv
      · intro hh x hx v hv
        exact hh x (List.mem_cons_of_mem _ hx) v hv

theorem filterFaces_ok {K : Type} [LinearOrder K] {values : List K} {lo hi : K} {fs : List (List Nat)} (h : ∀ es ∈ fs, ∀ e ∈ es, e < values.length) :
    ∃ bs, filterFaces values lo hi fs = .ok bs ∧ bs.length = fs.length ∧
      ∀ (f : Nat) es, fs[f]? = some es → (bs[f]? = some true ↔ ∀ e ∈ es, ∀ v, values[e]? = some v → lo ≤ v ∧ v ≤ hi) := by
  induction fs with
  | nil => exact ⟨[], rfl, rfl, by simp⟩
  | cons a fs ih =>
    obtain ⟨bs, h1, h2, h3⟩ := ih (fun x hx => h x (List.mem_cons_of_mem _ hx))
    obtain ⟨b, g1, g2⟩ := allInRange_ok (lo := lo) (hi := hi) (h a (by simp))
    refine ⟨b :: bs, by rw [filterFaces, g1, Res.ok_bind, h1]; rfl, by simp [h2], ?_⟩
    intro f es hf
    cases f with
    | zero =>
      rw [List.getElem?_cons_zero] at hf
      obtain rfl := Option.some.inj hf
      rw [← g2]; simp
    | succ f => rw [List.getElem?_cons_succ] at hf ⊢; exact h3 f es hf

theorem filteredDimension_eq (nodes : List (Option P)) {faces : List (List Nat)} (hv : ∀ ns ∈ faces, ns ≠ []) (mask : List Bool) :
    filteredDimension faces mask = ((listing ((picked faces mask).map (ring nodes))).length : Int) := by
  rw [listing_length]
  have e : ((faces.zip mask).map fun p => if p.2 then (p.1.length : Int) + 2 else 0).sum =
      (((picked faces mask).map (ring nodes)).map fun r => (r.length : Int) + 1).sum := by
    unfold picked
    have hz : ∀ p ∈ faces.zip mask, p.1 ≠ [] := fun p hp => hv _ (List.of_mem_zip hp).1
    revert hz
    induction faces.zip mask with
    | nil => intro _; rfl
    | cons p l ih =>
      intro hz
      have := ih (fun q hq => hz q (List.mem_cons_of_mem _ hq))
      rw [List.map_cons, List.sum_cons, List.filterMap_cons, this]
      by_cases hb : p.2 = true
      · simp only [hb, if_true, List.map_cons, List.sum_cons, ring_length (hz p (by simp))]
        push_cast; ring
      · simp [hb]
  unfold filteredDimension
  simp only [e]
  split
  · rfl
  · next h =>
    have : 0 ≤ (((picked faces mask).map (ring nodes)).map fun r => (r.length : Int) + 1).sum := by
      apply List.sum_nonneg
      intro x hx
      rw [List.mem_map] at hx
      obtain ⟨r, _, rfl⟩ := hx
      omega
    omega

end Verif.Listing
