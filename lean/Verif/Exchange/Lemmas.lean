import Verif.Exchange.Spec
/-!
# Lemmas: reading, writing and compaction
-/
namespace Verif.Exchange
open Verif.Mesh Verif.Polygons
open Verif.EdgePick (toUInt)

theorem toUInt_of {i : Int} {n : Nat} (h0 : 0 ≤ i) (h : i < (n : Int)) (hn : n < 2147483648) : toUInt i = i.toNat := by
  unfold toUInt
  omega

theorem toInt_of {i : Int} {n : Nat} (h0 : 0 ≤ i) (h : i < (n : Int)) (hn : n < 2147483648) : toInt i.toNat = i := by
  unfold toInt
  split <;> omega

theorem readEdges_ok {a : List Int} : ∀ (es : List (Int × Int)) (i : Nat),
    (a.drop i).take (2 * es.length) = es.flatMap (fun e => [e.1, e.2]) →
    readEdges a es.length i = .ok (es.map (fun e => (toUInt e.1, toUInt e.2)))
  | [], _, _ => rfl
  | e :: es, i, h => by
    have hl : 2 * (e :: es).length = 2 * es.length + 2 := by simp; omega
    rw [hl] at h
    have h0 : a[i]? = some e.1 := by
      have := congrArg (fun l => l[0]?) h
      simpa [List.getElem?_take] using this
    have h1 : a[i + 1]? = some e.2 := by
      have := congrArg (fun l => l[1]?) h
      simpa [List.getElem?_take, List.getElem?_drop] using this
    have h2 : (a.drop (i + 2)).take (2 * es.length) = es.flatMap (fun e => [e.1, e.2]) := by
      have := congrArg (List.drop 2) h
      rw [List.drop_take, List.drop_drop] at this
      simpa using this
    show readEdges a (es.length + 1) i = _
    rw [readEdges, vget_eq_ok.2 h0, Res.ok_bind, vget_eq_ok.2 h1, Res.ok_bind, readEdges_ok es (i + 2) h2]
    rfl

theorem readNodes_ok {xs ys : List ℚ} : ∀ (ps : List Pt) (i : Nat), (xs.drop i).take ps.length = ps.map (·.x) →
    (ys.drop i).take ps.length = ps.map (·.y) → readNodes xs ys ps.length i = .ok (ps.map (fun p => toNode p.x p.y))
  | [], _, _, _ => rfl
  | p :: ps, i, h, h' => by
    rw [List.length_cons] at h h'
    have h0 : xs[i]? = some p.x := by
      have := congrArg (fun l => l[0]?) h
      simpa [List.getElem?_take] using this
    have h1 : ys[i]? = some p.y := by
      have := congrArg (fun l => l[0]?) h'
      simpa [List.getElem?_take] using this
    have h2 : (xs.drop (i + 1)).take ps.length = ps.map (·.x) := by
      have := congrArg (List.drop 1) h
      rw [List.drop_take, List.drop_drop] at this
      simpa using this
    have h3 : (ys.drop (i + 1)).take ps.length = ps.map (·.y) := by
      have := congrArg (List.drop 1) h'
      rw [List.drop_take, List.drop_drop] at this
      simpa using this
    rw [List.length_cons, readNodes, vget_eq_ok.2 h0, Res.ok_bind, vget_eq_ok.2 h1, Res.ok_bind, readNodes_ok ps (i + 1) h2 h3]
    rfl

theorem build_eq {a : Arrays} {ps : List Pt} {es : List (Int × Int)} (h : Holds a ps es) :
    build a = deleteInvalid ⟨ps.map (fun p => toNode p.x p.y), es.map (fun e => (toUInt e.1, toUInt e.2)), [], []⟩ := by
  unfold build
  have h1 : a.numEdges.toNat = es.length := by rw [h.numEdges]; rfl
  have h2 : a.numNodes.toNat = ps.length := by rw [h.numNodes]; rfl
  rw [if_neg (by rw [h.numEdges]; omega), h1, readEdges_ok es 0 (by rw [List.drop_zero]; exact h.edges), Res.ok_bind,
    if_neg (by rw [h.numNodes]; omega), h2, readNodes_ok ps 0 (by rw [List.drop_zero]; exact h.xs) (by rw [List.drop_zero]; exact h.ys)]
  rfl

/-! ## Tidy meshes are left alone -/

theorem held_valid {m : Mesh Pt} {ps : List Pt} {es : List (Int × Int)} (h : Held m ps es) (t : Tidy ps es) {e : Edge} (he : e ∈ m.edges) :
    validEdge m.nodes e = true ∧ e.1 < m.nodes.length ∧ e.2 < m.nodes.length := by
  rw [h.2] at he
  obtain ⟨f, hf, rfl⟩ := List.mem_map.1 he
  obtain ⟨⟨a1, a2⟩, b1, b2⟩ := t.ends f hf
  have hfit := t.fits
  have hm : missing = 4294967295 := rfl
  have l : m.nodes.length = ps.length := by rw [h.1, List.length_map]
  have v : ∀ i, i < ps.length → validNode m.nodes i = true := by
    intro i hi
    unfold validNode
    rw [h.1, List.getElem?_map, List.getElem?_eq_getElem hi]
    rfl
  refine ⟨?_, by simp only [l]; omega, by simp only [l]; omega⟩
  unfold validEdge hasNodes
  simp only [Bool.and_eq_true, bne_iff_ne, ne_eq]
  exact ⟨⟨⟨by omega, by omega⟩, v _ (by omega)⟩, v _ (by omega)⟩

theorem held_connected {m : Mesh Pt} {ps : List Pt} {es : List (Int × Int)} (h : Held m ps es) (t : Tidy ps es) : connectedNodes m = m.nodes := by
  unfold connectedNodes
  apply List.ext_getElem?
  intro i
  rw [List.getElem?_mapIdx]
  by_cases hi : i < m.nodes.length
  · rw [List.getElem?_eq_getElem hi]
    have l : m.nodes.length = ps.length := by rw [h.1, List.length_map]
    obtain ⟨e, he, hc⟩ := t.used i (by omega)
    have hin : (e.1.toNat, e.2.toNat) ∈ m.edges := by rw [h.2]; exact List.mem_map.2 ⟨e, he, rfl⟩
    have : connected m i = true := by
      unfold connected
      rw [List.any_eq_true]
      refine ⟨_, hin, ?_⟩
      rw [(held_valid h t hin).1]
      simp only [Bool.true_and, Bool.or_eq_true, beq_iff_eq]
      omega
    simp [this]
  · rw [List.getElem?_eq_none (by omega)]
    rfl

theorem held_counts {m : Mesh Pt} {ps : List Pt} {es : List (Int × Int)} (h : Held m ps es) (t : Tidy ps es) :
    inBounds m = true ∧ numInvalidEdges m = 0 ∧ numInvalidNodes m = 0 := by
  refine ⟨?_, ?_, ?_⟩
  · unfold inBounds
    rw [List.all_eq_true]
    intro e he
    obtain ⟨-, a, b⟩ := held_valid h t he
    simp [a, b]
  · unfold numInvalidEdges
    rw [List.countP_eq_zero]
    intro e he
    rw [(held_valid h t he).1]
    simp
  · unfold numInvalidNodes
    rw [held_connected h t, List.countP_eq_zero, h.1]
    intro v hv
    obtain ⟨p, -, rfl⟩ := List.mem_map.1 hv
    simp

theorem deleteInvalid_held {m : Mesh Pt} {ps : List Pt} {es : List (Int × Int)} (h : Held m ps es) (t : Tidy ps es) :
    deleteInvalid m = .ok m := by
  obtain ⟨h1, h2⟩ := held_counts h t
  unfold deleteInvalid
  rw [h1]
  simp only [Bool.not_true, Bool.false_eq_true, if_false]
  rw [if_pos h2, held_connected h t]

theorem administrate_held {m : Mesh Pt} {ps : List Pt} {es : List (Int × Int)} (h : Held m ps es) (t : Tidy ps es)
    (order : Nat → List Nat → List Nat) : ∃ r, administrate order m = .ok r ∧ Held r ps es := by
  obtain ⟨h1, h2⟩ := held_counts h t
  have hs : setUnconnectedInvalid m = .ok m := by
    unfold setUnconnectedInvalid
    rw [h1]
    simp only [Bool.not_true, Bool.false_eq_true, if_false]
    rw [if_pos h2, held_connected h t]
  unfold administrate
  rw [hs]
  simp only
  split
  · exact ⟨m, rfl, h⟩
  · exact ⟨_, rfl, h⟩

theorem toNode_valid {p : Pt} (h : p.isValid = true) : toNode p.x p.y = some p := by
  unfold toNode
  rw [if_pos h]

theorem build_tidy {a : Arrays} {ps : List Pt} {es : List (Int × Int)} (h : Holds a ps es) (t : Tidy ps es) :
    ∃ m, build a = .ok m ∧ Held m ps es := by
  have hh : Held ⟨ps.map (fun p => toNode p.x p.y), es.map (fun e => (toUInt e.1, toUInt e.2)), [], []⟩ ps es := by
    refine ⟨List.map_congr_left fun p hp => toNode_valid (t.valid p hp), List.map_congr_left fun e he => ?_⟩
    obtain ⟨⟨a1, a2⟩, b1, b2⟩ := t.ends e he
    rw [toUInt_of a1 a2 t.fits, toUInt_of b1 b2 t.fits]
  exact ⟨_, (build_eq h).trans (deleteInvalid_held hh t), hh⟩

/-! ## Writing -/

theorem writeNodes_ok : ∀ (ps : List Pt) (i : Nat) (o : Arrays), i + ps.length ≤ o.nodeX.length → i + ps.length ≤ o.nodeY.length →
    writeNodes (ps.map some) i o = .ok { o with
      nodeX := o.nodeX.take i ++ ps.map (·.x) ++ o.nodeX.drop (i + ps.length)
      nodeY := o.nodeY.take i ++ ps.map (·.y) ++ o.nodeY.drop (i + ps.length) }
  | [], i, o, _, _ => by simp [writeNodes]
  | p :: ps, i, o, h1, h2 => by
    rw [List.length_cons] at h1 h2
    rw [List.map_cons, writeNodes, vset_ok _ (by omega), Res.ok_bind, vset_ok _ (by omega), Res.ok_bind,
      writeNodes_ok ps (i + 1) _ (by simp; omega) (by simp; omega)]
    simp only [ofNode, List.map_cons, List.length_cons]
    have key : ∀ (l : List ℚ) (v : ℚ) (vs : List ℚ), i < l.length → (l.set i v).take (i + 1) ++ vs ++ (l.set i v).drop (i + 1 + ps.length) =
        l.take i ++ v :: vs ++ l.drop (i + (ps.length + 1)) := by
      intro l v vs hi
      rw [List.take_add_one, List.take_set_of_le (le_refl i), List.getElem?_set_self hi,
        List.drop_set_of_lt (by omega), show i + 1 + ps.length = i + (ps.length + 1) by omega]
      simp
    rw [key _ _ _ (by omega), key _ _ _ (by omega)]

theorem writeNodes_ub : ∀ (ns : List (Option Pt)) (i : Nat) (o : Arrays), i ≤ o.nodeX.length →
    (o.nodeX.length < i + ns.length ∨ o.nodeY.length < i + ns.length) → i ≤ o.nodeY.length → writeNodes ns i o = .ub
  | [], i, o, h0, h1, h2 => by simp at h1; omega
  | v :: ns, i, o, h0, h1, h2 => by
    rw [List.length_cons] at h1
    rw [writeNodes]
    by_cases c : i < o.nodeX.length
    · rw [vset_ok _ c, Res.ok_bind]
      by_cases c' : i < o.nodeY.length
      · rw [vset_ok _ c', Res.ok_bind]
        exact writeNodes_ub ns (i + 1) _ (by simp; omega) (by simp; omega) (by simp; omega)
      · unfold vset
        rw [if_neg c']
        rfl
    · unfold vset
      rw [if_neg c]
      rfl

theorem writeEdges_ok {n : Nat} (hn : n < 2147483648) : ∀ (es : List (Int × Int)) (i : Nat) (o : Arrays),
    (∀ e ∈ es, (0 ≤ e.1 ∧ e.1 < (n : Int)) ∧ (0 ≤ e.2 ∧ e.2 < (n : Int))) → i + 2 * es.length ≤ o.edgeNodes.length →
    writeEdges (es.map (fun e => (e.1.toNat, e.2.toNat))) i o = .ok { o with
      edgeNodes := o.edgeNodes.take i ++ es.flatMap (fun e => [e.1, e.2]) ++ o.edgeNodes.drop (i + 2 * es.length) }
  | [], i, o, _, _ => by simp [writeEdges]
  | e :: es, i, o, he, h1 => by
    rw [List.length_cons] at h1
    obtain ⟨⟨a1, a2⟩, b1, b2⟩ := he e List.mem_cons_self
    rw [List.map_cons, writeEdges, toInt_of a1 a2 hn, toInt_of b1 b2 hn, vset_ok _ (by omega), Res.ok_bind, vset_ok _ (by simp; omega), Res.ok_bind,
      writeEdges_ok hn es (i + 2) _ (fun f hf => he f (List.mem_cons_of_mem _ hf)) (by simp; omega)]
    simp only [List.flatMap_cons, List.length_cons]
    have hi : i < o.edgeNodes.length := by omega
    have hj : i + 1 < o.edgeNodes.length := by omega
    have t : ((o.edgeNodes.set i e.1).set (i + 1) e.2).take (i + 2) = o.edgeNodes.take i ++ [e.1, e.2] := by
      rw [List.take_add_one, List.take_set_of_le (le_refl _), List.getElem?_set_self (by simpa using hj), List.take_add_one,
        List.take_set_of_le (le_refl _), List.getElem?_set_self hi]
      simp
    rw [t, List.drop_set_of_lt (by omega), List.drop_set_of_lt (by omega), show i + 2 + 2 * es.length = i + 2 * (es.length + 1) by omega]
    simp

theorem writeEdges_ub : ∀ (es : List Edge) (i : Nat) (o : Arrays), o.edgeNodes.length < i + 2 * es.length → i ≤ o.edgeNodes.length → writeEdges es i o = .ub
  | [], i, o, h, h' => by simp at h; omega
  | e :: es, i, o, h, h' => by
    rw [List.length_cons] at h
    rw [writeEdges]
    by_cases c : i < o.edgeNodes.length
    · rw [vset_ok _ c, Res.ok_bind]
      by_cases c' : i + 1 < o.edgeNodes.length
      · rw [vset_ok _ (by simpa using c'), Res.ok_bind]
        exact writeEdges_ub es (i + 2) _ (by simp; omega) (by simp; omega)
      · unfold vset
        rw [if_neg (by simpa using c')]
        rfl
    · unfold vset
      rw [if_neg c]
      rfl

theorem writeEdges_nodes : ∀ (es : List Edge) (i : Nat) (o o' : Arrays), writeEdges es i o = .ok o' → o'.nodeX = o.nodeX ∧ o'.nodeY = o.nodeY
  | [], i, o, o', h => by
    rw [writeEdges] at h
    cases h
    exact ⟨rfl, rfl⟩
  | e :: es, i, o, o', h => by
    rw [writeEdges] at h
    obtain ⟨a, -, h⟩ := Res.bind_eq_ok.1 h
    obtain ⟨b, -, h⟩ := Res.bind_eq_ok.1 h
    have := writeEdges_nodes es _ _ _ h
    exact this

/-! ## Compaction gives a tidy mesh -/

theorem filter_index {α : Type} {p : α → Bool} : ∀ {l : List α} {i : Nat}, i < (l.filter p).length →
    ∃ j : Nat, ∃ v : α, l[j]? = some v ∧ p v = true ∧ (l.take j).countP p = i
  | [], i, h => by simp at h
  | a :: l, i, h => by
    by_cases c : p a = true
    · cases i with
      | zero => exact ⟨0, a, rfl, c, rfl⟩
      | succ i =>
        rw [List.filter_cons_of_pos c, List.length_cons] at h
        obtain ⟨j, v, h1, h2, h3⟩ := filter_index (p := p) (l := l) (i := i) (by omega)
        refine ⟨j + 1, v, by simpa using h1, h2, ?_⟩
        rw [List.take_succ_cons, List.countP_cons_of_pos c, h3]
    · rw [List.filter_cons_of_neg c] at h
      obtain ⟨j, v, h1, h2, h3⟩ := filter_index h
      refine ⟨j + 1, v, by simpa using h1, h2, ?_⟩
      rw [List.take_succ_cons, List.countP_cons_of_neg c, h3]

end Verif.Exchange
