import Verif.Exchange.Lemmas
import Verif.Cache.Props
/-!
# C83, C84: what is stored is what is read back
-/
namespace Verif.Exchange
open Verif.Mesh Verif.Polygons
open Verif.EdgePick (toUInt)

/-! ## Reading a 1D mesh -/

theorem getData_held {m : Mesh Pt} {ps : List Pt} {es : List (Int × Int)} (h : Held m ps es) (t : Tidy ps es) {o : Arrays}
    (r : Room o ps.length es.length) : getData m o = .ok {
      edgeNodes := es.flatMap (fun e => [e.1, e.2]) ++ o.edgeNodes.drop (2 * es.length)
      nodeX := ps.map (·.x) ++ o.nodeX.drop ps.length
      nodeY := ps.map (·.y) ++ o.nodeY.drop ps.length
      numNodes := ps.length
      numValidNodes := ps.length
      numEdges := es.length
      numValidEdges := es.length } := by
  unfold getData
  rw [h.1, writeNodes_ok ps 0 o (by rw [Nat.zero_add]; exact r.1) (by rw [Nat.zero_add]; exact r.2.1), Res.ok_bind, h.2,
    writeEdges_ok t.fits es 0 _ t.ends (by simp only [Nat.zero_add]; exact r.2.2), Res.ok_bind]
  have c1 : m.nodes.countP (·.isSome) = ps.length := by
    rw [h.1, List.countP_map]
    exact List.countP_eq_length.2 (fun _ _ => rfl)
  have c2 : m.edges.countP (validEdge m.nodes) = es.length := by
    rw [List.countP_eq_length.2 (fun e he => (held_valid h t he).1), h.2, List.length_map]
  have l1 : m.nodes.length = ps.length := by rw [h.1, List.length_map]
  have l2 : m.edges.length = es.length := by rw [h.2, List.length_map]
  unfold dimensions
  simp only [c1, c2, l1, l2, List.take_zero, List.nil_append, Nat.zero_add]

theorem flat_length : ∀ es : List (Int × Int), (es.flatMap (fun e => [e.1, e.2])).length = 2 * es.length
  | [] => rfl
  | e :: es => by
    rw [List.flatMap_cons, List.length_append, flat_length es, List.length_cons]
    simp only [List.length_cons, List.length_nil]
    omega

/-- Reading a tidy mesh: the arrays hold its points and edges, all counts are right, nothing behind them is touched. -/
theorem read_held {m : Mesh Pt} {ps : List Pt} {es : List (Int × Int)} (h : Held m ps es) (t : Tidy ps es) {o : Arrays}
    (r : Room o ps.length es.length) : ∃ o', getData m o = .ok o' ∧ Holds o' ps es ∧ o'.numValidNodes = ps.length ∧ o'.numValidEdges = es.length ∧
      o'.nodeX.drop ps.length = o.nodeX.drop ps.length ∧ o'.nodeY.drop ps.length = o.nodeY.drop ps.length ∧
      o'.edgeNodes.drop (2 * es.length) = o.edgeNodes.drop (2 * es.length) := by
  have hl := flat_length es
  refine ⟨_, getData_held h t r, ⟨rfl, rfl, ?_, ?_, ?_⟩, rfl, rfl, ?_, ?_, ?_⟩
  · exact List.take_left' (by simp)
  · exact List.take_left' (by simp)
  · exact List.take_left' hl
  · exact List.drop_left' (by simp)
  · exact List.drop_left' (by simp)
  · exact List.drop_left' hl

/-- **C83.** A 1D mesh of valid points that are all ends of edges is accepted; the counts announced are its own, and reading it into
arrays with room for it gives precisely its points and edges, in order. -/
theorem set_get {a : Arrays} {ps : List Pt} {es : List (Int × Int)} (h : Holds a ps es) (t : Tidy ps es) :
    ∃ m, mesh1dSet a = .ok m ∧ (∀ o, (dimensions m o).numNodes = ps.length ∧ (dimensions m o).numEdges = es.length) ∧
      ∀ o, Room o ps.length es.length → ∃ o', getData m o = .ok o' ∧ Holds o' ps es := by
  obtain ⟨m, h1, h2⟩ := build_tidy h t
  refine ⟨m, h1, fun o => ⟨?_, ?_⟩, fun o r => ?_⟩
  · show ((m.nodes.length : Nat) : Int) = _
    rw [h2.1, List.length_map]
  · show ((m.edges.length : Nat) : Int) = _
    rw [h2.2, List.length_map]
  · obtain ⟨o', e1, e2, -⟩ := read_held h2 t r
    exact ⟨o', e1, e2⟩

/-- **C83.** Arrays that are smaller than announced are written behind their end. -/
theorem get_needs_room (m : Mesh Pt) (o : Arrays) (h : ¬ Room o m.nodes.length m.edges.length) : getData m o = .ub := by
  unfold getData
  by_cases c : o.nodeX.length < m.nodes.length ∨ o.nodeY.length < m.nodes.length
  · rw [writeNodes_ub m.nodes 0 o (by omega) (by omega) (by omega)]
    rfl
  · have hw : ∀ (ns : List (Option Pt)) (i : Nat) (o : Arrays), i + ns.length ≤ o.nodeX.length → i + ns.length ≤ o.nodeY.length →
        ∃ o', writeNodes ns i o = .ok o' ∧ o'.edgeNodes = o.edgeNodes := by
      intro ns
      induction ns with
      | nil => exact fun i o _ _ => ⟨o, rfl, rfl⟩
      | cons v ns ih =>
        intro i o h1 h2
        rw [List.length_cons] at h1 h2
        obtain ⟨o', e1, e2⟩ := ih (i + 1) { o with nodeX := o.nodeX.set i (ofNode v).x, nodeY := o.nodeY.set i (ofNode v).y }
          (by simp; omega) (by simp; omega)
        refine ⟨o', ?_, e2⟩
        rw [writeNodes, vset_ok _ (by omega), Res.ok_bind, vset_ok _ (by omega), Res.ok_bind]
        exact e1
    obtain ⟨o', e1, e2⟩ := hw m.nodes 0 o (by omega) (by omega)
    have c' : ¬ 2 * m.edges.length ≤ o.edgeNodes.length := fun k => h ⟨by omega, by omega, k⟩
    rw [e1, Res.ok_bind, writeEdges_ub m.edges 0 o' (by rw [e2]; omega) (by omega)]
    rfl

/-! ## Arbitrary input -/

theorem toUInt_range {i : Int} {n : Nat} (hn : n < 2147483648) (h : i = -1 ∨ (0 ≤ i ∧ i < (n : Int))) :
    toUInt i = missing ∨ (toUInt i < n ∧ toUInt i = i.toNat) := by
  have hm : missing = 4294967295 := rfl
  unfold toUInt
  omega

theorem pointAt_eq {ps : List Pt} {i : Int} (hn : ps.length < 2147483648) (h : i = -1 ∨ (0 ≤ i ∧ i < (ps.length : Int))) :
    ((ps.map (fun p => toNode p.x p.y))[toUInt i]?).join = pointAt ps i := by
  have hm : missing = 4294967295 := rfl
  unfold pointAt
  rcases h with rfl | ⟨h0, h1⟩
  · rw [if_neg (by decide), List.getElem?_eq_none (by rw [List.length_map]; show ps.length ≤ missing; omega)]
    rfl
  · rw [toUInt_of h0 h1 hn, if_pos h0, List.getElem?_map, List.getElem?_eq_getElem (by omega)]
    simp only [Option.map_some, Option.join_some, Option.bind_some]
    unfold toNode
    rfl

theorem seg_eq {ps : List Pt} {e : Int × Int} (hn : ps.length < 2147483648)
    (h : (e.1 = -1 ∨ (0 ≤ e.1 ∧ e.1 < (ps.length : Int))) ∧ (e.2 = -1 ∨ (0 ≤ e.2 ∧ e.2 < (ps.length : Int)))) :
    seg (ps.map (fun p => toNode p.x p.y)) (toUInt e.1, toUInt e.2) = endsOf ps e := by
  unfold seg endsOf
  simp only
  rw [pointAt_eq hn h.1, pointAt_eq hn h.2]
  cases pointAt ps e.1 <;> cases pointAt ps e.2 <;> rfl

theorem filterMap_congr' {α β : Type} {f g : α → Option β} : ∀ {l : List α}, (∀ a ∈ l, f a = g a) → l.filterMap f = l.filterMap g
  | [], _ => rfl
  | a :: l, h => by
    rw [List.filterMap_cons, List.filterMap_cons, h a List.mem_cons_self, filterMap_congr' (fun b hb => h b (List.mem_cons_of_mem _ hb))]

theorem some_list {α : Type} : ∀ {l : List (Option α)}, (∀ v ∈ l, v.isSome) → ∃ k : List α, l = k.map some
  | [], _ => ⟨[], rfl⟩
  | v :: l, h => by
    obtain ⟨k, hk⟩ := some_list (l := l) (fun w hw => h w (List.mem_cons_of_mem _ hw))
    obtain ⟨a, ha⟩ := Option.isSome_iff_exists.1 (h v List.mem_cons_self)
    exact ⟨a :: k, by rw [ha, hk]; rfl⟩

theorem seg_some {ns : List (Option Pt)} {e : Edge} (h : (seg ns e).isSome) : e.1 < ns.length ∧ e.2 < ns.length := by
  unfold seg at h
  constructor
  · by_contra c
    rw [List.getElem?_eq_none (by omega)] at h
    simp at h
  · by_contra c
    rw [List.getElem?_eq_none (l := ns) (i := e.2) (by omega)] at h
    cases h' : (ns[e.1]?).join <;> simp [h'] at h

/-- The points of a compacted mesh are valid points, each the end of an edge. -/
theorem compacted_tidy {ns : List (Option Pt)} {es : List Edge} (hn : ns.length < 2147483648) (hv : ∀ p, some p ∈ ns → p.isValid = true) {m : Mesh Pt}
    (h : deleteInvalid ⟨ns, es, [], []⟩ = .ok m) : ∃ qs fs, Held m qs fs ∧ Tidy qs fs ∧ (qs.map some).Sublist ns := by
  have hm : missing = 4294967295 := rfl
  have hfit : ns.length ≤ missing := by omega
  have hc := deleteInvalid_eq (m := ⟨ns, es, [], []⟩) hfit h
  have hsome : ∀ v ∈ m.nodes, v.isSome := by
    rw [hc]
    intro v hv
    exact (List.mem_filter.1 hv).2
  obtain ⟨qs, hq⟩ := some_list hsome
  have hE := compacted_edges (m := ⟨ns, es, [], []⟩) hfit
  have hlen : qs.length ≤ ns.length := by
    have h1 : m.nodes.length = qs.length := by rw [hq, List.length_map]
    have h2 : m.nodes.length ≤ ns.length := by
      rw [hc]
      refine (List.length_filter_le _ _).trans ?_
      rw [connectedNodes_length]
    omega
  have hsub : ∀ q ∈ qs, some q ∈ ns := by
    intro q hq'
    have : some q ∈ m.nodes := by rw [hq]; exact List.mem_map.2 ⟨q, hq', rfl⟩
    rw [hc] at this
    have := (List.mem_filter.1 this).1
    unfold connectedNodes at this
    obtain ⟨i, hi, e⟩ := List.mem_mapIdx.1 this
    split at e
    · rw [← e]
      exact List.getElem_mem _
    · cases e
  have hvalid : ∀ e ∈ m.edges, (seg m.nodes e).isSome := by
    rw [hc, hE]
    intro e he
    obtain ⟨f, hf, rfl⟩ := List.mem_map.1 he
    obtain ⟨f1, f2⟩ := List.mem_filter.1 hf
    rw [seg_compacted hfit f1 f2]
    exact f2
  refine ⟨qs, m.edges.map (fun e => ((e.1 : Int), (e.2 : Int))), ⟨hq, ?_⟩, ⟨by omega, fun p hp => hv p (hsub p hp), ?_, ?_⟩, ?_⟩
  · rw [List.map_map]
    have : ((fun e : Int × Int => (e.1.toNat, e.2.toNat)) ∘ fun e : Edge => ((e.1 : Int), (e.2 : Int))) = id := by
      funext e
      simp
    rw [this, List.map_id]
  · intro e he
    obtain ⟨f, hf, rfl⟩ := List.mem_map.1 he
    have hlt := seg_some (hvalid f hf)
    rw [hq, List.length_map] at hlt
    simp only
    omega
  · intro i hi
    have hi' : i < ((connectedNodes ⟨ns, es, [], []⟩).filter (·.isSome)).length := by
      have : m.nodes.length = qs.length := by rw [hq, List.length_map]
      rw [hc] at this
      show i < (compacted (⟨ns, es, [], []⟩ : Mesh Pt)).nodes.length
      omega
    obtain ⟨j, v, j1, j2, j3⟩ := filter_index hi'
    unfold connectedNodes at j1
    rw [List.getElem?_mapIdx] at j1
    obtain ⟨w, w1, w2⟩ := Option.map_eq_some_iff.1 j1
    have hcon : connected (⟨ns, es, [], []⟩ : Mesh Pt) j = true := by
      by_contra c
      rw [if_neg c] at w2
      rw [← w2] at j2
      simp at j2
    unfold connected at hcon
    rw [List.any_eq_true] at hcon
    obtain ⟨e, e1, e2⟩ := hcon
    simp only [Bool.and_eq_true, Bool.or_eq_true, beq_iff_eq] at e2
    have hs : (seg ns e).isSome = true := by
      rw [← validEdge_iff_seg hfit]
      exact e2.1
    refine ⟨((newIndex (connectedNodes ⟨ns, es, [], []⟩) e.1 : Nat), (newIndex (connectedNodes ⟨ns, es, [], []⟩) e.2 : Nat)), ?_, ?_⟩
    · rw [hc, hE, List.map_map]
      exact List.mem_map.2 ⟨e, List.mem_filter.2 ⟨e1, hs⟩, rfl⟩
    · simp only
      rcases e2.2 with k | k
      · left
        rw [k]
        exact congrArg Nat.cast j3
      · right
        rw [k]
        exact congrArg Nat.cast j3
  · rw [← hq, hc]
    show ((connectedNodes (⟨ns, es, [], []⟩ : Mesh Pt)).filter (·.isSome)).Sublist ns
    have : ∀ (l : List (Option Pt)) (f : Nat → Option Pt → Option Pt), (∀ i v, f i v = v ∨ f i v = none) →
        ((l.mapIdx f).filter (·.isSome)).Sublist l := by
      intro l
      induction l with
      | nil => intro f _; exact List.Sublist.refl _
      | cons v l ih =>
        intro f hf
        rw [List.mapIdx_cons]
        rcases hf 0 v with k | k
        · rw [k]
          rw [List.filter_cons]
          split
          · exact (ih _ (fun i v => hf (i + 1) v)).cons_cons v
          · exact (ih _ (fun i v => hf (i + 1) v)).cons v
        · rw [k, List.filter_cons_of_neg (by simp)]
          exact (ih _ (fun i v => hf (i + 1) v)).cons v
    refine this ns _ (fun i v => ?_)
    split
    · exact .inl rfl
    · exact .inr rfl

/-- **C83, partial.** Whatever valid and invalid points and edges are set, with indices of points or minus one: what is read back
has the same drawing, its points are some of the given ones in their order, and it is tidy, so that setting it again gives the
same once more. -/
theorem set_get_draws_partial {a : Arrays} {ps : List Pt} {es : List (Int × Int)} (h : Holds a ps es) (hn : ps.length < 2147483648)
    (he : ∀ e ∈ es, (e.1 = -1 ∨ (0 ≤ e.1 ∧ e.1 < (ps.length : Int))) ∧ (e.2 = -1 ∨ (0 ≤ e.2 ∧ e.2 < (ps.length : Int)))) :
    ∃ m qs fs, mesh1dSet a = .ok m ∧ drawing qs fs = drawing ps es ∧ qs.Sublist ps ∧ Tidy qs fs ∧
      ∀ o, Room o qs.length fs.length → ∃ o', getData m o = .ok o' ∧ Holds o' qs fs := by
  have hm : missing = 4294967295 := rfl
  have hl : (ps.map (fun p => toNode p.x p.y)).length = ps.length := List.length_map _
  have hok := compaction_keeps_drawing (⟨ps.map (fun p => toNode p.x p.y), es.map (fun e => (toUInt e.1, toUInt e.2)), [], []⟩ : Mesh Pt)
    (by rw [hl]; omega) (by
      intro e he'
      obtain ⟨f, hf, rfl⟩ := List.mem_map.1 he'
      have h1 := toUInt_range hn (he f hf).1
      have h2 := toUInt_range hn (he f hf).2
      simp only [hl]
      omega)
  obtain ⟨m, h1, h2, -⟩ := hok
  have hnode : ∀ p, some p ∈ ps.map (fun p => toNode p.x p.y) → p ∈ ps ∧ p.isValid = true := by
    intro p hp
    obtain ⟨q, q1, q2⟩ := List.mem_map.1 hp
    unfold toNode at q2
    split at q2
    · rename_i c
      cases q2
      exact ⟨q1, c⟩
    · cases q2
  obtain ⟨qs, fs, k1, k2, k3⟩ := compacted_tidy (by rw [hl]; exact hn) (fun p hp => (hnode p hp).2) h1
  refine ⟨m, qs, fs, (build_eq h).trans h1, ?_, ?_, k2, fun o r => ?_⟩
  · have d1 : segments (⟨ps.map (fun p => toNode p.x p.y), es.map (fun e => (toUInt e.1, toUInt e.2)), [], []⟩ : Mesh Pt) = drawing ps es := by
      unfold segments drawing
      simp only
      rw [List.filterMap_map]
      exact filterMap_congr' fun e h' => seg_eq hn (he e h')
    have d2 : segments m = drawing qs fs := by
      unfold segments drawing
      rw [k1.1, k1.2, List.filterMap_map]
      refine filterMap_congr' fun e h' => ?_
      obtain ⟨⟨a1, a2⟩, b1, b2⟩ := k2.ends e h'
      rw [← seg_eq k2.fits ⟨.inr ⟨a1, a2⟩, .inr ⟨b1, b2⟩⟩, toUInt_of a1 a2 k2.fits, toUInt_of b1 b2 k2.fits]
      rw [List.map_congr_left (g := some) fun p hp => toNode_valid (k2.valid p hp)]
      rfl
    rw [← d2, h2, d1]
  · have hs : ∀ (l : List Pt) (k : List Pt), (k.map some).Sublist (l.map (fun p => toNode p.x p.y)) → k.Sublist l := by
      intro l k hk
      have := hk.filterMap id
      rw [List.filterMap_map, List.filterMap_map] at this
      have e1 : List.filterMap (id ∘ (some : Pt → Option Pt)) k = k := by
        show List.filterMap some k = k
        exact List.filterMap_some
      rw [e1] at this
      refine this.trans ?_
      clear this hk
      induction l with
      | nil => exact List.Sublist.refl _
      | cons p l ih =>
        rw [List.filterMap_cons]
        simp only [Function.comp, id, toNode]
        by_cases c : p.isValid
        · rw [if_pos (by exact c)]
          exact ih.cons_cons p
        · rw [if_neg (by exact c)]
          exact ih.cons p
    exact hs ps qs k3
  · obtain ⟨o', e1, e2, -⟩ := read_held k1 k2 r
    exact ⟨o', e1, e2⟩

/-! ## Adding -/

theorem tidy_append {ps qs : List Pt} {es fs : List (Int × Int)} (t : Tidy ps es) (u : Tidy qs fs) (hn : ps.length + qs.length < 2147483648) :
    Tidy (append (ps, es) (qs, fs)).1 (append (ps, es) (qs, fs)).2 := by
  unfold append
  simp only
  refine ⟨by rw [List.length_append]; exact hn, ?_, ?_, ?_⟩
  · intro p hp
    rcases List.mem_append.1 hp with h | h
    · exact t.valid p h
    · exact u.valid p h
  · intro e he
    rw [List.length_append]
    rcases List.mem_append.1 he with h | h
    · have := t.ends e h
      omega
    · obtain ⟨f, hf, rfl⟩ := List.mem_map.1 h
      have := u.ends f hf
      simp only
      omega
  · intro i hi
    rw [List.length_append] at hi
    by_cases c : i < ps.length
    · obtain ⟨e, e1, e2⟩ := t.used i c
      exact ⟨e, List.mem_append_left _ e1, e2⟩
    · obtain ⟨e, e1, e2⟩ := u.used (i - ps.length) (by omega)
      refine ⟨_, List.mem_append_right _ (List.mem_map.2 ⟨e, e1, rfl⟩), ?_⟩
      simp only
      omega

theorem joinRaw_held {m b : Mesh Pt} {ps qs : List Pt} {es fs : List (Int × Int)} (h : Held m ps es) (k : Held b qs fs) (u : Tidy qs fs)
    (hn : ps.length + qs.length < 2147483648) (hne : ¬ (b.nodes.length = 0 ∨ b.edges.length = 0)) :
    Held (joinRaw m b) (append (ps, es) (qs, fs)).1 (append (ps, es) (qs, fs)).2 := by
  unfold joinRaw
  rw [if_neg hne]
  unfold append Held
  simp only
  refine ⟨by rw [h.1, k.1, List.map_append], ?_⟩
  rw [h.2, k.2, List.map_append, List.map_map, List.map_map]
  congr 1
  refine List.map_congr_left fun e he => ?_
  have := u.ends e he
  have l : m.nodes.length = ps.length := by rw [h.1, List.length_map]
  simp only [Function.comp]
  rw [l]
  refine Prod.ext ?_ ?_
  · simp only
    omega
  · simp only
    omega

theorem add_held (order : Nat → List Nat → List Nat) {m : Mesh Pt} {ps qs : List Pt} {es fs : List (Int × Int)} (h : Held m ps es) (t : Tidy ps es)
    {a : Arrays} (ha : Holds a qs fs) (u : Tidy qs fs) (hn : ps.length + qs.length < 2147483648) :
    ∃ r, mesh1dAdd order m a = .ok ((m.nodes, m.edges), r) ∧ Held r (append (ps, es) (qs, fs)).1 (append (ps, es) (qs, fs)).2 := by
  obtain ⟨b, h1, h2⟩ := build_tidy ha u
  unfold mesh1dAdd
  rw [h1, Res.ok_bind]
  by_cases c : b.nodes.length = 0 ∨ b.edges.length = 0
  · rw [if_pos c]
    refine ⟨m, rfl, ?_⟩
    rw [h2.1, h2.2, List.length_map, List.length_map, List.length_eq_zero_iff, List.length_eq_zero_iff] at c
    have hq : qs = [] := by
      rcases c with c | c
      · exact c
      · by_contra hq
        obtain ⟨e, he, -⟩ := u.used 0 (List.length_pos_iff.2 hq)
        rw [c] at he
        cases he
    have hf : fs = [] := by
      by_contra hf
      obtain ⟨e, he⟩ := List.exists_mem_of_ne_nil _ hf
      have := u.ends e he
      rw [hq, List.length_nil] at this
      omega
    rw [hq, hf]
    unfold append
    simpa using h
  · rw [if_neg c]
    obtain ⟨r, r1, r2⟩ := administrate_held (joinRaw_held h h2 u hn c) (tidy_append t u hn) order
    rw [r1]
    exact ⟨r, rfl, r2⟩

/-- The points and edges of several 1D meshes one behind the other. -/
def together (s : List Pt × List (Int × Int)) (bs : List (List Pt × List (Int × Int))) : List Pt × List (Int × Int) := bs.foldl append s

/-- **C83.** Setting a 1D mesh and adding any number of others: what is read back are the points of all of them, one mesh behind the
other, and their edges in the same order, with the indices shifted by the number of points before. -/
theorem add_get (order : Nat → List Nat → List Nat) : ∀ (as : List Arrays) (bs : List (List Pt × List (Int × Int))) (m : Mesh Pt)
    (s : List Pt × List (Int × Int)), Held m s.1 s.2 → Tidy s.1 s.2 → List.Forall₂ (fun a b => Holds a b.1 b.2) as bs → (∀ b ∈ bs, Tidy b.1 b.2) →
    (together s bs).1.length < 2147483648 →
    ∃ r, mesh1dAddAll order m as = .ok r ∧ Tidy (together s bs).1 (together s bs).2 ∧
      ∀ o, Room o (together s bs).1.length (together s bs).2.length → ∃ o', getData r o = .ok o' ∧ Holds o' (together s bs).1 (together s bs).2
  | [], _, m, s, h, t, .nil, _, hn => by
    refine ⟨m, rfl, t, fun o r => ?_⟩
    obtain ⟨o', e1, e2, -⟩ := read_held h t r
    exact ⟨o', e1, e2⟩
  | a :: as, _, m, s, h, t, .cons (b := b) (l₂ := bs) ha has, hb, hn => by
    have hmono : ∀ (l : List (List Pt × List (Int × Int))) (s : List Pt × List (Int × Int)), s.1.length ≤ (together s l).1.length := by
      intro l
      induction l with
      | nil => intro s; exact le_refl _
      | cons c l ih =>
        intro s
        refine le_trans ?_ (ih (append s c))
        unfold append
        rw [List.length_append]
        omega
    have hl : s.1.length + b.1.length < 2147483648 := by
      have := hmono bs (append s b)
      have e : (append s b).1.length = s.1.length + b.1.length := List.length_append
      have e' : together s (b :: bs) = together (append s b) bs := rfl
      rw [e'] at hn
      omega
    obtain ⟨r, r1, r2⟩ := add_held order h t ha (hb b List.mem_cons_self) hl
    have ih := add_get order as bs r (append s b) r2 (tidy_append t (hb b List.mem_cons_self) hl) has
      (fun c hc => hb c (List.mem_cons_of_mem _ hc)) hn
    obtain ⟨v, v1, v2⟩ := ih
    refine ⟨v, ?_, v2⟩
    rw [mesh1dAddAll, r1, Res.ok_bind]
    exact v1

/-- **C83.** Undo of an addition gives the nodes and edges back, redo the sum. -/
theorem add_undo (order : Nat → List Nat → List Nat) {m : Mesh Pt} {ps qs : List Pt} {es fs : List (Int × Int)} (h : Held m ps es) (t : Tidy ps es)
    {a : Arrays} (ha : Holds a qs fs) (u : Tidy qs fs) (hn : ps.length + qs.length < 2147483648) :
    ∃ saved r, mesh1dAdd order m a = .ok (saved, r) ∧ ∃ saved' v, fullSwap order saved r = .ok (saved', v) ∧ v.nodes = m.nodes ∧ v.edges = m.edges ∧
      ∃ w, fullSwap order saved' v = .ok ((m.nodes, m.edges), w) ∧ w.nodes = r.nodes ∧ w.edges = r.edges := by
  obtain ⟨r, r1, r2⟩ := add_held order h t ha u hn
  have hm' : Held { r with nodes := m.nodes, edges := m.edges } ps es := h
  obtain ⟨v, v1, v2⟩ := administrate_held hm' t order
  refine ⟨_, r, r1, (r.nodes, r.edges), v, ?_, v2.1.trans h.1.symm, v2.2.trans h.2.symm, ?_⟩
  · unfold fullSwap
    simp only
    rw [v1]
  · have hr' : Held { v with nodes := r.nodes, edges := r.edges } (append (ps, es) (qs, fs)).1 (append (ps, es) (qs, fs)).2 := r2
    obtain ⟨w, w1, w2⟩ := administrate_held hr' (tidy_append t u hn) order
    refine ⟨w, ?_, w2.1.trans r2.1.symm, w2.2.trans r2.2.symm⟩
    unfold fullSwap
    simp only
    rw [w1]
    simp only [v2.1, v2.2, h.1, h.2]

/-! ## Where it fails -/

/-- **C83, negation.** A point that is not the end of an edge is left out, and the indices of the points behind it change. -/
theorem single_points_left_out : ∃ m, mesh1dSet ⟨[1, 2], [0, 1, 2], [0, 0, 0], 3, 0, 1, 0⟩ = .ok m ∧
    getData m ⟨[7, 7], [7, 7, 7], [7, 7, 7], 0, 0, 0, 0⟩ = .ok ⟨[0, 1], [1, 2, 7], [0, 0, 7], 2, 2, 1, 1⟩ :=
  ⟨⟨[some ⟨1, 0⟩, some ⟨2, 0⟩], [(0, 1)], [], []⟩, by decide +kernel, by decide +kernel⟩

/-- **C83, negation.** An index that is not one of a point is not refused: the points are read behind their end. -/
theorem index_not_refused : mesh1dSet ⟨[0, 2], [0, 1], [0, 0], 2, 0, 1, 0⟩ = .ub := by decide +kernel

/-- Two points and an edge. -/
def pair (x : ℚ) : Arrays := ⟨[0, 1], [x, x + 1], [0, 0], 2, 2, 1, 1⟩

theorem pair_holds (x : ℚ) : Holds (pair x) [⟨x, 0⟩, ⟨x + 1, 0⟩] [(0, 1)] := ⟨rfl, rfl, rfl, rfl, rfl⟩

theorem pair_tidy : Tidy [⟨0, 0⟩, ⟨1, 0⟩] [(0, 1)] :=
  ⟨by decide, by decide +kernel, by decide, fun i hi => ⟨(0, 1), List.mem_singleton.2 rfl, by simp at hi; omega⟩⟩

theorem pair_tidy' : Tidy [⟨5, 0⟩, ⟨5 + 1, 0⟩] [(0, 1)] :=
  ⟨by decide, by decide +kernel, by decide, fun i hi => ⟨(0, 1), List.mem_singleton.2 rfl, by simp at hi; omega⟩⟩

example : ∃ m, mesh1dSet (pair 0) = .ok m :=
  (set_get (a := ⟨[0, 1], [0, 1], [0, 0], 2, 2, 1, 1⟩) ⟨rfl, rfl, rfl, rfl, rfl⟩ pair_tidy).imp fun m h => by
    have e : pair 0 = ⟨[0, 1], [0, 1], [0, 0], 2, 2, 1, 1⟩ := by decide +kernel
    rw [e]
    exact h.1

example (order : Nat → List Nat → List Nat) : ∃ r, mesh1dAddAll order ⟨[some ⟨0, 0⟩, some ⟨1, 0⟩], [(0, 1)], [], []⟩ [pair 5, pair 5] = .ok r :=
  (add_get order [pair 5, pair 5] [([⟨5, 0⟩, ⟨5 + 1, 0⟩], [(0, 1)]), ([⟨5, 0⟩, ⟨5 + 1, 0⟩], [(0, 1)])] ⟨[some ⟨0, 0⟩, some ⟨1, 0⟩], [(0, 1)], [], []⟩
    ([⟨0, 0⟩, ⟨1, 0⟩], [(0, 1)]) ⟨rfl, rfl⟩ pair_tidy (.cons (pair_holds 5) (.cons (pair_holds 5) .nil))
    (fun b hb => by simp only [List.mem_cons, List.not_mem_nil, or_false, or_self] at hb; rw [hb]; exact pair_tidy')
    (by decide)).imp fun _ h => h.1

/-- **C15, C82, negation.** Undo of an addition does not mark the search trees: after adding a mesh, asking for an edge and undo, the
edge found at a point is one of the added mesh, and deleting it reads behind the end of the list of edges. -/
theorem undo_of_add_keeps_tree : ∃ (m b : Mesh (ℚ × ℚ)) (s1 s2 s3 : Cache.Cached (ℚ × ℚ) (Option (ℚ × ℚ))),
    addCached (Cache.plane fun _ => []) (Cache.fresh m none) b = .ok s1 ∧
    Cache.buildTree (Cache.plane fun _ => []) s1 .edges none = .ok s2 ∧
    undoAddCached (Cache.plane fun _ => []) (m.nodes, m.edges) s2 = .ok s3 ∧ s3.mesh.edges = m.edges ∧ s3.mesh.nodes = m.nodes ∧
    EdgePick.deleteEdgeAt (Cache.plane fun _ => []) s3 (105, 0) none = .ub := by
  refine ⟨⟨[some (0, 0), some (10, 0)], [(0, 1)], [], []⟩, ⟨[some (100, 0), some (110, 0)], [(0, 1)], [], []⟩,
    ⟨⟨[some (0, 0), some (10, 0), some (100, 0), some (110, 0)], [(0, 1), (2, 3)], [[0], [0], [1], [1]], [1, 1, 1, 1]⟩, true, true, true, [], [], [], none⟩,
    ⟨⟨[some (0, 0), some (10, 0), some (100, 0), some (110, 0)], [(0, 1), (2, 3)], [[0], [0], [1], [1]], [1, 1, 1, 1]⟩, true, false, true, [], [((5, 0), 0), ((105, 0), 1)], [], none⟩,
    ⟨⟨[some (0, 0), some (10, 0)], [(0, 1)], [[0], [0]], [1, 1]⟩, true, false, true, [], [((5, 0), 0), ((105, 0), 1)], [], none⟩,
    by decide +kernel, by decide +kernel, by decide +kernel, rfl, rfl, ?_⟩
  have h : Cache.findLocationIndex (Cache.plane fun _ => []) ⟨⟨[some (0, 0), some (10, 0)], [(0, 1)], [[0], [0]], [1, 1]⟩, true, false, true, [],
      [((5, 0), 0), ((105, 0), 1)], [], none⟩ (105, 0) .edges [] none
      = .ok (1, ⟨⟨[some (0, 0), some (10, 0)], [(0, 1)], [[0], [0]], [1, 1]⟩, true, false, true, [], [((5, 0), 0), ((105, 0), 1)], [], none⟩) := by decide +kernel
  unfold EdgePick.deleteEdgeAt
  rw [h, Res.ok_bind]
  rfl

/-! ## C84: contacts -/

/-- The arrays hold these contacts at their start, and the count says so. -/
structure HoldsLinks (o : LinkArrays) (ls : List (Int × Int)) : Prop where
  num : o.num = ls.length
  one : o.one.take ls.length = ls.map (·.1)
  two : o.two.take ls.length = ls.map (·.2)

/-- An `int`. -/
def IsInt (i : Int) : Prop := -2147483648 ≤ i ∧ i < 2147483648

theorem toInt_toUInt {i : Int} (h : IsInt i) : toInt (toUInt i) = i := by
  unfold IsInt at h
  unfold toInt toUInt
  split <;> omega

theorem readLinks_ok {a b : List Int} : ∀ (ls : List (Int × Int)) (i : Nat), (a.drop i).take ls.length = ls.map (·.1) →
    (b.drop i).take ls.length = ls.map (·.2) →
    readLinks a b ls.length i = .ok (ls.map (fun l => toUInt l.1), ls.map (fun l => toUInt l.2))
  | [], _, _, _ => rfl
  | p :: ps, i, h, h' => by
    rw [List.length_cons] at h h'
    have h0 : a[i]? = some p.1 := by
      have := congrArg (fun l => l[0]?) h
      simpa [List.getElem?_take] using this
    have h1 : b[i]? = some p.2 := by
      have := congrArg (fun l => l[0]?) h'
      simpa [List.getElem?_take] using this
    have h2 : (a.drop (i + 1)).take ps.length = ps.map (·.1) := by
      have := congrArg (List.drop 1) h
      rw [List.drop_take, List.drop_drop] at this
      simpa using this
    have h3 : (b.drop (i + 1)).take ps.length = ps.map (·.2) := by
      have := congrArg (List.drop 1) h'
      rw [List.drop_take, List.drop_drop] at this
      simpa using this
    rw [List.length_cons, readLinks, vget_eq_ok.2 h0, Res.ok_bind, vget_eq_ok.2 h1, Res.ok_bind, readLinks_ok ps (i + 1) h2 h3]
    rfl

theorem writeLinks_ok {c : Links} : ∀ (k i : Nat) (o : LinkArrays), i + k ≤ c.one.length → i + k ≤ c.two.length → i + k ≤ o.one.length →
    i + k ≤ o.two.length → writeLinks c k i o = .ok { o with
      one := o.one.take i ++ ((c.one.drop i).take k).map toInt ++ o.one.drop (i + k)
      two := o.two.take i ++ ((c.two.drop i).take k).map toInt ++ o.two.drop (i + k) }
  | 0, i, o, _, _, _, _ => by simp [writeLinks]
  | k + 1, i, o, h1, h2, h3, h4 => by
    rw [writeLinks, vget_ok (by omega), Res.ok_bind, vset_ok _ (by omega), Res.ok_bind, vget_ok (by omega), Res.ok_bind, vset_ok _ (by omega), Res.ok_bind,
      writeLinks_ok k (i + 1) _ (by omega) (by omega) (by simp; omega) (by simp; omega)]
    have key : ∀ (l : List Int) (d : List Nat) (hi : i < l.length) (hd : i < d.length),
        (l.set i (toInt d[i])).take (i + 1) ++ ((d.drop (i + 1)).take k).map toInt ++ (l.set i (toInt d[i])).drop (i + 1 + k) =
        l.take i ++ ((d.drop i).take (k + 1)).map toInt ++ l.drop (i + (k + 1)) := by
      intro l d hi hd
      rw [List.take_add_one, List.take_set_of_le (le_refl i), List.getElem?_set_self hi, List.drop_set_of_lt (by omega),
        show i + 1 + k = i + (k + 1) by omega, List.drop_eq_getElem_cons hd, List.take_succ_cons, List.map_cons]
      simp only [Option.toList_some, List.append_assoc, List.cons_append, List.nil_append]
    simp only
    rw [key o.one c.one (by omega) (by omega), key o.two c.two (by omega) (by omega)]

/-- **C84.** Contacts that were set, at least one of them, are read back precisely: the count is the number of contacts, and the two
arrays hold the same numbers in the same order, whatever they are; nothing behind them is touched. -/
theorem contacts_set_get_partial {o : LinkArrays} {ls : List (Int × Int)} (h : HoldsLinks o ls) (hi : ∀ l ∈ ls, IsInt l.1 ∧ IsInt l.2) (hne : ls ≠ []) :
    ∃ c, contactsSet o = .ok c ∧ (∀ q, (contactsDimensions c q).num = ls.length) ∧
      ∀ q : LinkArrays, q.num = ls.length → ls.length ≤ q.one.length → ls.length ≤ q.two.length →
        ∃ q', contactsData c q = .ok q' ∧ HoldsLinks q' ls ∧ q'.one.drop ls.length = q.one.drop ls.length ∧ q'.two.drop ls.length = q.two.drop ls.length := by
  refine ⟨⟨ls.map (fun l => toUInt l.1), ls.map (fun l => toUInt l.2)⟩, ?_, fun q => ?_, fun q h1 h2 h3 => ?_⟩
  · unfold contactsSet
    have hn : o.num.toNat = ls.length := by rw [h.num]; rfl
    rw [if_neg (by rw [h.num]; omega), hn, readLinks_ok ls 0 (by rw [List.drop_zero]; exact h.one) (by rw [List.drop_zero]; exact h.two), Res.ok_bind]
    unfold setIndices
    rw [if_neg (by simpa using hne), if_neg (by simpa using hne), if_neg (by simp)]
  · show ((ls.map (fun l => toUInt l.2)).length : Int) = _
    rw [List.length_map]
  · unfold contactsData
    have hn : q.num.toNat = ls.length := by rw [h1]; rfl
    rw [hn, writeLinks_ok ls.length 0 q (by simp) (by simp) (by omega) (by omega)]
    have m1 : (ls.map (fun l => toUInt l.1)).map toInt = ls.map (·.1) := by
      rw [List.map_map]
      exact List.map_congr_left fun l hl => toInt_toUInt (hi l hl).1
    have m2 : (ls.map (fun l => toUInt l.2)).map toInt = ls.map (·.2) := by
      rw [List.map_map]
      exact List.map_congr_left fun l hl => toInt_toUInt (hi l hl).2
    have t1 : (ls.map (fun l => toUInt l.1)).take ls.length = ls.map (fun l => toUInt l.1) := List.take_of_length_le (by simp)
    have t2 : (ls.map (fun l => toUInt l.2)).take ls.length = ls.map (fun l => toUInt l.2) := List.take_of_length_le (by simp)
    simp only [List.take_zero, List.nil_append, List.drop_zero, Nat.zero_add, t1, t2, m1, m2]
    refine ⟨_, rfl, ⟨h1, ?_, ?_⟩, ?_, ?_⟩
    · exact List.take_left' (by simp)
    · exact List.take_left' (by simp)
    · exact List.drop_left' (by simp)
    · exact List.drop_left' (by simp)

/-- **C84, negation.** No contacts at all are refused: contacts cannot be removed, and the contacts of a new kernel cannot be set. -/
theorem no_contacts_refused (o : LinkArrays) (h : o.num ≤ 0) : contactsSet o = .throw := by
  unfold contactsSet
  split
  · rfl
  · have : o.num.toNat = 0 := by omega
    rw [this]
    rfl

/-- **C84, negation.** The number of contacts passed for reading is not compared with the number there are: more are read behind the
end of the list. -/
theorem more_contacts_read (c : Links) (o : LinkArrays) (h1 : c.one.length < o.num) (h2 : o.num ≤ o.one.length) (h3 : o.num ≤ o.two.length)
    (h4 : c.two.length = c.one.length) : contactsData c o = .ub := by
  have key : ∀ (k i : Nat) (q : LinkArrays), c.one.length < i + k → i ≤ c.one.length → i + k ≤ q.one.length → i + k ≤ q.two.length → writeLinks c k i q = .ub := by
    intro k
    induction k with
    | zero => intro i q a b; omega
    | succ k ih =>
      intro i q a b d e
      rw [writeLinks]
      by_cases hi : i < c.one.length
      · rw [vget_ok hi, Res.ok_bind, vset_ok _ (by omega), Res.ok_bind, vget_ok (by omega), Res.ok_bind, vset_ok _ (by omega), Res.ok_bind]
        exact ih (i + 1) _ (by omega) (by omega) (by simp; omega) (by simp; omega)
      · unfold vget
        rw [List.getElem?_eq_none (by omega)]
        rfl
  unfold contactsData
  exact key _ _ _ (by omega) (by omega) (by omega) (by omega)

example : ∃ c, contactsSet ⟨[3, -5], [4, 6], 2⟩ = .ok c :=
  (contacts_set_get_partial (o := ⟨[3, -5], [4, 6], 2⟩) (ls := [(3, 4), (-5, 6)]) ⟨rfl, rfl, rfl⟩
    (by simp [IsInt]) (by simp)).imp fun _ h => h.1

end Verif.Exchange
