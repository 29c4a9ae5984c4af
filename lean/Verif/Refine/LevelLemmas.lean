import Verif.Refine.MaskLemmas
import Verif.Refine.RunLemmas
/-!
# Lemmas: the masks of a level
-/
namespace Verif.Refine
open Verif.Mesh Verif.Faces Verif.Circular
variable {P : Type}

theorem countToRefine_eq {em : List Int} : ∀ {es : List Nat}, (∀ e ∈ es, e < em.length) →
    countToRefine em es = .ok (es.filter (fun e => em.getD e 0 != 0)).length
  | [], _ => rfl
  | e :: es, h => by
    have he : e < em.length := h e (by simp)
    have ih := countToRefine_eq (em := em) (es := es) fun x hx => h x (by simp [hx])
    simp only [countToRefine, Res.bind_eq_ok]
    refine ⟨em[e], by rw [vget_eq_ok, List.getElem?_eq_getElem he], _, ih, ?_⟩
    have hd : em.getD e 0 = em[e] := by simp [List.getD, List.getElem?_eq_getElem he]
    rw [List.filter_cons, hd]
    by_cases h0 : em[e] = 0
    · simp [h0]
    · simp [h0]

theorem levelMasks_eq {g : Setting P} {level : Nat} {v : Level P} {w : Spread} (h : levelMasks g level v = .ok w) :
    ∃ k fm em, g.marks level v.mesh v.st v.bro v.hang = .ok k ∧ maskFaces level v.node v.st k.1.2 = .ok fm ∧
      edgesRefinementMask v.bro fm k.2 v.st k.1.1 = .ok em ∧ spread v.mesh.edges v.bro v.st 1000 ⟨fm, em, 0, k.2⟩ = .ok w := by
  simp only [levelMasks, Res.bind_eq_ok] at h
  obtain ⟨k, h1, fm, h2, em, h3, h4⟩ := h
  exact ⟨k, fm, em, h1, h2, h3, h4⟩

theorem sizeMarks_eq {short : Option P → Option P → Bool} {level : Nat} {m : Mesh P} {s : State} {bro : List Nat} {hg : Hang}
    {k : (List Int × List Int) × Hang} (h : sizeMarks short level m s bro hg = .ok k) :
    sizeMask (m.edges.map (fun e => short (m.nodes[e.1]?.join) (m.nodes[e.2]?.join))) s m.edges.length = .ok k.1 ∧ k.2 = hg := by
  simp only [sizeMarks, Res.bind_eq_ok] at h
  obtain ⟨r, h1, h2⟩ := h
  simp only [Res.ok.injEq] at h2
  subst h2
  exact ⟨h1, rfl⟩

theorem nextForward_lt {i n : Nat} (h : i < n) : ∃ j, nextForward i n = .ok j ∧ j < n := by
  unfold nextForward
  rw [if_neg (by omega), if_neg (by omega)]
  exact ⟨_, rfl, by split <;> omega⟩

theorem nextBackward_lt {i n : Nat} (h : i < n) : ∃ j, nextBackward i n = .ok j ∧ j < n := by
  unfold nextBackward
  rw [if_neg (by omega), if_neg (by omega)]
  exact ⟨_, rfl, by split <;> omega⟩

theorem noBrother_get {n : Nat} {e k : Nat} (h : (List.replicate n missing)[e]? = some k) : k = missing := by
  rw [List.getElem?_replicate] at h
  split at h
  · exact (Option.some.inj h).symm
  · cases h

theorem wholeAt_of_noBrothers {es : List Nat} {n i : Nat} (hn : n ≤ missing) (hs : ∀ e ∈ es, e < n) (hi : i < es.length) :
    WholeAt (List.replicate n missing) es i := by
  obtain ⟨a, ha, la⟩ := nextBackward_lt hi
  obtain ⟨b, hb, lb⟩ := nextForward_lt hi
  have h1 := hs _ (List.getElem_mem hi)
  have h2 := hs _ (List.getElem_mem la)
  have h3 := hs _ (List.getElem_mem lb)
  exact ⟨es[i], a, b, es[a], es[b], missing, List.getElem?_eq_getElem hi, ha, hb, List.getElem?_eq_getElem la, List.getElem?_eq_getElem lb,
    by rw [List.getElem?_replicate, if_pos h1], by omega, by omega⟩

/-- The face and its sides are marked. -/
theorem selected_marked {g : Setting P} {short : Option P → Option P → Bool} {level : Nat} {v : Level P} {w : Spread}
    (h : levelMasks g level v = .ok w) (hg : g.marks = sizeMarks short) (hfit : v.mesh.edges.length ≤ missing)
    (hbro : v.bro = List.replicate v.mesh.edges.length missing) (hcache : v.hang.edge.countP id = 0) {f : Nat} {es ns : List Nat}
    (hes : v.st.facesEdges[f]? = some es) (hns : v.st.facesNodes[f]? = some ns) (hne : es ≠ []) (hs : ∀ e ∈ es, e < v.mesh.edges.length)
    (hact : Active level v.node ns)
    (hlong : ∀ e ∈ es, short (v.mesh.nodes[(edgeAt v.mesh e).1]?.join) (v.mesh.nodes[(edgeAt v.mesh e).2]?.join) = false) :
    w.face.getD f 0 ≠ 0 ∧ ∀ e ∈ es, w.edge.getD e 0 ≠ 0 := by
  obtain ⟨k, fm, em, h1, h2, h3, h4⟩ := levelMasks_eq h
  rw [hg] at h1
  obtain ⟨h1, hk⟩ := sizeMarks_eq h1
  have inv := sizeMask_inv h1
  have hf : f < v.st.facesEdges.length := (List.getElem?_eq_some_iff.1 hes).1
  have hside : ∀ e ∈ es, LongSide (v.mesh.edges.map (fun e => short (v.mesh.nodes[e.1]?.join) (v.mesh.nodes[e.2]?.join))) v.st f e := by
    intro e he
    refine ⟨⟨es, hes, he⟩, ?_⟩
    have hl := hlong e he
    have hlt := hs e he
    rw [List.getElem?_map, List.getElem?_eq_getElem hlt]
    simp only [Option.map_some, Option.some.injEq]
    have : edgeAt v.mesh e = v.mesh.edges[e] := by simp [edgeAt, List.getElem?_eq_getElem hlt]
    rw [this] at hl
    exact hl
  have hmark : ∀ e ∈ es, k.1.1[e]? = some (-1) ∧ k.1.2[f]? = some 1 := fun e he => inv.edgeC f e hf (hside e he)
  obtain ⟨m1, m2⟩ := maskFaces_ok h2
  have hfm : fm[f]? = some 1 := by
    rw [(m2 f ns hns).1 hact]
    obtain ⟨e, he⟩ := List.exists_mem_of_ne_nil _ hne
    exact (hmark e he).2
  obtain ⟨e1, e2, e3, e4⟩ := edgesRefinementMask_ok (by rw [m1, inv.lenF]) h3
  have hem : ∀ e ∈ es, em[e]? = some 1 := by
    intro e he
    obtain ⟨i, hi, rfl⟩ := List.mem_iff_getElem.1 he
    obtain ⟨s1, s2⟩ := e4 f 1 hfm (by decide) es hes
    rw [hbro, hk, hcache] at s1
    rw [hbro, hk, hcache] at s2
    by_cases h4 : es.length = 4
    · refine s2 h4 rfl (fun j hj => ?_) i _ (List.getElem?_eq_getElem hi) (Or.inl (hmark _ he).1)
      intro a b y z ha hb hy hz
      rw [noBrother_get hz]
      have := hs y (List.mem_of_getElem? hy)
      omega
    · exact s1 (by omega) i _ (List.getElem?_eq_getElem hi) (wholeAt_of_noBrothers hfit hs hi)
  obtain ⟨⟨_, _, g3, g4⟩, _⟩ := spread_ok h4
  constructor
  · obtain ⟨k', hk', h0⟩ := g4 f 1 hfm (by decide)
    rw [List.getD, hk']
    exact h0
  · intro e he
    rw [List.getD, g3 e 1 (hem e he) (by decide)]
    decide

/-! ## Nothing is selected -/

theorem findHangingNodes_none {edges : List Edge} {n : Nat} {s : State} {f : Nat} {hang : Hang}
    (h : findHangingNodes edges (List.replicate n missing) s f = .ok hang) : hang = noHang := by
  simp only [findHangingNodes, Res.bind_eq_ok] at h
  obtain ⟨ns, _, es, _, h⟩ := h
  split at h
  · cases h
  simp only [Res.bind_eq_ok] at h
  obtain ⟨r, hr, h⟩ := h
  simp only [Res.ok.injEq] at h
  subst h
  refine forRange_of_ok (fun _ (u : Nat × Hang) => u.2 = noHang) (Nat.zero_le _) hr rfl ?_
  intro k u u' _ _ hu hu'
  simp only [hangStep, Res.bind_eq_ok] at hu'
  obtain ⟨edge, _, e, _, ee, _, first, _, second, _, common, hc, hu'⟩ := hu'
  have : common = missing := by
    simp only [hangingAt, Res.bind_eq_ok] at hc
    obtain ⟨b, hb, hc⟩ := hc
    rw [vget_eq_ok] at hb
    rw [if_pos (noBrother_get hb)] at hc
    exact (Res.ok.inj hc).symm
  rw [if_pos this, Res.ok.injEq] at hu'
  rw [← hu', hu]

theorem noHang_edge_count : noHang.edge.countP id = 0 := by decide
theorem noHang_node_count : noHang.node.countP id = 0 := by decide

theorem hangingRefined_noHang {em : List Int} {es : List Nat} {b : Bool} (h : hangingRefined em noHang.edge es = .ok b) : b = false := by
  refine forRange_of_ok (fun _ b => b = false) (Nat.zero_le _) h rfl ?_
  intro k u u' _ _ hu hu'
  simp only [Res.bind_eq_ok] at hu'
  obtain ⟨e, _, x, hx, y, _, hu'⟩ := hu'
  have : x = false := by
    rw [vget_eq_ok] at hx
    simp only [noHang, List.getElem?_replicate] at hx
    split at hx
    · exact (Option.some.inj hx).symm
    · cases hx
  rw [← Res.ok.inj hu', hu, this]
  rfl

/-- No face and no edge is marked. -/
def Unmarked (w : Spread) : Prop := (∀ (f : Nat) k, w.face[f]? = some k → k = 0) ∧ (∀ (e : Nat) k, w.edge[e]? = some k → k = 0) ∧ w.num = 0

theorem countToRefine_zero {em : List Int} (hz : ∀ (e : Nat) k, em[e]? = some k → k = 0) : ∀ {es : List Nat} {c : Nat}, countToRefine em es = .ok c → c = 0
  | [], c, h => (Res.ok.inj h).symm
  | e :: es, c, h => by
    simp only [countToRefine, Res.bind_eq_ok] at h
    obtain ⟨k, hk, r, hr, h⟩ := h
    rw [vget_eq_ok] at hk
    rw [hz e k hk] at h
    simp only [ne_eq, not_true_eq_false, if_false, Res.ok.injEq] at h
    rw [← h]
    exact countToRefine_zero hz hr

theorem spreadStep_unmarked {edges : List Edge} {n : Nat} {s : State} {f : Nat} {w w' : Spread} (hsz : ∀ (f : Nat) es, s.facesEdges[f]? = some es → 2 ≤ es.length ∧ es.length ≤ 6)
    (hw : Unmarked w) (h : spreadStep edges (List.replicate n missing) s f w = .ok w') : Unmarked w' := by
  simp only [spreadStep, Res.bind_eq_ok] at h
  obtain ⟨k, hk, h⟩ := h
  split at h
  · rw [← Res.ok.inj h]; exact hw
  simp only [Res.bind_eq_ok] at h
  obtain ⟨es, hes, c, hc, hang, hh, b, hb, h⟩ := h
  rw [vget_eq_ok] at hes
  obtain rfl := findHangingNodes_none hh
  obtain rfl := hangingRefined_noHang hb
  obtain rfl := countToRefine_zero hw.2.1 hc
  have hs := hsz f es hes
  have ht : tooManySides es.length 0 (noHang.edge.countP id) (noHang.node.countP id) = false := by
    rw [noHang_edge_count, noHang_node_count]
    simp only [tooManySides, Bool.or_eq_false_iff, Bool.and_eq_false_iff, decide_eq_false_iff_not]
    omega
  rw [ht] at h
  simp only [Bool.or_false, Bool.false_eq_true, if_false, Res.ok.injEq] at h
  rw [← h]
  exact hw

theorem spread_unmarked {edges : List Edge} {n : Nat} {s : State} (hsz : ∀ (f : Nat) es, s.facesEdges[f]? = some es → 2 ≤ es.length ∧ es.length ≤ 6) :
    ∀ {r : Nat} {w w' : Spread}, Unmarked w → spread edges (List.replicate n missing) s r w = .ok w' → Unmarked w'
  | 0, w, w', hw, h => by rw [← Res.ok.inj h]; exact hw
  | r + 1, w, w', hw, h => by
    simp only [spread, Res.bind_eq_ok] at h
    obtain ⟨u, h1, h2⟩ := h
    have hu : Unmarked u := forRange_of_ok (fun _ u => Unmarked u) (Nat.zero_le _) h1 ⟨hw.1, hw.2.1, rfl⟩
      fun k a b _ _ ha hb => spreadStep_unmarked hsz ha hb
    rw [if_neg (by simp [hu.2.2])] at h2
    rw [← Res.ok.inj h2]
    exact hu

theorem nothing_selected_marks {g : Setting P} {short : Option P → Option P → Bool} {level : Nat} {v : Level P} {w : Spread}
    (h : levelMasks g level v = .ok w) (hg : g.marks = sizeMarks short)
    (hbro : v.bro = List.replicate v.mesh.edges.length missing)
    (hsz : ∀ (f : Nat) es, v.st.facesEdges[f]? = some es → 2 ≤ es.length ∧ es.length ≤ 6)
    (hlen : v.st.facesNodes.length = v.st.facesEdges.length)
    (hno : ∀ ns ∈ v.st.facesNodes, ¬ Active level v.node ns) : Unmarked w := by
  obtain ⟨k, fm, em, h1, h2, h3, h4⟩ := levelMasks_eq h
  rw [hg] at h1
  obtain ⟨h1, hk⟩ := sizeMarks_eq h1
  have inv := sizeMask_inv h1
  obtain ⟨m1, m2⟩ := maskFaces_ok h2
  have hfm : ∀ (f : Nat) k, fm[f]? = some k → k = 0 := by
    intro f k hf
    have : f < v.st.facesNodes.length := by
      have := (List.getElem?_eq_some_iff.1 hf).1
      rw [m1, inv.lenF] at this
      omega
    have hx := (m2 f _ (List.getElem?_eq_getElem this)).2 (hno _ (List.getElem_mem this))
    rw [hx] at hf
    exact (Option.some.inj hf).symm
  obtain ⟨e1, e2, e3, e4⟩ := edgesRefinementMask_ok (by rw [m1, inv.lenF]) h3
  have hem : ∀ (e : Nat) k, em[e]? = some k → k = 0 := by
    intro e k he
    rcases e2 e k he with h0 | h0
    · exact h0
    · subst h0
      rcases e3 e he with h0 | ⟨f, x, hx, h0, _⟩
      · rcases inv.edgeS e 1 h0 with h0 | h0
        · cases h0
        · cases h0.1
      · exact absurd (hfm f x hx) h0
  rw [hbro] at h4
  exact spread_unmarked hsz ⟨hfm, hem, rfl⟩ h4

theorem perimeterMask_zero {s : State} {mask mask' : List Int} (hz : ∀ k ∈ mask, k = 0) (h : perimeterMask s mask = .ok mask') : ∀ k ∈ mask', k = 0 := by
  refine forRange_of_ok (fun _ u => ∀ k ∈ u, k = 0) (Nat.zero_le _) h hz ?_
  intro f u u' _ _ hu hu'
  simp only [perimeterStep, Res.bind_eq_ok] at hu'
  obtain ⟨ns, _, hu'⟩ := hu'
  split at hu'
  · refine forRange_of_ok (fun _ u => ∀ k ∈ u, k = 0) (Nat.zero_le _) hu' hu ?_
    intro i a b _ _ ha hb
    simp only [Res.bind_eq_ok] at hb
    obtain ⟨n, _, x, hx, hb⟩ := hb
    rw [vget_eq_ok] at hx
    have := ha x (List.mem_of_getElem? hx)
    subst this
    rw [if_neg (by decide)] at hb
    rw [← Res.ok.inj hb]
    exact ha
  · rw [← Res.ok.inj hu']
    exact hu

theorem not_active_of_zero {node : List Int} (hz : ∀ k ∈ node, k = 0) {ns : List Nat} : ¬ Active 0 node ns := by
  simp only [Active, if_true]
  rintro ⟨n, _, h, _⟩
  apply h
  rw [List.getD]
  cases hn : node[n]? with
  | none => rfl
  | some k => exact hz k (List.mem_of_getElem? hn)

theorem levels_unmarked {g : Setting P} {short : Option P → Option P → Bool} {r : Nat} {v v' : Level P} (h : levels g r 0 v = .ok v')
    (hg : g.marks = sizeMarks short) (hbro : v.bro = List.replicate v.mesh.edges.length missing)
    (hsz : ∀ (f : Nat) es, v.st.facesEdges[f]? = some es → 2 ≤ es.length ∧ es.length ≤ 6)
    (hlen : v.st.facesNodes.length = v.st.facesEdges.length) (hz : ∀ k ∈ v.node, k = 0) :
    v'.mesh = v.mesh ∧ v'.acts = v.acts ∧ v'.st = v.st ∧ v'.bro = v.bro := by
  cases r with
  | zero =>
    rw [← Res.ok.inj h]
    exact ⟨rfl, rfl, rfl, rfl⟩
  | succ r =>
    simp only [levels, Res.bind_eq_ok] at h
    obtain ⟨w, h1, h2⟩ := h
    have hu := nothing_selected_marks h1 hg hbro hsz hlen fun ns _ => not_active_of_zero hz
    rw [if_pos (by
      simp only [List.all_eq_true, beq_iff_eq]
      intro k hk
      obtain ⟨i, hi⟩ := List.mem_iff_getElem?.1 hk
      exact hu.1 i k hi)] at h2
    rw [← Res.ok.inj h2]
    exact ⟨rfl, rfl, rfl, rfl⟩

end Verif.Refine
