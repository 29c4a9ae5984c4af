import Verif.Casulli.JoinLemmas
/-!
# Joining nodes: faces, boundary and corners
-/
namespace Verif.Casulli
open Verif.Mesh Verif.Faces
variable {P : Type} {mid : P → P → P} {m : Mesh P} {t : Tables P} {old : List Mask}

/-! ## Numbers and masks of new nodes -/

theorem num_ge (S : Start m t old) {x : Label} (hx : x ∈ tasks m t.faces) (ha : active old x = true) : m.nodes.length ≤ num m t.faces old x := by
  obtain ⟨pre, rest, hT⟩ := List.append_of_mem hx
  rw [num_task S.net hT ha]
  omega

theorem num_active (S : Start m t old) {x : Label} (hx : x ∈ tasks m t.faces) (ha : active old x = true) :
    ((tasks m t.faces).filter (active old))[num m t.faces old x - m.nodes.length]? = some x := by
  obtain ⟨pre, rest, hT⟩ := List.append_of_mem hx
  rw [num_task S.net hT ha, Nat.add_sub_cancel_left, hT, List.filter_append, List.filter_cons_of_pos ha, List.getElem?_append_right (Nat.le_refl _),
    Nat.sub_self]
  rfl

theorem num_inj (S : Start m t old) {x y : Label} (hx : x ∈ tasks m t.faces) (ha : active old x = true) (hy : y ∈ tasks m t.faces)
    (hb : active old y = true) (h : num m t.faces old x = num m t.faces old y) : x = y := by
  have h1 := num_active S hx ha
  rw [h, num_active S hy hb] at h1
  exact (Option.some.inj h1).symm

theorem active_of {n : Nat} {x : Label} (hx : x.node = n) (hm : maskAt old n ≠ .unassigned) : active old x = true := by
  unfold active
  rw [decide_eq_true_eq, hx]
  intro hc
  apply hm
  unfold maskAt
  rw [hc]; rfl

theorem Grown.mask_len (S : Start m t old) {r : Run P} (h : Grown mid m t old r) : total m t.faces old ≤ r.mask.length := by
  have := S.room
  rw [h.mask]
  simp only [List.length_append, List.length_map, List.length_replicate, S.length, total]
  omega

theorem Grown.mask_new (S : Start m t old) {r : Run P} (h : Grown mid m t old r) {x : Label} (hx : x ∈ tasks m t.faces) (ha : active old x = true) :
    r.mask[num m t.faces old x]? = some (kind x) := by
  have h1 := num_ge S hx ha
  have h2 := num_active S hx ha
  have h3 := (List.getElem?_eq_some_iff.1 h2).1
  rw [h.mask, List.append_assoc, List.getElem?_append_right (by rw [S.length]; exact h1), S.length,
    List.getElem?_append_left (by rw [List.length_map]; exact h3), List.getElem?_map, h2]
  rfl

theorem Grown.mask_old (S : Start m t old) {r : Run P} (h : Grown mid m t old r) {n : Nat} (hn : n < m.nodes.length) :
    vget r.mask n = .ok (maskAt old n) := by
  have hn' : n < old.length := by rw [S.length]; exact hn
  rw [vget_eq_ok, h.mask, List.append_assoc, List.getElem?_append_left hn', maskAt, List.getElem?_eq_getElem hn']
  rfl

theorem Grown.list_old (S : Start m t old) {r : Run P} (h : Grown mid m t old r) {n : Nat} (hn : n < m.nodes.length) :
    listedEdges r.mesh n = .ok (listAt m n) := by
  obtain ⟨l, h1, h2, h3, _⟩ := h.list_lt S (a := n) (by unfold total; omega)
  unfold listedEdges
  rw [vget_eq_ok.2 h2, Res.ok_bind, vget_eq_ok.2 h1, Res.ok_bind, if_neg (Nat.lt_irrefl _), List.take_length, h3 hn]

/-- The edges of a node. -/
theorem Net.listed (h : Net m t) {n e : Nat} : e ∈ listAt m n ↔ edgeAt m e ≠ noEdge ∧ touches (edgeAt m e) n := by
  constructor
  · intro he
    have h1 := h.fresh n e he
    exact ⟨h1, (h.wf.listed n e he).2.resolve_left h1⟩
  · rintro ⟨h1, h2⟩
    exact h.wf.complete e n h1 h2

/-! ## The faces -/

theorem FaceOf.grown {f : Nat} {ns es : List Nat} (hf : FaceOf m t.faces f ns es) {r : Run P} (h : Grown mid m t old r) :
    FaceOf r.mesh t.faces f ns es := by
  refine ⟨hf.nodes, hf.edges, ⟨hf.proper.atLeast, hf.proper.atMost, hf.proper.len, hf.proper.nodesDistinct, hf.proper.edgesDistinct, ?_⟩⟩
  intro i hi
  obtain ⟨a, b, e, p, h1, h2, h3, h4, h5⟩ := hf.proper.sides i hi
  refine ⟨a, b, e, p, h1, h2, h3, ?_, h5⟩
  obtain ⟨extra, x1, _⟩ := h.edges
  rw [x1, List.getElem?_append_left (List.getElem?_eq_some_iff.1 h4).1]
  exact h4

theorem faceActive_ok {mask : List Mask} (ns : List Nat) (h : ∀ n ∈ ns, n < mask.length) : ∃ b, faceActive mask ns = .ok b := by
  induction ns with
  | nil => exact ⟨true, rfl⟩
  | cons n ns ih =>
    rw [faceActive, vget_ok (h n (by simp)), Res.ok_bind]
    split
    · exact ⟨false, rfl⟩
    · exact ih (fun k hk => h k (by simp [hk]))

theorem faceIndex_ok (S : Start m t old) {r : Run P} (h : Grown mid m t old r) {f : Nat} {ns es : List Nat} (hf : FaceOf m t.faces f ns es) {j : Nat}
    (h4 : es.length = 4) (hj : j < 4) : ∃ q, faceIndex r.mesh r.table es j = .ok q ∧ q.1 ∈ ns ∧ q.2 < r.mask.length := by
  have j1 : j < es.length := by omega
  have j2 : (j + 3) % 4 < es.length := by rw [h4]; exact Nat.mod_lt _ (by omega)
  have u1 := hf.used (List.getElem_mem j1)
  have u2 := hf.used (List.getElem_mem j2)
  have hlen := h.mask_len S
  have goal : ∃ q, faceIndex r.mesh r.table es j = .ok q ∧ q.2 < r.mask.length := by
    unfold faceIndex
    rw [vget_ok j1, Res.ok_bind, vget_ok j2, Res.ok_bind, h.getEdge (used_lt u1), Res.ok_bind, h.getEdge (used_lt u2), Res.ok_bind]
    split
    · obtain ⟨x, o⟩ := Owns.total S.net u1 (k := 1) (by omega)
      rw [h.table.slot S.net o, Res.ok_bind]
      have := num_lt S ((mem_tasks S.net).1 (o.occurs S.net)).1
      exact ⟨_, rfl, Nat.lt_of_lt_of_le this hlen⟩
    · obtain ⟨x, o⟩ := Owns.total S.net u1 (k := 2) (by omega)
      rw [h.table.slot S.net o, Res.ok_bind]
      have := num_lt S ((mem_tasks S.net).1 (o.occurs S.net)).1
      exact ⟨_, rfl, Nat.lt_of_lt_of_le this hlen⟩
  obtain ⟨q, q1, q2⟩ := goal
  exact ⟨q, q1, faceIndex_old (hf.grown h) q1, q2⟩

theorem faceDiagonal_ok {idx : List (Nat × Nat)} {r : Run P} (h4 : idx.length = 4) (hb : ∀ q ∈ idx, q.1 < r.mask.length ∧ q.2 < r.mask.length) :
    ∀ (js : List Nat), (∀ j ∈ js, j < 4) → (∀ q ∈ idx, r.mask[q.1]? ≠ some .unassigned) → faceDiagonal idx js r = .ok r := by
  intro js
  induction js with
  | nil => intro _ _; rfl
  | cons j js ih =>
    intro hj hx
    have j0 : j < idx.length := by rw [h4]; exact hj j (by simp)
    have jm : ∀ k, (j + k) % 4 < idx.length := fun k => by rw [h4]; exact Nat.mod_lt _ (by omega)
    have b0 := hb _ (List.getElem_mem j0)
    have b1 := hb _ (List.getElem_mem (jm 1))
    have b2 := hb _ (List.getElem_mem (jm 2))
    have b3 := hb _ (List.getElem_mem (jm 3))
    rw [faceDiagonal, vget_ok j0, Res.ok_bind, vget_ok (jm 3), Res.ok_bind, vget_ok (jm 1), Res.ok_bind, vget_ok (jm 2), Res.ok_bind]
    unfold fourMasks
    rw [vget_ok b0.2, Res.ok_bind, vget_ok b3.1, Res.ok_bind, vget_ok b1.1, Res.ok_bind, vget_ok b2.1, Res.ok_bind, Res.ok_bind]
    have hy : r.mask[idx[(j + 3) % 4].1] ≠ .unassigned := fun hc =>
      hx _ (List.getElem_mem (jm 3)) (by rw [List.getElem?_eq_getElem b3.1, hc])
    have hw : r.mask[idx[(j + 2) % 4].1] ≠ .unassigned := fun hc =>
      hx _ (List.getElem_mem (jm 2)) (by rw [List.getElem?_eq_getElem b2.1, hc])
    rw [if_neg (fun c => hy c.2.1), if_neg (fun c => hw c.2.2.2), if_neg (fun c => hy c.2.1)]
    exact ih (fun k hk => hj k (by simp [hk])) hx

theorem connectFace_ok (S : Start m t old) {r : Run P} (h : Grown mid m t old r) {f : Nat} (hf : f < t.faces.facesNodes.length) :
    connectFace t.faces f r = .ok r := by
  obtain ⟨ns, es, hfo⟩ := S.net.face hf
  have hlen := h.mask_len S
  have hns : ∀ n ∈ ns, n < r.mask.length := fun n hn => by
    have := S.net.node_lt (x := .inside f n) ⟨ns, hfo.nodes, hn⟩
    exact Nat.lt_of_lt_of_le (Nat.lt_of_lt_of_le this (by unfold total; omega)) hlen
  unfold connectFace
  rw [vget_eq_ok.2 hfo.nodes, Res.ok_bind]
  split
  · rfl
  · rename_i h4
    have h4' : es.length = 4 := by rw [hfo.proper.len]; omega
    obtain ⟨b, hb⟩ := faceActive_ok ns hns
    rw [hb, Res.ok_bind]
    cases b with
    | false => rw [if_neg (by simp)]
    | true =>
      have hall := faceActive_true ns hb
      rw [if_pos rfl, vget_eq_ok.2 hfo.edges, Res.ok_bind]
      obtain ⟨q0, a0, b0, c0⟩ := faceIndex_ok S h hfo h4' (j := 0) (by omega)
      obtain ⟨q1, a1, b1, c1⟩ := faceIndex_ok S h hfo h4' (j := 1) (by omega)
      obtain ⟨q2, a2, b2, c2⟩ := faceIndex_ok S h hfo h4' (j := 2) (by omega)
      obtain ⟨q3, a3, b3, c3⟩ := faceIndex_ok S h hfo h4' (j := 3) (by omega)
      unfold connectFaceNodes
      rw [a0, Res.ok_bind, a1, Res.ok_bind, a2, Res.ok_bind, a3, Res.ok_bind]
      refine faceDiagonal_ok rfl ?_ _ (by simp) ?_
      · intro q hq
        simp only [List.mem_cons, List.not_mem_nil, or_false] at hq
        rcases hq with rfl | rfl | rfl | rfl
        · exact ⟨hns _ b0, c0⟩
        · exact ⟨hns _ b1, c1⟩
        · exact ⟨hns _ b2, c2⟩
        · exact ⟨hns _ b3, c3⟩
      · intro q hq
        simp only [List.mem_cons, List.not_mem_nil, or_false] at hq
        rcases hq with rfl | rfl | rfl | rfl
        · exact hall _ b0
        · exact hall _ b1
        · exact hall _ b2
        · exact hall _ b3

/-! ## One node -/

theorem Owns.node (h : Net m t) {x : Label} {e k v : Nat} (ho : Owns m t.faces x e k) (hv : touches (edgeAt m e) v) (hk : k % 2 = endOf m e v) :
    x.node = v := by
  rcases ho.at_end h hv hk with ⟨f, rfl, _⟩ | ⟨rfl, _⟩ <;> rfl

/-- A node that is no corner may be joined with anything, since it is removed; a corner only with what it has to be joined with. -/
theorem due_node (S : Start m t old) {n : Nat} {x : Label} (hn : n < m.nodes.length) (hx : x ∈ tasks m t.faces) (hxn : x.node = n)
    (hm : maskAt old n = .boundary ∨ (maskAt old n = .corner ∧ Link m t.faces (maskAt old) (.old n) x)) :
    Due m t old (n, num m t.faces old x) := by
  have hne : maskAt old n ≠ .unassigned := by
    rcases hm with hm | ⟨hm, _⟩ <;> rw [hm] <;> simp
  have hge := num_ge S hx (active_of hxn hne)
  refine ⟨by simp only; omega, by simp only [total]; omega, num_lt S ((mem_tasks S.net).1 hx).1, ?_⟩
  rcases hm with hm | ⟨_, hm⟩
  · exact Or.inl hm
  · exact Or.inr ⟨.old n, x, Or.inl hm, rfl, rfl⟩

/-- Join a node with the two new nodes at its end of an edge. -/
theorem connectBoth_ok (S : Start m t old) {r : Run P} (h : Grown mid m t old r) {n e : Nat} (hu : edgeAt m e ≠ noEdge) (ht : touches (edgeAt m e) n)
    (hm : maskAt old n = .boundary ∨ (maskAt old n = .corner ∧ (Rim t.faces e → 4 < (listAt m n).length))) :
    ∃ r', connectBoth n e r = .ok r' ∧ Grown mid m t old r' ∧ r.mesh.edges <+: r'.mesh.edges ∧
      ∀ f, Borders t.faces f e → Has r' n (num m t.faces old (.inside f n)) := by
  have hn : n < m.nodes.length := by
    rcases S.net.wf.bounds e with hb | hb
    · exact absurd hb hu
    · rcases ht with rfl | rfl
      · exact hb.1
      · exact hb.2
  have hend := endOf_lt m e n
  obtain ⟨x, ox⟩ := Owns.total S.net hu (k := endOf m e n) (by omega)
  obtain ⟨y, oy⟩ := Owns.total S.net hu (k := endOf m e n + 2) (by omega)
  have nx := ox.node S.net ht (by omega)
  have ny := oy.node S.net ht (by omega)
  have due : ∀ z k, Owns m t.faces z e k → k % 2 = endOf m e n → Due m t old (n, num m t.faces old z) := by
    intro z k oz hk
    refine due_node S hn (oz.occurs S.net) (oz.node S.net ht hk) (hm.imp_right (fun hc => ⟨hc.1, ?_⟩))
    rcases oz.at_end S.net ht hk with ⟨f, rfl, hb⟩ | ⟨rfl, hr⟩
    · exact Link.spoke f e n hc.1 hb ht hc.2
    · exact Link.tip e n hc.1 hr ht
  obtain ⟨r1, a1, a2, a3, a4⟩ := connect_ok S h (due x _ ox (by omega))
  obtain ⟨r2, b1, b2, b3, b4⟩ := connect_ok S a2 (due y _ oy (by omega))
  refine ⟨r2, ?_, b2, a3.trans b3, ?_⟩
  · have hk : (if (edgeAt m e).1 = n then 0 else 1) = endOf m e n := rfl
    unfold connectBoth
    rw [h.getEdge (used_lt hu), Res.ok_bind]
    simp only
    rw [hk, h.table.slot S.net ox, Res.ok_bind, a1, Res.ok_bind, a2.table.slot S.net oy, Res.ok_bind, b1]
  · intro f hb
    have o := Owns.inside (m := m) (s := t.faces) f e n hb ht
    have hs := sideOf_lt m t.faces f e
    have : sideOf m t.faces f e = 0 ∨ sideOf m t.faces f e = 1 := by omega
    rcases this with hs | hs
    · rw [hs] at o
      rw [o.unique S.net oy (by omega)]
      exact b4
    · rw [hs] at o
      rw [o.unique S.net ox (by omega)]
      exact a4.mono b3

/-- The inner edges of a node; the boundary edges are collected. -/
theorem connectEdges_ok (S : Start m t old) {n : Nat} (hm : maskAt old n = .boundary ∨ maskAt old n = .corner) :
    ∀ (l : List Nat) {r : Run P}, Grown mid m t old r → (∀ e ∈ l, edgeAt m e ≠ noEdge ∧ touches (edgeAt m e) n) →
      ∃ r' bs, connectEdges t.faces n l r = .ok (r', bs) ∧ Grown mid m t old r' ∧ r.mesh.edges <+: r'.mesh.edges ∧ bs.Sublist l ∧
        (∀ e, e ∈ bs ↔ e ∈ l ∧ Rim t.faces e) ∧
        ∀ e ∈ l, ¬ Rim t.faces e → ∀ f, Borders t.faces f e → Has r' n (num m t.faces old (.inside f n)) := by
  intro l
  induction l with
  | nil =>
    intro r h _
    exact ⟨r, [], rfl, h, List.prefix_rfl, List.Sublist.refl _, by simp, by simp⟩
  | cons e l ih =>
    intro r h hl
    obtain ⟨hu, ht⟩ := hl e (by simp)
    have hl' : ∀ e ∈ l, edgeAt m e ≠ noEdge ∧ touches (edgeAt m e) n := fun d hd => hl d (by simp [hd])
    rw [connectEdges]
    by_cases hr : Rim t.faces e
    · rw [vget_eq_ok.2 hr, Res.ok_bind, if_pos rfl]
      obtain ⟨r1, bs, a1, a2, a3, a4, a5, a6⟩ := ih h hl'
      rw [a1, Res.ok_bind]
      refine ⟨r1, e :: bs, rfl, a2, a3, a4.cons_cons e, ?_, ?_⟩
      · intro d
        rw [List.mem_cons, a5, List.mem_cons]
        constructor
        · rintro (rfl | ⟨q1, q2⟩)
          · exact ⟨Or.inl rfl, hr⟩
          · exact ⟨Or.inr q1, q2⟩
        · rintro ⟨rfl | q1, q2⟩
          · exact Or.inl rfl
          · exact Or.inr ⟨q1, q2⟩
      · intro d hd hnr
        rcases List.mem_cons.1 hd with rfl | hd
        · exact absurd hr hnr
        · exact a6 d hd hnr
    · obtain ⟨hc, _⟩ := S.net.inner hu hr
      rw [vget_eq_ok.2 hc, Res.ok_bind, if_neg (by omega)]
      obtain ⟨r1, b1, b2, b3, b4⟩ := connectBoth_ok S h hu ht (hm.imp_right (fun hc => ⟨hc, fun q => absurd q hr⟩))
      obtain ⟨r2, bs, a1, a2, a3, a4, a5, a6⟩ := ih b2 hl'
      rw [b1, Res.ok_bind, a1]
      refine ⟨r2, bs, rfl, a2, b3.trans a3, a4.cons e, ?_, ?_⟩
      · intro d
        rw [a5, List.mem_cons]
        constructor
        · rintro ⟨q1, q2⟩; exact ⟨Or.inr q1, q2⟩
        · rintro ⟨rfl | q1, q2⟩
          · exact absurd q2 hr
          · exact ⟨q1, q2⟩
      · intro d hd hnr
        rcases List.mem_cons.1 hd with rfl | hd
        · intro f hb
          exact (b4 f hb).mono a3
        · exact a6 d hd hnr

/-- The new node of a boundary edge is found. -/
theorem nodeToConnect_ok (S : Start m t old) {r : Run P} (h : Grown mid m t old r) {n e : Nat} (hr : Rim t.faces e) (ht : touches (edgeAt m e) n)
    (hm : maskAt old n ≠ .unassigned) : nodeToConnect n r e = .ok (num m t.faces old (.along e n)) := by
  obtain ⟨hu, f, hb, hone⟩ := S.net.rim hr
  have hl := used_lt hu
  have hs := sideOf_lt m t.faces f e
  have oi := Owns.inside (m := m) (s := t.faces) f e n hb ht
  have oa := Owns.along (m := m) (s := t.faces) f e n hr hb ht
  have gi : ∀ o, generalNode r e (endOf m e n + 2 * (1 - sideOf m t.faces f e)) o = .ok o := by
    intro o
    unfold generalNode
    rw [h.table.slot S.net oi, Res.ok_bind, vget_eq_ok.2 (h.mask_new S (oi.occurs S.net) (active_of rfl hm)), Res.ok_bind]
    rfl
  have ga : ∀ o, generalNode r e (endOf m e n + 2 * sideOf m t.faces f e) o = .ok (num m t.faces old (.along e n)) := by
    intro o
    unfold generalNode
    rw [h.table.slot S.net oa, Res.ok_bind, vget_eq_ok.2 (h.mask_new S (oa.occurs S.net) (active_of rfl hm)), Res.ok_bind]
    rfl
  have key : ∀ o, generalEnd r e (endOf m e n) true o = .ok (num m t.faces old (.along e n)) := by
    intro o
    unfold generalEnd
    rw [if_pos rfl]
    have : sideOf m t.faces f e = 0 ∨ sideOf m t.faces f e = 1 := by omega
    rcases this with hs | hs
    · rw [hs] at gi ga
      have g1 := ga o
      rw [Nat.mul_zero, Nat.add_zero] at g1
      rw [g1, Res.ok_bind]
      exact gi _
    · rw [hs] at gi ga
      have g1 := gi o
      rw [Nat.sub_self, Nat.mul_zero, Nat.add_zero] at g1
      rw [g1, Res.ok_bind]
      exact ga _
  have skip : ∀ k o, generalEnd r e k false o = .ok o := fun k o => rfl
  unfold nodeToConnect
  rw [h.getEdge hl, Res.ok_bind]
  have hnl := S.net.noLoop e hu
  by_cases h1 : (edgeAt m e).1 = n
  · have he : endOf m e n = 0 := by unfold endOf; rw [if_pos h1]
    have h2 : ¬ (edgeAt m e).2 = n := fun hc => hnl (h1.trans hc.symm)
    rw [he] at key
    rw [decide_eq_true h1, decide_eq_false h2, key, Res.ok_bind, skip]
  · have he : endOf m e n = 1 := by unfold endOf; rw [if_neg h1]
    have h2 : (edgeAt m e).2 = n := by
      rcases ht with ht | ht
      · exact absurd ht h1
      · exact ht
    rw [he] at key
    rw [decide_eq_true h2, decide_eq_false h1, skip, Res.ok_bind, key]

theorem nodesToConnect_ok (S : Start m t old) {r : Run P} (h : Grown mid m t old r) {n : Nat} (hm : maskAt old n ≠ .unassigned) (es : List Nat)
    (hes : ∀ e ∈ es, Rim t.faces e ∧ touches (edgeAt m e) n) :
    nodesToConnect n r es = .ok (es.map (fun e => num m t.faces old (.along e n))) := by
  induction es with
  | nil => rfl
  | cons e es ih =>
    have h1 := hes e (by simp)
    rw [nodesToConnect, nodeToConnect_ok S h h1.1 h1.2 hm, Res.ok_bind, ih (fun d hd => hes d (by simp [hd])), Res.ok_bind]
    rfl

theorem connectCorner_ok (S : Start m t old) {n : Nat} (hn : n < m.nodes.length) (hm : maskAt old n = .corner) : ∀ (es : List Nat) {r : Run P},
    Grown mid m t old r → (∀ e ∈ es, Rim t.faces e ∧ touches (edgeAt m e) n) →
    ∃ r', connectCorner n (es.map (fun e => num m t.faces old (.along e n))) r = .ok r' ∧ Grown mid m t old r' ∧ r.mesh.edges <+: r'.mesh.edges ∧
      ∀ e ∈ es, Has r' n (num m t.faces old (.along e n)) := by
  intro es
  induction es with
  | nil => intro r h _; exact ⟨r, rfl, h, List.prefix_rfl, by simp⟩
  | cons e es ih =>
    intro r h hes
    have h1 := hes e (by simp)
    have hx : Label.along e n ∈ tasks m t.faces := (mem_tasks S.net).2 ⟨⟨h1.1, h1.2⟩, fun _ hc => by cases hc⟩
    have hd := due_node S hn hx rfl (Or.inr ⟨hm, Link.tip e n hm h1.1 h1.2⟩)
    obtain ⟨r1, a1, a2, a3, a4⟩ := connect_ok S h hd
    obtain ⟨r2, b1, b2, b3, b4⟩ := ih a2 (fun d hd => hes d (by simp [hd]))
    have hne := num_ne S ((mem_tasks S.net).1 hx).1
    refine ⟨r2, ?_, b2, a3.trans b3, ?_⟩
    · rw [List.map_cons, connectCorner]
      unfold connectOther
      rw [if_pos ⟨hne, Ne.symm hd.1⟩, a1, Res.ok_bind, b1]
    · intro d hd
      rcases List.mem_cons.1 hd with rfl | hd
      · exact a4.mono b3
      · exact b4 d hd

/-- What has been joined after the first round of a node. -/
structure DoneNode (m : Mesh P) (t : Tables P) (old : List Mask) (n : Nat) (r : Run P) : Prop where
  spoke : maskAt old n = .corner → ∀ e f, ¬ Rim t.faces e → Borders t.faces f e → touches (edgeAt m e) n → Has r n (num m t.faces old (.inside f n))
  tip : maskAt old n = .corner → ∀ e, Rim t.faces e → touches (edgeAt m e) n → Has r n (num m t.faces old (.along e n))
  past : maskAt old n = .boundary → ∀ e e', e ≠ e' → Rim t.faces e → Rim t.faces e' → touches (edgeAt m e) n → touches (edgeAt m e') n →
    Has r (num m t.faces old (.along e n)) (num m t.faces old (.along e' n))

theorem DoneNode.mono {n : Nat} {r r' : Run P} (h : DoneNode m t old n r) (hp : r.mesh.edges <+: r'.mesh.edges) : DoneNode m t old n r' :=
  ⟨fun a e f b c d => (h.spoke a e f b c d).mono hp, fun a e b c => (h.tip a e b c).mono hp,
    fun a e e' b c d f g => (h.past a e e' b c d f g).mono hp⟩

theorem missingEdges_ok (S : Start m t old) {r : Run P} (h : Grown mid m t old r) {n : Nat} (hn : n < m.nodes.length)
    (htwo : maskAt old n = .boundary → ∃ a b, a ≠ b ∧ ∀ e, e ∈ listAt m n ∧ Rim t.faces e ↔ e = a ∨ e = b) :
    ∃ r', missingEdges t.faces n r = .ok r' ∧ Grown mid m t old r' ∧ r.mesh.edges <+: r'.mesh.edges ∧ DoneNode m t old n r' := by
  unfold missingEdges
  rw [h.mask_old S hn, Res.ok_bind]
  by_cases hlow : (maskAt old n).rank < Mask.boundary.rank
  · rw [if_pos hlow]
    refine ⟨r, rfl, h, List.prefix_rfl, ?_, ?_, ?_⟩ <;> intro hc <;> rw [hc] at hlow <;> simp [Mask.rank] at hlow
  · rw [if_neg hlow, h.list_old S hn, Res.ok_bind]
    have hm : maskAt old n = .boundary ∨ maskAt old n = .corner := by
      revert hlow
      cases maskAt old n <;> simp [Mask.rank]
    have hne : maskAt old n ≠ .unassigned := by rcases hm with hm | hm <;> rw [hm] <;> simp
    obtain ⟨r1, bs, a1, a2, a3, a4, a5, a6⟩ := connectEdges_ok S hm (listAt m n) h (fun e he => S.net.listed.1 he)
    have hbs : ∀ e ∈ bs, Rim t.faces e ∧ touches (edgeAt m e) n := fun e he => by
      have := (a5 e).1 he
      exact ⟨this.2, (S.net.listed.1 this.1).2⟩
    have hin : ∀ e, Rim t.faces e → touches (edgeAt m e) n → e ∈ bs := fun e q1 q2 => (a5 e).2 ⟨S.net.listed.2 ⟨(S.net.rim q1).1, q2⟩, q1⟩
    have hspoke : ∀ e f, ¬ Rim t.faces e → Borders t.faces f e → touches (edgeAt m e) n → Has r1 n (num m t.faces old (.inside f n)) :=
      fun e f q1 q2 q3 => a6 e (S.net.listed.2 ⟨S.net.used q2, q3⟩) q1 f q2
    rw [a1, Res.ok_bind]
    by_cases hnil : bs = []
    · rw [if_pos hnil]
      refine ⟨r1, rfl, a2, a3, fun _ => hspoke, ?_, ?_⟩
      · intro _ e q1 q2
        have := hin e q1 q2
        rw [hnil] at this; simp at this
      · intro _ e e' _ q1 _ q2
        have := hin e q1 q2
        rw [hnil] at this; simp at this
    · rw [if_neg hnil, nodesToConnect_ok S a2 hne bs hbs, Res.ok_bind]
      rcases hm with hm | hm
      · rw [hm, if_pos (by simp)]
        obtain ⟨a, b, hab, hall⟩ := htwo hm
        have hmem : ∀ e, e ∈ bs ↔ e = a ∨ e = b := fun e => (a5 e).trans (hall e)
        have hnd : bs.Nodup := a4.nodup (S.net.wf.nodup n)
        obtain ⟨c, d, rfl⟩ : ∃ c d, bs = [c, d] := by
          have ha := (hmem a).2 (Or.inl rfl)
          have hb := (hmem b).2 (Or.inr rfl)
          match bs, hnd, hmem, ha, hb with
          | [], _, _, ha, _ => simp at ha
          | [c], _, _, ha, hb =>
            rw [List.mem_singleton] at ha hb
            exact absurd (ha.trans hb.symm) hab
          | [c, d], _, _, _, _ => exact ⟨c, d, rfl⟩
          | c :: d :: e :: l, hnd, hmem, _, _ =>
            exfalso
            have hc := (hmem c).1 (by simp)
            have hd := (hmem d).1 (by simp)
            have he := (hmem e).1 (by simp)
            simp only [List.nodup_cons, List.mem_cons, not_or] at hnd
            obtain ⟨⟨n1, n2, _⟩, ⟨n3, _⟩, _⟩ := hnd
            rcases hc with rfl | rfl <;> rcases hd with rfl | rfl <;> rcases he with rfl | rfl <;>
              first | exact n1 rfl | exact n2 rfl | exact n3 rfl
        have hcd : c ≠ d := by simpa using hnd
        have hc := hbs c (by simp)
        have hd := hbs d (by simp)
        have xc : Label.along c n ∈ tasks m t.faces := (mem_tasks S.net).2 ⟨⟨hc.1, hc.2⟩, fun _ hc => by cases hc⟩
        have xd : Label.along d n ∈ tasks m t.faces := (mem_tasks S.net).2 ⟨⟨hd.1, hd.2⟩, fun _ hc => by cases hc⟩
        have hne' : num m t.faces old (.along c n) ≠ num m t.faces old (.along d n) := by
          intro hq
          have := num_inj S xc (active_of rfl hne) xd (active_of rfl hne) hq
          injection this with this _
          exact hcd this
        obtain ⟨r2, b1, b2, b3, b4⟩ := connectNew_ok S a2 (num_ne S ((mem_tasks S.net).1 xc).1) (num_ne S ((mem_tasks S.net).1 xd).1)
          (fun hq => due_link S xc xd (Or.inl (Link.past c d n hm hcd hc.1 hd.1 hc.2 hd.2)) hq)
        refine ⟨r2, b1, b2, a3.trans b3, ?_, ?_, ?_⟩
        · intro hc'; rw [hm] at hc'; cases hc'
        · intro hc'; rw [hm] at hc'; cases hc'
        · intro _ e e' hee q1 q2 q3 q4
          have m1 := hin e q1 q3
          have m2 := hin e' q2 q4
          simp only [List.mem_cons, List.not_mem_nil, or_false] at m1 m2
          rcases m1 with rfl | rfl <;> rcases m2 with rfl | rfl
          · exact absurd rfl hee
          · exact b4 hne'
          · exact (b4 hne').symm
          · exact absurd rfl hee
      · rw [hm, if_neg (by simp)]
        obtain ⟨r2, b1, b2, b3, b4⟩ := connectCorner_ok S hn hm bs a2 hbs
        refine ⟨r2, b1, b2, a3.trans b3, ?_, ?_, ?_⟩
        · intro _ e f q1 q2 q3; exact (hspoke e f q1 q2 q3).mono b3
        · intro _ e q1 q2; exact b4 e (hin e q1 q2)
        · intro hc'; rw [hm] at hc'; cases hc'

theorem connectAll_ok (S : Start m t old) {n : Nat} (hm : maskAt old n = .corner) (h4 : 4 < (listAt m n).length) : ∀ (l : List Nat) {r : Run P},
    Grown mid m t old r → (∀ e ∈ l, edgeAt m e ≠ noEdge ∧ touches (edgeAt m e) n) →
    ∃ r', connectAll n l r = .ok r' ∧ Grown mid m t old r' ∧ r.mesh.edges <+: r'.mesh.edges ∧
      ∀ e ∈ l, ∀ f, Borders t.faces f e → Has r' n (num m t.faces old (.inside f n)) := by
  intro l
  induction l with
  | nil => intro r h _; exact ⟨r, rfl, h, List.prefix_rfl, by simp⟩
  | cons e l ih =>
    intro r h hl
    obtain ⟨hu, ht⟩ := hl e (by simp)
    obtain ⟨r1, a1, a2, a3, a4⟩ := connectBoth_ok S h hu ht (Or.inr ⟨hm, fun _ => h4⟩)
    obtain ⟨r2, b1, b2, b3, b4⟩ := ih a2 (fun d hd => hl d (by simp [hd]))
    refine ⟨r2, by rw [connectAll, a1, Res.ok_bind, b1], b2, a3.trans b3, ?_⟩
    intro d hd f hb
    rcases List.mem_cons.1 hd with rfl | hd
    · exact (a4 f hb).mono b3
    · exact b4 d hd f hb

/-- What has been joined after the second round of a node. -/
def DoneCorner (m : Mesh P) (t : Tables P) (old : List Mask) (n : Nat) (r : Run P) : Prop :=
  maskAt old n = .corner → 4 < (listAt m n).length → ∀ e f, Borders t.faces f e → touches (edgeAt m e) n → Has r n (num m t.faces old (.inside f n))

theorem cornerEdges_ok (S : Start m t old) {r : Run P} (h : Grown mid m t old r) {n : Nat} (hn : n < m.nodes.length) :
    ∃ r', cornerEdges n r = .ok r' ∧ Grown mid m t old r' ∧ r.mesh.edges <+: r'.mesh.edges ∧ DoneCorner m t old n r' := by
  unfold cornerEdges
  rw [h.mask_old S hn, Res.ok_bind]
  by_cases hm : maskAt old n = .corner
  · rw [if_neg (by simpa using hm), h.list_old S hn, Res.ok_bind]
    by_cases h4 : (listAt m n).length ≤ 4
    · rw [if_pos h4]
      exact ⟨r, rfl, h, List.prefix_rfl, fun _ hc => by omega⟩
    · rw [if_neg h4]
      obtain ⟨r1, a1, a2, a3, a4⟩ := connectAll_ok S hm (by omega) (listAt m n) h (fun e he => S.net.listed.1 he)
      exact ⟨r1, a1, a2, a3, fun _ _ e f q1 q2 => a4 e (S.net.listed.2 ⟨S.net.used q1, q2⟩) f q1⟩
  · rw [if_pos hm]
    exact ⟨r, rfl, h, List.prefix_rfl, fun hc => absurd hc hm⟩

/-! ## All of it -/

/-- **The edges stage**: all edges that are due are there, and no others. -/
theorem connectNewNodes_ok (S : Start m t old) {r : Run P} (h : Grown mid m t old r)
    (htwo : ∀ n, maskAt old n = .boundary → ∃ a b, a ≠ b ∧ ∀ e, e ∈ listAt m n ∧ Rim t.faces e ↔ e = a ∨ e = b) :
    ∃ r', connectNewNodes t.faces m.nodes.length m.edges.length r = .ok r' ∧ Grown mid m t old r' ∧
      ∀ x y, Link m t.faces (maskAt old) x y → num m t.faces old x ≠ num m t.faces old y → Has r' (num m t.faces old x) (num m t.faces old y) := by
  obtain ⟨r1, a1, a2, a3⟩ := forRange_inv (f := connectEdge) (fun i (r : Run P) => Grown mid m t old r ∧ ∀ e, e < i → DoneEdge m t old e r)
    (Nat.zero_le m.edges.length) (s := r) ⟨h, fun e he => absurd he (Nat.not_lt_zero _)⟩ (by
      rintro e r _ he ⟨h1, h2⟩
      obtain ⟨r', q1, q2, q3, q4⟩ := connectEdge_ok S h1 he
      refine ⟨r', q1, q2, fun d hd => ?_⟩
      by_cases hde : d = e
      · rw [hde]; exact q4
      · exact (h2 d (by omega)).mono q3)
  have b1 : forRange 0 t.faces.facesNodes.length (connectFace t.faces) r1 = .ok r1 :=
    forRange_eq (fun _ => r1) (Nat.zero_le _) (fun f _ hf => connectFace_ok S a2 hf)
  obtain ⟨r3, c1, c2, c3, c4⟩ := forRange_inv (f := missingEdges t.faces)
    (fun i (r : Run P) => Grown mid m t old r ∧ r1.mesh.edges <+: r.mesh.edges ∧ ∀ n, n < i → DoneNode m t old n r)
    (Nat.zero_le m.nodes.length) (s := r1) ⟨a2, List.prefix_rfl, fun e he => absurd he (Nat.not_lt_zero _)⟩ (by
      rintro n r _ hn ⟨h1, h2, h3⟩
      obtain ⟨r', q1, q2, q3, q4⟩ := missingEdges_ok S h1 hn (htwo n)
      refine ⟨r', q1, q2, h2.trans q3, fun d hd => ?_⟩
      by_cases hde : d = n
      · rw [hde]; exact q4
      · exact (h3 d (by omega)).mono q3)
  obtain ⟨r4, d1, d2, d3, d4⟩ := forRange_inv (f := cornerEdges)
    (fun i (r : Run P) => Grown mid m t old r ∧ r3.mesh.edges <+: r.mesh.edges ∧ ∀ n, n < i → DoneCorner m t old n r)
    (Nat.zero_le m.nodes.length) (s := r3) ⟨c2, List.prefix_rfl, fun e he => absurd he (Nat.not_lt_zero _)⟩ (by
      rintro n r _ hn ⟨h1, h2, h3⟩
      obtain ⟨r', q1, q2, q3, q4⟩ := cornerEdges_ok S h1 hn
      refine ⟨r', q1, q2, h2.trans q3, fun d hd => ?_⟩
      by_cases hde : d = n
      · rw [hde]; exact q4
      · exact fun u v e f w z => (h3 d (by omega) u v e f w z).mono q3)
  refine ⟨r4, ?_, d2, ?_⟩
  · unfold connectNewNodes
    rw [a1, Res.ok_bind, b1, Res.ok_bind, c1, Res.ok_bind, d1]
  · have hedge : ∀ e, edgeAt m e ≠ noEdge → DoneEdge m t old e r4 := fun e hu => ((a3 e (used_lt hu)).mono c3).mono d3
    have hnode : ∀ n, n < m.nodes.length → DoneNode m t old n r4 := fun n hn => (c4 n hn).mono d3
    have hlt : ∀ {e n : Nat}, edgeAt m e ≠ noEdge → touches (edgeAt m e) n → n < m.nodes.length := by
      intro e n hu ht
      rcases S.net.wf.bounds e with hb | hb
      · exact absurd hb hu
      · rcases ht with rfl | rfl
        · exact hb.1
        · exact hb.2
    intro x y hl hne
    cases hl with
    | side f e a b hb hj =>
      have hu := S.net.used hb
      have ta : touches (edgeAt m e) a := (joins_touches hj).2 (Or.inl rfl)
      have tb : touches (edgeAt m e) b := (joins_touches hj).2 (Or.inr rfl)
      refine hedge e hu _ _ _ _ (Owns.inside f e a hb ta) (Owns.inside f e b hb tb) (Or.inl ?_) hne
      have := endOf_lt m e a
      have := endOf_lt m e b
      omega
    | rim e a b hr hj =>
      obtain ⟨hu, f, hb, _⟩ := S.net.rim hr
      have ta : touches (edgeAt m e) a := (joins_touches hj).2 (Or.inl rfl)
      have tb : touches (edgeAt m e) b := (joins_touches hj).2 (Or.inr rfl)
      refine hedge e hu _ _ _ _ (Owns.along f e a hr hb ta) (Owns.along f e b hr hb tb) (Or.inl ?_) hne
      have := endOf_lt m e a
      have := endOf_lt m e b
      omega
    | across f g e n hfg hf hg ht =>
      refine hedge e (S.net.used hf) _ _ _ _ (Owns.inside f e n hf ht) (Owns.inside g e n hg ht) (Or.inr ?_) hne
      omega
    | out f e n hr hb ht =>
      refine hedge e (S.net.used hb) _ _ _ _ (Owns.inside f e n hb ht) (Owns.along f e n hr hb ht) (Or.inr ?_) hne
      omega
    | past e e' n hm hee hr hr' ht ht' => exact (hnode n (hlt (S.net.rim hr).1 ht)).past hm e e' hee hr hr' ht ht'
    | tip e n hm hr ht => exact (hnode n (hlt (S.net.rim hr).1 ht)).tip hm e hr ht
    | spoke f e n hm hb ht h4 =>
      have hn := hlt (S.net.used hb) ht
      by_cases hr : Rim t.faces e
      · exact d4 n hn hm (h4 hr) e f hb ht
      · exact (hnode n hn).spoke hm e f hr hb ht

end Verif.Casulli
