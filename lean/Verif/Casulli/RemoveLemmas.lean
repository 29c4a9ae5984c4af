import Verif.Casulli.CornerLemmas
import Verif.Regions.RemoveLemmas
/-!
# Removing the old nodes
-/
namespace Verif.Casulli
open Verif.Mesh Verif.Faces
variable {P : Type} {mid : P → P → P} {m : Mesh P} {t : Tables P} {old : List Mask}

theorem deleteEdgesU_list (es : List Nat) : ∀ {m : Mesh P}, (∀ e ∈ es, e < m.edges.length ∧ e ≠ missing) →
    ∃ as m', deleteEdgesU m es = .ok (as, m') ∧ m'.nodes = m.nodes ∧ m'.nodesEdges = m.nodesEdges ∧ m'.edges.length = m.edges.length ∧
      ∀ j, edgeAt m' j = if j ∈ es then noEdge else edgeAt m j := by
  induction es with
  | nil => intro m _; exact ⟨[], m, rfl, rfl, rfl, rfl, by simp⟩
  | cons e es ih =>
    intro m h
    obtain ⟨h1, h2⟩ := h e (by simp)
    have hset : vset m.edges e noEdge = .ok (m.edges.set e noEdge) := vset_ok _ h1
    obtain ⟨as, m', q1, q2, q3, q4, q5⟩ := ih (m := { m with edges := m.edges.set e noEdge })
      (fun d hd => by simp only [List.length_set]; exact h d (by simp [hd]))
    refine ⟨.deleteEdge e (edgeAt m e) :: as, m', ?_, q2, q3, by simpa using q4, ?_⟩
    · rw [deleteEdgesU]
      unfold deleteEdgeU resetEdge
      rw [if_neg h2, vget_edge h1, Res.ok_bind, hset, Res.ok_bind, Res.ok_bind, Res.ok_bind, q1, Res.ok_bind]
      rfl
    · intro j
      rw [q5 j]
      by_cases hj : j ∈ es
      · rw [if_pos hj, if_pos (by simp [hj])]
      · rw [if_neg hj]
        by_cases hje : j = e
        · subst hje
          rw [if_pos (by simp)]
          unfold edgeAt
          simp [h1]
        · rw [if_neg (by simp [hj, hje])]
          unfold edgeAt
          simp only
          rw [List.getElem?_set_ne (Ne.symm hje)]

/-- The run while nodes are removed: those before `k` are done. -/
structure Cut (old : List Mask) (r : Run P) (k : Nat) (r' : Run P) : Prop where
  mask : r'.mask = r.mask
  lists : r'.mesh.nodesEdges = r.mesh.nodesEdges
  count : r'.mesh.nodes.length = r.mesh.nodes.length
  nodes : ∀ j, ¬ Gone old j → (r'.mesh.nodes[j]?).join = (r.mesh.nodes[j]?).join
  gone : ∀ j, j < k → Gone old j → (r'.mesh.nodes[j]?).join = none
  length : r'.mesh.edges.length = r.mesh.edges.length
  edges : ∀ i, edgeAt r'.mesh i = edgeAt r.mesh i ∨ (edgeAt r'.mesh i = noEdge ∧ ∃ n, Gone old n ∧ touches (edgeAt r.mesh i) n)

theorem removeNode_ok (S : Start m t old) {r : Run P} (h : Grown mid m t old r) {n : Nat} (hn : n < m.nodes.length) {r1 : Run P}
    (hc : Cut old r n r1) : ∃ r2, removeNode n r1 = .ok r2 ∧ Cut old r (n + 1) r2 := by
  unfold removeNode
  rw [hc.mask, h.mask_old S hn, Res.ok_bind]
  by_cases hg : Gone old n
  · have hcond : (maskAt old n).rank > Mask.unassigned.rank ∧ (maskAt old n).rank < Mask.corner.rank := by
      rcases hg with hg | hg <;> rw [hg] <;> simp [Mask.rank]
    rw [if_pos hcond]
    obtain ⟨l, l1, l2, l3, l4⟩ := h.list_lt S (a := n) (by unfold total; omega)
    have hfit := S.net.wf.edgesFit
    obtain ⟨extra, x1, x2⟩ := h.edges
    have hlen : m.edges.length ≤ r.mesh.edges.length := by rw [x1]; simp
    have hnl : n < r1.mesh.nodes.length := by
      rw [hc.count, h.nodes]
      simp only [List.length_append]
      omega
    obtain ⟨as, m', q1, q2, q3, q4, q5⟩ := deleteEdgesU_list l (m := r1.mesh) (fun e he => by
      have := (l4 e he).1
      rw [hc.length]
      exact ⟨by omega, by omega⟩)
    have hset : vset m'.nodes n none = .ok (m'.nodes.set n none) := vset_ok _ (by rw [q2]; exact hnl)
    have hdel : deleteNodeU r1.mesh n = .ok (as ++ [.deleteNode n r1.mesh.nodes[n]], { m' with nodes := m'.nodes.set n none }) := by
      unfold deleteNodeU
      rw [if_neg (by omega), vget_ok hnl, Res.ok_bind, hc.lists, vget_eq_ok.2 l1, Res.ok_bind, q1, Res.ok_bind]
      unfold setNode
      rw [hset, Res.ok_bind, Res.ok_bind]
    rw [hdel, Res.ok_bind]
    refine ⟨_, rfl, rfl, q3.trans hc.lists, ?_, ?_, ?_, ?_, ?_⟩
    · simp only [List.length_set, q2]; exact hc.count
    · intro j hj
      have hjn : n ≠ j := fun e => hj (e ▸ hg)
      simp only
      rw [List.getElem?_set_ne hjn, q2]
      exact hc.nodes j hj
    · intro j hj hgj
      simp only
      by_cases hjn : n = j
      · subst hjn
        rw [List.getElem?_set_self (by rw [q2]; exact hnl)]; rfl
      · rw [List.getElem?_set_ne hjn, q2]
        exact hc.gone j (by omega) hgj
    · simp only
      rw [q4, hc.length]
    · intro i
      have e1 : edgeAt ({ m' with nodes := m'.nodes.set n none } : Mesh P) i = edgeAt m' i := rfl
      rw [e1, q5 i]
      by_cases hi : i ∈ l
      · rw [if_pos hi]
        right
        refine ⟨rfl, n, hg, ?_⟩
        obtain ⟨w1, _, w3⟩ := l4 i hi
        rw [edgeAt_some (h.edge w1)]
        exact w3
      · rw [if_neg hi]
        exact hc.edges i
  · have hcond : ¬ ((maskAt old n).rank > Mask.unassigned.rank ∧ (maskAt old n).rank < Mask.corner.rank) := by
      unfold Gone at hg
      revert hg
      cases maskAt old n <;> simp [Mask.rank]
    rw [if_neg hcond]
    refine ⟨r1, rfl, hc.mask, hc.lists, hc.count, hc.nodes, ?_, hc.length, hc.edges⟩
    intro j hj hgj
    have : j ≠ n := fun e => hg (e ▸ hgj)
    exact hc.gone j (by omega) hgj

/-! ## The nodes of links -/

theorem position_some (S : Start m t old) {x : Label} (hx : x ∈ tasks m t.faces) : ∃ p, position mid m t x = some p := by
  have ho := ((mem_tasks S.net).1 hx).1
  cases x with
  | old n => exact absurd rfl (((mem_tasks S.net).1 hx).2 n)
  | inside f n =>
    obtain ⟨ns, h1, h2⟩ := ho
    obtain ⟨es, h3⟩ := S.net.face_nodes h1
    obtain ⟨e, _, _, he, _, ht, _⟩ := h3.two h2
    obtain ⟨p, hp⟩ := S.net.valid e n (h3.used he) ht
    have hc : f < t.centres.length := by rw [S.net.centres]; exact (List.getElem?_eq_some_iff.1 h1).1
    refine ⟨mid t.centres[f] p, ?_⟩
    simp only [position]
    rw [List.getElem?_eq_getElem hc, hp]; rfl
  | along e n =>
    obtain ⟨hu, _⟩ := S.net.rim ho.1
    obtain ⟨p, hp⟩ := S.net.valid e n hu ho.2
    obtain ⟨a, ha⟩ := S.net.valid e _ hu (Or.inl rfl)
    obtain ⟨b, hb⟩ := S.net.valid e _ hu (Or.inr rfl)
    refine ⟨mid (mid a b) p, ?_⟩
    simp only [position]
    rw [hp, ha, hb]; rfl

/-- The label is a new node, or an old one that has an edge. -/
def Named (m : Mesh P) (s : State) (x : Label) : Prop :=
  x ∈ tasks m s ∨ ∃ n e, x = .old n ∧ edgeAt m e ≠ noEdge ∧ touches (edgeAt m e) n

theorem Link.named (h : Net m t) {mask : Nat → Mask} {x y : Label} (hl : Link m t.faces mask x y) : Named m t.faces x ∧ Named m t.faces y := by
  have ins : ∀ {f e n}, Borders t.faces f e → touches (edgeAt m e) n → Named m t.faces (.inside f n) :=
    fun h1 h2 => Or.inl ((Owns.inside _ _ _ h1 h2).occurs h)
  have alo : ∀ {e n}, Rim t.faces e → touches (edgeAt m e) n → Named m t.faces (.along e n) :=
    fun h1 h2 => Or.inl ((mem_tasks h).2 ⟨⟨h1, h2⟩, fun _ hc => by cases hc⟩)
  cases hl with
  | side f e a b h1 h2 => exact ⟨ins h1 ((joins_touches h2).2 (Or.inl rfl)), ins h1 ((joins_touches h2).2 (Or.inr rfl))⟩
  | rim e a b h1 h2 => exact ⟨alo h1 ((joins_touches h2).2 (Or.inl rfl)), alo h1 ((joins_touches h2).2 (Or.inr rfl))⟩
  | across f g e n h1 h2 h3 h4 => exact ⟨ins h2 h4, ins h3 h4⟩
  | out f e n h1 h2 h3 => exact ⟨ins h2 h3, alo h1 h3⟩
  | past e e' n h1 h2 h3 h4 h5 h6 => exact ⟨alo h3 h5, alo h4 h6⟩
  | tip e n h1 h2 h3 => exact ⟨Or.inr ⟨n, e, rfl, (h.rim h2).1, h3⟩, alo h2 h3⟩
  | spoke f e n h1 h2 h3 h4 => exact ⟨Or.inr ⟨n, e, rfl, h.used h2, h3⟩, ins h2 h3⟩

theorem Grown.node_new (S : Start m t old) {r : Run P} (h : Grown mid m t old r) {x : Label} (hx : x ∈ tasks m t.faces) (ha : active old x = true) :
    r.mesh.nodes[num m t.faces old x]? = some (position mid m t x) := by
  have h1 := num_ge S hx ha
  have h2 := num_active S hx ha
  rw [h.nodes, List.getElem?_append_right h1, List.getElem?_map, h2]
  rfl

theorem Grown.node_old {r : Run P} (h : Grown mid m t old r) {n : Nat} (hn : n < m.nodes.length) : r.mesh.nodes[n]? = m.nodes[n]? := by
  rw [h.nodes, List.getElem?_append_left hn]

theorem Net.touch_lt (h : Net m t) {e n : Nat} (hu : edgeAt m e ≠ noEdge) (ht : touches (edgeAt m e) n) : n < m.nodes.length := by
  rcases h.wf.bounds e with hb | hb
  · exact absurd hb hu
  · rcases ht with rfl | rfl
    · exact hb.1
    · exact hb.2

/-- The node of a label is a valid node. -/
theorem Grown.node_valid (S : Start m t old) {r : Run P} (h : Grown mid m t old r) {x : Label} (hx : Named m t.faces x) :
    ∃ p, (r.mesh.nodes[num m t.faces old x]?).join = some p := by
  have hold : ∀ {n e}, edgeAt m e ≠ noEdge → touches (edgeAt m e) n → ∃ p, (r.mesh.nodes[n]?).join = some p := by
    intro n e hu ht
    obtain ⟨p, hp⟩ := S.net.valid e n hu ht
    exact ⟨p, by rw [h.node_old (S.net.touch_lt hu ht), hp]; rfl⟩
  rcases hx with hx | ⟨n, e, rfl, hu, ht⟩
  · by_cases ha : active old x = true
    · obtain ⟨p, hp⟩ := position_some S (mid := mid) hx
      exact ⟨p, by rw [h.node_new S hx ha, hp]; rfl⟩
    · rw [num_inactive (by simpa using ha)]
      have ho := ((mem_tasks S.net).1 hx).1
      cases x with
      | old n => exact absurd rfl (((mem_tasks S.net).1 hx).2 n)
      | inside f n =>
        obtain ⟨ns, h1, h2⟩ := ho
        obtain ⟨es, h3⟩ := S.net.face_nodes h1
        obtain ⟨e, _, _, he, _, ht, _⟩ := h3.two h2
        exact hold (h3.used he) ht
      | along e n => exact hold (S.net.rim ho.1).1 ho.2
  · exact hold hu ht

theorem Named.occurs (h : Net m t) {x : Label} (hx : Named m t.faces x) : Occurs m t.faces x := by
  rcases hx with hx | ⟨n, e, rfl, hu, ht⟩
  · exact ((mem_tasks h).1 hx).1
  · exact h.touch_lt hu ht

theorem edgeAt_mem {e : Nat} (h : edgeAt m e ≠ noEdge) : edgeAt m e ∈ m.edges := List.mem_of_getElem? (edges_some (used_lt h))

theorem mem_edgeAt {p : Edge} (h : p ∈ m.edges) : ∃ i, edgeAt m i = p := by
  obtain ⟨i, hi, rfl⟩ := List.mem_iff_getElem.1 h
  exact ⟨i, by simp [edgeAt, hi]⟩

theorem Net.mem_lt (h : Net m t) {p : Edge} (hp : p ∈ m.edges) : p = noEdge ∨ (p.1 < m.nodes.length ∧ p.2 < m.nodes.length) := by
  obtain ⟨i, rfl⟩ := mem_edgeAt hp
  exact h.wf.bounds i

theorem seg_some {nodes : List (Option P)} {p : Edge} : (seg nodes p).isSome ↔ (∃ a, (nodes[p.1]?).join = some a) ∧ ∃ b, (nodes[p.2]?).join = some b := by
  unfold seg
  cases h1 : (nodes[p.1]?).join <;> cases h2 : (nodes[p.2]?).join <;> simp

/-- **All of it**, for a mask of the nodes that is known. -/
theorem compute_ok (S : Start m t old) {order : Nat → List Nat → List Nat} {sel : Nat → Bool}
    (hmask : initialMask m t sel = .ok (old ++ List.replicate (9 * m.nodes.length) .unassigned))
    (htwo : ∀ n, maskAt old n = .boundary → ∃ a b, a ≠ b ∧ ∀ e, e ∈ listAt m n ∧ Rim t.faces e ↔ e = a ∨ e = b) :
    ∃ as m', compute order mid m t sel = .ok (as, m') ∧ Refined mid m t old m' := by
  obtain ⟨r1, a1, a2⟩ := computeNewNodes_ok (mid := mid) S rfl []
  obtain ⟨r2, b1, b2, b3⟩ := connectNewNodes_ok S (a2.grown S) htwo
  obtain ⟨r3, c1, c2⟩ := forRange_inv (f := removeNode) (fun i (r : Run P) => Cut old r2 i r) (Nat.zero_le m.nodes.length) (s := r2)
    ⟨rfl, rfl, rfl, fun _ _ => rfl, fun j hj => absurd hj (Nat.not_lt_zero _), rfl, fun _ => Or.inl rfl⟩
    (fun n r _ hn h => removeNode_ok S b2 hn h)
  have hfits := S.fits
  have hcount : r3.mesh.nodes.length = total m t.faces old := by rw [c2.count, b2.nodes]; simp [total]
  have hn3 : r3.mesh.nodes.length ≤ missing := by rw [hcount]; exact hfits
  obtain ⟨extra, x1, x2⟩ := b2.edges
  -- the edges before the nodes are removed
  have hmem : ∀ p, p ∈ r2.mesh.edges ↔ p ∈ m.edges ∨ p ∈ extra := fun p => by rw [x1]; simp
  have hbound : ∀ p ∈ r2.mesh.edges, p = noEdge ∨ (p.1 < total m t.faces old ∧ p.2 < total m t.faces old) := by
    intro p hp
    rcases (hmem p).1 hp with hp | hp
    · rcases S.net.mem_lt hp with q | q
      · exact Or.inl q
      · exact Or.inr ⟨by unfold total; omega, by unfold total; omega⟩
    · exact Or.inr ⟨(x2 p hp).2.1, (x2 p hp).2.2.1⟩
  have hin : inBounds r3.mesh = true := by
    apply inBounds_of
    intro p hp
    obtain ⟨i, rfl⟩ := mem_edgeAt hp
    rcases c2.edges i with q | ⟨q, _⟩
    · rw [q]
      by_cases hu : edgeAt r2.mesh i = noEdge
      · rw [hu]; exact Or.inl rfl
      · rcases hbound _ (edgeAt_mem hu) with w | w
        · exact absurd w hu
        · rw [hcount]; exact Or.inr (Or.inr w)
    · rw [q]; exact Or.inl rfl
  obtain ⟨m', d1, d2, d3, d4⟩ := Regions.administrate_content order hn3 hin
  obtain ⟨as, e1⟩ : ∃ as, Regions.administrateU order r3.mesh = .ok (as, m') := by
    rcases Regions.administrateU_spec order r3.mesh with ⟨_, c⟩ | ⟨cs, m1, c1, c2, _⟩
    · rw [d1] at c; cases c
    · rw [d1] at c2
      obtain rfl := Res.ok.inj c2
      exact ⟨cs, c1⟩
  have hadj : ∀ i j, Adj m' i j ↔ ¬ Gone old i ∧ ¬ Gone old j ∧ (Adj m i j ∨ (i ≠ j ∧ ∃ x y,
      (Link m t.faces (maskAt old) x y ∨ Link m t.faces (maskAt old) y x) ∧ num m t.faces old x = i ∧ num m t.faces old y = j)) := by
    intro i j
    constructor
    · rintro ⟨hi, hj, k, hk⟩
      rw [d4 k] at hk
      have hnone : ¬ joins noEdge i j := by
        rintro (hc | hc) <;> rw [Prod.ext_iff] at hc
        · exact hi hc.1.symm
        · exact hj hc.1.symm
      split at hk
      · rename_i hseg
        rcases c2.edges k with q | ⟨q, _⟩
        swap
        · rw [q] at hk; exact absurd hk hnone
        rw [q] at hk hseg
        rw [seg_some] at hseg
        have hlt : ∀ n, (∃ a, (r3.mesh.nodes[n]?).join = some a) → ¬ Gone old n := by
          rintro n ⟨a, ha⟩ hg
          have : n < m.nodes.length := by
            rw [← S.length]
            by_contra hc
            have hnone : old[n]? = none := List.getElem?_eq_none (by omega)
            unfold Gone maskAt at hg
            rw [hnone] at hg
            simp at hg
          rw [c2.gone n this hg] at ha
          cases ha
        have g1 := hlt _ hseg.1
        have g2 := hlt _ hseg.2
        have hu : edgeAt r2.mesh k ≠ noEdge := fun hc => hnone (hc ▸ hk)
        have hcase : joins (edgeAt r2.mesh k) i j → (Adj m i j ∨ (i ≠ j ∧ ∃ x y,
            (Link m t.faces (maskAt old) x y ∨ Link m t.faces (maskAt old) y x) ∧ num m t.faces old x = i ∧ num m t.faces old y = j)) := by
          intro hk
          rcases (hmem _).1 (edgeAt_mem hu) with hp | hp
          · obtain ⟨k', hk'⟩ := mem_edgeAt hp
            exact Or.inl ⟨hi, hj, k', by rw [hk']; exact hk⟩
          · right
            obtain ⟨p1, p2, p3, p4⟩ := x2 _ hp
            rcases p4 with p4 | ⟨x, y, p5, p6, p7⟩
            · exact absurd (Or.inr p4) g1
            · rcases hk with hk | hk
              · rw [hk] at p1 p6 p7
                exact ⟨p1, x, y, p5, p6, p7⟩
              · rw [hk] at p1 p6 p7
                exact ⟨Ne.symm p1, y, x, p5.symm, p7, p6⟩
        rcases hk with hk | hk
        · rw [hk] at g1 g2
          exact ⟨g1, g2, hcase (Or.inl hk)⟩
        · rw [hk] at g1 g2
          exact ⟨g2, g1, hcase (Or.inr hk)⟩
      · exact absurd hk hnone
    · rintro ⟨g1, g2, hl⟩
      -- the edge is there before the nodes are removed, with two valid ends
      have key : i ≠ missing ∧ j ≠ missing ∧ (∃ k, joins (edgeAt r2.mesh k) i j) ∧ (∃ a, (r2.mesh.nodes[i]?).join = some a) ∧
          ∃ b, (r2.mesh.nodes[j]?).join = some b := by
        rcases hl with ⟨hi, hj, k, hk⟩ | ⟨hne, x, y, hl, rfl, rfl⟩
        · have hu : edgeAt m k ≠ noEdge := by
            intro hc
            rw [hc] at hk
            rcases hk with hc | hc <;> rw [Prod.ext_iff] at hc
            · exact hi hc.1.symm
            · exact hj hc.1.symm
          have hold : ∀ {n}, touches (edgeAt m k) n → ∃ p, (r2.mesh.nodes[n]?).join = some p := by
            intro n ht
            obtain ⟨p, hp⟩ := S.net.valid k n hu ht
            exact ⟨p, by rw [b2.node_old (S.net.touch_lt hu ht), hp]; rfl⟩
          refine ⟨hi, hj, ⟨k, ?_⟩, hold ((joins_touches hk).2 (Or.inl rfl)), hold ((joins_touches hk).2 (Or.inr rfl))⟩
          rw [edgeAt_some (b2.edge (used_lt hu))]; exact hk
        · have hnm : Named m t.faces x ∧ Named m t.faces y := by
            rcases hl with hl | hl
            · exact hl.named S.net
            · exact (hl.named S.net).symm
          have hhas : Has r2 (num m t.faces old x) (num m t.faces old y) := by
            rcases hl with hl | hl
            · exact b3 x y hl hne
            · exact (b3 y x hl (Ne.symm hne)).symm
          refine ⟨num_ne S (hnm.1.occurs S.net), num_ne S (hnm.2.occurs S.net), ?_, b2.node_valid S hnm.1, b2.node_valid S hnm.2⟩
          rcases hhas with hh | hh
          · obtain ⟨k, hk⟩ := mem_edgeAt hh
            exact ⟨k, Or.inl hk⟩
          · obtain ⟨k, hk⟩ := mem_edgeAt hh
            exact ⟨k, Or.inr hk⟩
      obtain ⟨hi, hj, ⟨k, hk⟩, hvi, hvj⟩ := key
      refine ⟨hi, hj, k, ?_⟩
      have hsame : edgeAt r3.mesh k = edgeAt r2.mesh k := by
        rcases c2.edges k with q | ⟨_, n, hg, ht⟩
        · exact q
        · exfalso
          rcases (joins_touches hk).1 ht with rfl | rfl
          · exact g1 hg
          · exact g2 hg
      rw [d4 k, hsame]
      have hseg : (seg r3.mesh.nodes (edgeAt r2.mesh k)).isSome := by
        rw [seg_some]
        have v1 : ∃ a, (r3.mesh.nodes[i]?).join = some a := by rw [c2.nodes i g1]; exact hvi
        have v2 : ∃ a, (r3.mesh.nodes[j]?).join = some a := by rw [c2.nodes j g2]; exact hvj
        rcases hk with hk | hk <;> rw [hk]
        · exact ⟨v1, v2⟩
        · exact ⟨v2, v1⟩
      rw [if_pos hseg]
      exact hk
  have hused : ∀ i j, Adj m' i j → connected r3.mesh i = true := by
    rintro i j ⟨hi, hj, k, hk⟩
    rw [d4 k] at hk
    have hnone : ¬ joins noEdge i j := by
      rintro (hc | hc) <;> rw [Prod.ext_iff] at hc
      · exact hi hc.1.symm
      · exact hj hc.1.symm
    split at hk
    · rename_i hseg
      rw [connected_iff hn3]
      have hu : edgeAt r3.mesh k ≠ noEdge := fun hc => hnone (hc ▸ hk)
      refine ⟨_, edgeAt_mem hu, hseg, ?_⟩
      exact (joins_touches hk).2 (Or.inl rfl)
    · exact absurd hk hnone
  refine ⟨r3.acts ++ as, m', ?_, ?_, hadj, ?_, ?_, ?_⟩
  · unfold compute
    rw [hmask, Res.ok_bind, a1, Res.ok_bind, b1, Res.ok_bind, c1, Res.ok_bind, e1, Res.ok_bind]
  · rw [d2, connectedNodes_length, hcount]
  · intro i j h hi
    rw [d2, connectedNodes_get, hused i j h, if_pos rfl, c2.nodes i ((hadj i j).1 h).1, b2.node_old hi]
  · intro x j hx ha h
    rw [d2, connectedNodes_get, hused _ j h, if_pos rfl, c2.nodes _ ((hadj _ j).1 h).1, b2.node_new S hx ha]
    rfl
  · intro i hi
    rw [d2, connectedNodes_get]
    by_cases hc : connected r3.mesh i = true
    · exfalso
      obtain ⟨p, hp, hseg, ht⟩ := (connected_iff hn3 i).1 hc
      obtain ⟨k, rfl⟩ := mem_edgeAt hp
      have hk := d4 k
      rw [if_pos hseg] at hk
      have hu : edgeAt r3.mesh k ≠ noEdge := by
        intro hq
        rw [hq, seg_some] at hseg
        obtain ⟨a, ha⟩ := hseg.1
        have : r3.mesh.nodes[(noEdge : Edge).1]? = none := List.getElem?_eq_none hn3
        rw [this] at ha
        cases ha
      have hb : (edgeAt r3.mesh k).1 < total m t.faces old ∧ (edgeAt r3.mesh k).2 < total m t.faces old := by
        rcases c2.edges k with q | ⟨q, _⟩
        · rw [q] at hu ⊢
          exact (hbound _ (edgeAt_mem hu)).resolve_left hu
        · exact absurd q hu
      have hf : total m t.faces old ≤ missing := hfits
      rcases ht with ht | ht
      · exact hi (edgeAt r3.mesh k).2 ⟨by omega, by omega, k, Or.inl (by rw [hk, ← ht])⟩
      · exact hi (edgeAt r3.mesh k).1 ⟨by omega, by omega, k, Or.inr (by rw [hk, ← ht])⟩
    · rw [if_neg hc]

end Verif.Casulli
