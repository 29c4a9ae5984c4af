import Verif.Casulli.NodeLemmas
import Verif.Casulli.DiagonalLemmas
/-!
# Joining nodes
-/
namespace Verif.Casulli
open Verif.Mesh Verif.Faces
variable {P : Type} {mid : P → P → P} {m : Mesh P} {t : Tables P} {old : List Mask}

/-- An edge that may be added: it joins what has to be joined, or starts at a node of the boundary that is removed. -/
def Due (m : Mesh P) (t : Tables P) (old : List Mask) (p : Edge) : Prop :=
  p.1 ≠ p.2 ∧ p.1 < total m t.faces old ∧ p.2 < total m t.faces old ∧
    (maskAt old p.1 = .boundary ∨ ∃ x y, (Link m t.faces (maskAt old) x y ∨ Link m t.faces (maskAt old) y x) ∧
      num m t.faces old x = p.1 ∧ num m t.faces old y = p.2)

/-- The run while edges are added. -/
structure Grown (mid : P → P → P) (m : Mesh P) (t : Tables P) (old : List Mask) (r : Run P) : Prop where
  nodes : r.mesh.nodes = m.nodes ++ ((tasks m t.faces).filter (active old)).map (position mid m t)
  lists : r.mesh.nodesEdges = m.nodesEdges ++ List.replicate ((tasks m t.faces).filter (active old)).length []
  counts : r.mesh.numEdges = m.numEdges ++ List.replicate ((tasks m t.faces).filter (active old)).length 0
  mask : r.mask = old ++ ((tasks m t.faces).filter (active old)).map kind ++
    List.replicate (9 * m.nodes.length - ((tasks m t.faces).filter (active old)).length) .unassigned
  table : TableIs m t r.table (fun x _ => num m t.faces old x)
  edges : ∃ extra, r.mesh.edges = m.edges ++ extra ∧ ∀ p ∈ extra, Due m t old p

/-- The two nodes are joined. -/
def Has (r : Run P) (a b : Nat) : Prop := (a, b) ∈ r.mesh.edges ∨ (b, a) ∈ r.mesh.edges

theorem Has.symm {r : Run P} {a b : Nat} (h : Has r a b) : Has r b a := Or.symm h

theorem Has.mono {r r' : Run P} {a b : Nat} (h : Has r a b) (hp : r.mesh.edges <+: r'.mesh.edges) : Has r' a b := by
  rcases h with h | h
  · exact Or.inl (hp.subset h)
  · exact Or.inr (hp.subset h)

theorem Owns.occurs (h : Net m t) {x : Label} {e k : Nat} (ho : Owns m t.faces x e k) : x ∈ tasks m t.faces := by
  rw [mem_tasks h]
  cases ho with
  | inside f e v h1 h2 =>
    obtain ⟨ns, es, g1, g2⟩ := h.face_borders h1
    exact ⟨⟨ns, g1.nodes, g1.corner g2 h2⟩, fun _ hc => by cases hc⟩
  | along f e v h1 h2 h3 => exact ⟨⟨h1, h3⟩, fun _ hc => by cases hc⟩

theorem Made.grown (S : Start m t old) {r : Run P} (h : Made mid m t old (tasks m t.faces) r) : Grown mid m t old r :=
  ⟨h.nodes, h.lists, h.counts, h.mask, h.table.congr (fun x e k ho => (if_pos (ho.occurs S.net)).symm), [], by rw [h.edges]; simp, by simp⟩

section
variable {r : Run P} (S : Start m t old) (h : Grown mid m t old r)
include S h

omit S in
theorem Grown.edge {e : Nat} (he : e < m.edges.length) : r.mesh.edges[e]? = some (edgeAt m e) := by
  obtain ⟨extra, h1, _⟩ := h.edges
  rw [h1, List.getElem?_append_left he, edges_some he]

omit S in
theorem Grown.getEdge {e : Nat} (he : e < m.edges.length) : getEdge r.mesh e = .ok (edgeAt m e) := by
  unfold Casulli.getEdge; rw [h.edge he]

theorem Grown.numEdges_eq : r.mesh.numEdges = r.mesh.nodesEdges.map List.length := by
  rw [h.counts, h.lists, S.net.wf.counts, List.map_append, List.map_replicate]; rfl

theorem Grown.list_lt {a : Nat} (ha : a < total m t.faces old) : ∃ l, r.mesh.nodesEdges[a]? = some l ∧ r.mesh.numEdges[a]? = some l.length ∧
    (a < m.nodes.length → l = listAt m a) ∧ ∀ i ∈ l, i < m.edges.length ∧ edgeAt m i ≠ noEdge ∧ touches (edgeAt m i) a := by
  have hl := S.net.wf.lists
  have hlen : r.mesh.nodesEdges.length = total m t.faces old := by rw [h.lists, List.length_append, List.length_replicate, hl]; rfl
  have ha' : a < r.mesh.nodesEdges.length := by omega
  obtain ⟨l, hg⟩ : ∃ l, r.mesh.nodesEdges[a]? = some l := ⟨_, List.getElem?_eq_getElem ha'⟩
  refine ⟨l, hg, ?_, ?_, ?_⟩
  · rw [h.numEdges_eq S, List.getElem?_map, hg]; rfl
  · intro hn
    have : r.mesh.nodesEdges[a]? = m.nodesEdges[a]? := by rw [h.lists, List.getElem?_append_left (by omega)]
    rw [hg] at this
    unfold listAt
    rw [← this]; rfl
  · intro i hi
    by_cases hn : a < m.nodes.length
    · rw [h.lists, List.getElem?_append_left (by omega)] at hg
      have hmem : i ∈ listAt m a := by unfold listAt; rw [hg]; exact hi
      obtain ⟨q1, q2⟩ := S.net.wf.listed a i hmem
      have q3 := S.net.fresh a i hmem
      exact ⟨q1, q3, q2.resolve_left q3⟩
    · rw [h.lists, List.getElem?_append_right (by omega)] at hg
      have := List.mem_of_getElem? hg
      rw [List.mem_replicate] at this
      rw [this.2] at hi
      simp at hi

theorem findLoop_ok {a b : Nat} : ∀ (l : List Nat), (∀ i ∈ l, i < m.edges.length ∧ edgeAt m i ≠ noEdge ∧ touches (edgeAt m i) a) →
    ∃ i, findEdgeLoop r.mesh.edges a b l = .ok i ∧ (i = missing ∨ (i ≠ missing ∧ Has r a b)) := by
  intro l
  induction l with
  | nil => intro _; exact ⟨missing, rfl, Or.inl rfl⟩
  | cons i l ih =>
    intro hl
    obtain ⟨q1, q2, q3⟩ := hl i (by simp)
    rw [findEdgeLoop, vget_eq_ok.2 (h.edge q1), Res.ok_bind]
    have hfit := S.net.wf.edgesFit
    split
    · rename_i ho
      refine ⟨i, rfl, Or.inr ⟨by omega, ?_⟩⟩
      have hmem : edgeAt m i ∈ r.mesh.edges := List.mem_of_getElem? (h.edge q1)
      unfold otherNode at ho
      split at ho
      · rename_i h1
        left; rw [h1, ← ho]; exact hmem
      · rename_i h1
        rcases q3 with q3 | q3
        · exact absurd q3.symm h1
        · right; rw [← q3, ← ho]; exact hmem
    · exact ih (fun j hj => hl j (by simp [hj]))

/-- Joining two nodes. -/
theorem connect_ok {a b : Nat} (hd : Due m t old (a, b)) : ∃ r', connect a b r = .ok r' ∧ Grown mid m t old r' ∧ r.mesh.edges <+: r'.mesh.edges ∧
    Has r' a b := by
  obtain ⟨d1, d2, d3, d4⟩ := hd
  have hfits := S.fits
  have e1 : a ≠ missing := by unfold total at d2; simp only at d2; omega
  have e2 : b ≠ missing := by unfold total at d3; simp only at d3; omega
  obtain ⟨l, l1, l2, _, l4⟩ := h.list_lt S d2
  obtain ⟨i, q1, q2⟩ := findLoop_ok S h (b := b) l l4
  have hfind : findEdge r.mesh a b = .ok i := by
    unfold findEdge
    rw [if_neg (by simp [e1, e2]), vget_eq_ok.2 l2, Res.ok_bind, vget_eq_ok.2 l1, Res.ok_bind, if_neg (Nat.lt_irrefl _), List.take_length, q1]
  unfold connect connectNodesU
  rw [hfind, Res.ok_bind]
  rcases q2 with rfl | ⟨q2, q3⟩
  · rw [if_neg (by simp), Res.ok_bind]
    refine ⟨_, rfl, ?_, List.prefix_append _ _, Or.inl (by simp)⟩
    obtain ⟨extra, x1, x2⟩ := h.edges
    refine ⟨h.nodes, h.lists, h.counts, h.mask, h.table, extra ++ [(a, b)], by simp [x1], ?_⟩
    intro p hp
    rcases List.mem_append.1 hp with hp | hp
    · exact x2 p hp
    · rw [List.mem_singleton] at hp
      rw [hp]; exact ⟨d1, d2, d3, d4⟩
  · rw [if_pos q2, Res.ok_bind]
    refine ⟨_, rfl, ⟨h.nodes, h.lists, h.counts, h.mask, h.table, h.edges⟩, List.prefix_rfl, q3⟩

theorem connectNew_ok {a b : Nat} (ha : a ≠ missing) (hb : b ≠ missing) (hd : a ≠ b → Due m t old (a, b)) :
    ∃ r', connectNew a b r = .ok r' ∧ Grown mid m t old r' ∧ r.mesh.edges <+: r'.mesh.edges ∧ (a ≠ b → Has r' a b) := by
  unfold connectNew
  by_cases hab : a = b
  · rw [if_neg (by simp [hab])]
    exact ⟨r, rfl, h, List.prefix_rfl, fun hc => absurd hab hc⟩
  · rw [if_pos ⟨ha, hb, hab⟩]
    obtain ⟨r', q1, q2, q3, q4⟩ := connect_ok S h (hd hab)
    exact ⟨r', q1, q2, q3, fun _ => q4⟩

end

/-! ## The places of an edge -/

/-- The owner of a place: the new node of a face or of the edge, at one of the ends. -/
theorem Owns.cases {s : State} {x : Label} {e k : Nat} (h : Owns m s x e k) :
    (∃ f v, x = .inside f v ∧ Borders s f e ∧ touches (edgeAt m e) v ∧ k = endOf m e v + 2 * (1 - sideOf m s f e)) ∨
    (∃ f v, x = .along e v ∧ Rim s e ∧ Borders s f e ∧ touches (edgeAt m e) v ∧ k = endOf m e v + 2 * sideOf m s f e) := by
  cases h with
  | inside f e v h1 h2 => exact Or.inl ⟨f, v, rfl, h1, h2, rfl⟩
  | along f e v h1 h2 h3 => exact Or.inr ⟨f, v, rfl, h1, h2, h3, rfl⟩

theorem end_exists (h : Net m t) {e i : Nat} (hu : edgeAt m e ≠ noEdge) (hi : i < 2) : ∃ v, touches (edgeAt m e) v ∧ endOf m e v = i := by
  have : i = 0 ∨ i = 1 := by omega
  rcases this with rfl | rfl
  · exact ⟨(edgeAt m e).1, Or.inl rfl, by unfold endOf; rw [if_pos rfl]⟩
  · exact ⟨(edgeAt m e).2, Or.inr rfl, by unfold endOf; rw [if_neg (h.noLoop e hu)]⟩

/-- Every place of an edge that is in use has an owner. -/
theorem Owns.total (h : Net m t) {e k : Nat} (hu : edgeAt m e ≠ noEdge) (hk : k < 4) : ∃ x, Owns m t.faces x e k := by
  obtain ⟨v, hv, hend⟩ := end_exists h hu (i := k % 2) (Nat.mod_lt _ (by omega))
  by_cases hr : Rim t.faces e
  · obtain ⟨_, f, hb, _⟩ := h.rim hr
    have hs := sideOf_lt m t.faces f e
    by_cases hks : k / 2 = sideOf m t.faces f e
    · refine ⟨.along e v, ?_⟩
      have := Owns.along (m := m) (s := t.faces) f e v hr hb hv
      have hkk : endOf m e v + 2 * sideOf m t.faces f e = k := by omega
      rwa [hkk] at this
    · refine ⟨.inside f v, ?_⟩
      have := Owns.inside (m := m) (s := t.faces) f e v hb hv
      have hkk : endOf m e v + 2 * (1 - sideOf m t.faces f e) = k := by omega
      rwa [hkk] at this
  · obtain ⟨_, f, g, hfg, hf, hg, _⟩ := h.inner hu hr
    have hs := sideOf_lt m t.faces f e
    have ho := sideOf_opposite h hfg hf hg
    have hs' := sideOf_lt m t.faces g e
    by_cases hks : k / 2 = 1 - sideOf m t.faces f e
    · refine ⟨.inside f v, ?_⟩
      have := Owns.inside (m := m) (s := t.faces) f e v hf hv
      have hkk : endOf m e v + 2 * (1 - sideOf m t.faces f e) = k := by omega
      rwa [hkk] at this
    · refine ⟨.inside g v, ?_⟩
      have := Owns.inside (m := m) (s := t.faces) g e v hg hv
      have hkk : endOf m e v + 2 * (1 - sideOf m t.faces g e) = k := by omega
      rwa [hkk] at this

/-- The owner of a place at an end of the edge belongs to the node there. -/
theorem Owns.at_end (h : Net m t) {x : Label} {e k v : Nat} (ho : Owns m t.faces x e k) (hv : touches (edgeAt m e) v) (hk : k % 2 = endOf m e v) :
    (∃ f, x = .inside f v ∧ Borders t.faces f e) ∨ (x = .along e v ∧ Rim t.faces e) := by
  have hu := ho.used h
  rcases ho.cases with ⟨f, w, rfl, h1, h2, h3⟩ | ⟨f, w, rfl, h1, h2, h3, h4⟩
  · have := endOf_lt m e w
    obtain rfl := endOf_inj h hu h2 hv (by omega)
    exact Or.inl ⟨f, rfl, h1⟩
  · have := endOf_lt m e w
    obtain rfl := endOf_inj h hu h3 hv (by omega)
    exact Or.inr ⟨rfl, h1⟩

theorem ends_join {e v w : Nat} (hv : touches (edgeAt m e) v) (hw : touches (edgeAt m e) w)
    (hne : endOf m e v ≠ endOf m e w) : joins (edgeAt m e) v w := by
  have hvw : v ≠ w := fun hc => hne (by rw [hc])
  unfold joins
  rcases hv with rfl | rfl <;> rcases hw with rfl | rfl
  · exact absurd rfl hvw
  · exact Or.inl rfl
  · exact Or.inr rfl
  · exact absurd rfl hvw

/-- Along the edge. -/
theorem link_row (h : Net m t) {mask : Nat → Mask} {x y : Label} {e k k' : Nat} (hx : Owns m t.faces x e k) (hy : Owns m t.faces y e k')
    (h1 : k / 2 = k' / 2) (h2 : k % 2 ≠ k' % 2) : Link m t.faces mask x y := by
  have hu := hx.used h
  rcases hx.cases with ⟨f, v, rfl, a1, a2, a3⟩ | ⟨f, v, rfl, a1, a2, a3, a4⟩
  · rcases hy.cases with ⟨g, w, rfl, b1, b2, b3⟩ | ⟨g, w, rfl, b1, b2, b3, b4⟩
    · have := endOf_lt m e v
      have := endOf_lt m e w
      have := sideOf_lt m t.faces f e
      have := sideOf_lt m t.faces g e
      have hfg : f = g := by
        by_contra hne
        have := sideOf_opposite h hne a1 b1
        omega
      subst hfg
      exact Link.side f e v w a1 (ends_join a2 b2 (by omega))
    · exfalso
      obtain ⟨_, f0, _, q⟩ := h.rim b1
      have : sideOf m t.faces f e = sideOf m t.faces g e := by rw [q f a1, q g b2]
      have := endOf_lt m e v
      have := endOf_lt m e w
      have := sideOf_lt m t.faces f e
      omega
  · rcases hy.cases with ⟨g, w, rfl, b1, b2, b3⟩ | ⟨g, w, rfl, b1, b2, b3, b4⟩
    · exfalso
      obtain ⟨_, f0, _, q⟩ := h.rim a1
      have : sideOf m t.faces f e = sideOf m t.faces g e := by rw [q f a2, q g b1]
      have := endOf_lt m e v
      have := endOf_lt m e w
      have := sideOf_lt m t.faces f e
      omega
    · have := endOf_lt m e v
      have := endOf_lt m e w
      obtain ⟨_, f0, _, q⟩ := h.rim a1
      have : sideOf m t.faces f e = sideOf m t.faces g e := by rw [q f a2, q g b2]
      exact Link.rim e v w a1 (ends_join a3 b3 (by omega))

/-- Across the edge. -/
theorem link_column (h : Net m t) {mask : Nat → Mask} {x y : Label} {e k k' : Nat} (hx : Owns m t.faces x e k) (hy : Owns m t.faces y e k')
    (h1 : k / 2 ≠ k' / 2) (h2 : k % 2 = k' % 2) : Link m t.faces mask x y ∨ Link m t.faces mask y x := by
  have hu := hx.used h
  rcases hx.cases with ⟨f, v, rfl, a1, a2, a3⟩ | ⟨f, v, rfl, a1, a2, a3, a4⟩
  · have := endOf_lt m e v
    rcases hy.at_end h a2 (by omega) with ⟨g, rfl, b1⟩ | ⟨rfl, b1⟩
    · left
      refine Link.across f g e v ?_ a1 b1 a2
      rintro rfl
      have := hx.fixed h hy
      omega
    · exact Or.inl (Link.out f e v b1 a1 a2)
  · have := endOf_lt m e v
    rcases hy.at_end h a3 (by omega) with ⟨g, rfl, b1⟩ | ⟨rfl, b1⟩
    · exact Or.inr (Link.out g e v a1 b1 a3)
    · have := hx.fixed h hy
      omega

theorem due_link (S : Start m t old) {x y : Label} (hx : x ∈ tasks m t.faces) (hy : y ∈ tasks m t.faces)
    (hl : Link m t.faces (maskAt old) x y ∨ Link m t.faces (maskAt old) y x) (hne : num m t.faces old x ≠ num m t.faces old y) :
    Due m t old (num m t.faces old x, num m t.faces old y) :=
  ⟨hne, num_lt S ((mem_tasks S.net).1 hx).1, num_lt S ((mem_tasks S.net).1 hy).1, Or.inr ⟨x, y, hl, rfl, rfl⟩⟩

theorem four_places : ∀ k : Nat, k < 4 → ∀ k' : Nat, k' < 4 → k ≠ k' → (k / 2 = k' / 2 ∨ k % 2 = k' % 2) →
    (k = 0 ∧ k' = 1) ∨ (k = 1 ∧ k' = 0) ∨ (k = 2 ∧ k' = 3) ∨ (k = 3 ∧ k' = 2) ∨ (k = 0 ∧ k' = 2) ∨ (k = 2 ∧ k' = 0) ∨ (k = 1 ∧ k' = 3) ∨
      (k = 3 ∧ k' = 1) := by
  intro k hk k' hk' h1 h2
  have a : k = 0 ∨ k = 1 ∨ k = 2 ∨ k = 3 := by omega
  have b : k' = 0 ∨ k' = 1 ∨ k' = 2 ∨ k' = 3 := by omega
  rcases a with rfl | rfl | rfl | rfl <;> rcases b with rfl | rfl | rfl | rfl <;> simp_all

/-- What has been joined after the round of an edge. -/
def DoneEdge (m : Mesh P) (t : Tables P) (old : List Mask) (e : Nat) (r : Run P) : Prop :=
  ∀ x y k k', Owns m t.faces x e k → Owns m t.faces y e k' → (k / 2 = k' / 2 ∨ k % 2 = k' % 2) → num m t.faces old x ≠ num m t.faces old y →
    Has r (num m t.faces old x) (num m t.faces old y)

theorem DoneEdge.mono {e : Nat} {r r' : Run P} (h : DoneEdge m t old e r) (hp : r.mesh.edges <+: r'.mesh.edges) : DoneEdge m t old e r' :=
  fun x y k k' h1 h2 h3 h4 => (h x y k k' h1 h2 h3 h4).mono hp

theorem connectEdge_ok (S : Start m t old) {r : Run P} (h : Grown mid m t old r) {e : Nat} (he : e < m.edges.length) :
    ∃ r', connectEdge e r = .ok r' ∧ Grown mid m t old r' ∧ r.mesh.edges <+: r'.mesh.edges ∧ DoneEdge m t old e r' := by
  by_cases hu : edgeAt m e = noEdge
  · obtain ⟨row, h1, h2, h3, h4⟩ := h.table.rows e he
    obtain rfl := h4 hu
    refine ⟨r, ?_, h, List.prefix_rfl, fun x y k k' ho => absurd hu (ho.used S.net)⟩
    have hs : ∀ k, k < 4 → slot r.table e k = .ok missing := by
      intro k hk
      unfold slot
      rw [vget_eq_ok.2 h1, Res.ok_bind]
      have : k = 0 ∨ k = 1 ∨ k = 2 ∨ k = 3 := by omega
      rcases this with rfl | rfl | rfl | rfl <;> rfl
    have hc : ∀ b, connectNew missing b r = .ok r := fun b => by unfold connectNew; rw [if_neg (by simp)]
    unfold connectEdge
    rw [hs 0 (by omega), Res.ok_bind, hs 1 (by omega), Res.ok_bind, hs 2 (by omega), Res.ok_bind, hs 3 (by omega), Res.ok_bind, hc, Res.ok_bind, hc,
      Res.ok_bind, hc, Res.ok_bind, hc]
  · obtain ⟨x0, o0⟩ := Owns.total S.net hu (k := 0) (by omega)
    obtain ⟨x1, o1⟩ := Owns.total S.net hu (k := 1) (by omega)
    obtain ⟨x2, o2⟩ := Owns.total S.net hu (k := 2) (by omega)
    obtain ⟨x3, o3⟩ := Owns.total S.net hu (k := 3) (by omega)
    have t0 := o0.occurs S.net
    have t1 := o1.occurs S.net
    have t2 := o2.occurs S.net
    have t3 := o3.occurs S.net
    have n0 := num_ne S ((mem_tasks S.net).1 t0).1
    have n1 := num_ne S ((mem_tasks S.net).1 t1).1
    have n2 := num_ne S ((mem_tasks S.net).1 t2).1
    have n3 := num_ne S ((mem_tasks S.net).1 t3).1
    obtain ⟨r1, a1, a2, a3, a4⟩ := connectNew_ok S h n0 n1 (fun hne => due_link S t0 t1 (Or.inl (link_row S.net o0 o1 (by omega) (by omega))) hne)
    obtain ⟨r2, b1, b2, b3, b4⟩ := connectNew_ok S a2 n2 n3 (fun hne => due_link S t2 t3 (Or.inl (link_row S.net o2 o3 (by omega) (by omega))) hne)
    obtain ⟨r3, c1, c2, c3, c4⟩ := connectNew_ok S b2 n0 n2 (fun hne => due_link S t0 t2 (link_column S.net o0 o2 (by omega) (by omega)) hne)
    obtain ⟨r4, d1, d2, d3, d4⟩ := connectNew_ok S c2 n1 n3 (fun hne => due_link S t1 t3 (link_column S.net o1 o3 (by omega) (by omega)) hne)
    refine ⟨r4, ?_, d2, a3.trans (b3.trans (c3.trans d3)), ?_⟩
    · unfold connectEdge
      rw [h.table.slot S.net o0, Res.ok_bind, h.table.slot S.net o1, Res.ok_bind, h.table.slot S.net o2, Res.ok_bind, h.table.slot S.net o3, Res.ok_bind,
        a1, Res.ok_bind, b1, Res.ok_bind, c1, Res.ok_bind, d1]
    · intro x y k k' hx hy hk hne
      have k4 := hx.lt
      have k4' := hy.lt
      have A := fun hne => (a4 hne).mono (b3.trans (c3.trans d3))
      have B := fun hne => (b4 hne).mono (c3.trans d3)
      have C := fun hne => (c4 hne).mono d3
      have hkk : k ≠ k' := fun hc => hne (by rw [hx.unique S.net hy hc])
      have key : ∀ {z : Label} {j : Nat}, Owns m t.faces z e j → (j = 0 → z = x0) ∧ (j = 1 → z = x1) ∧ (j = 2 → z = x2) ∧ (j = 3 → z = x3) :=
        fun hz => ⟨fun hj => hz.unique S.net o0 hj, fun hj => hz.unique S.net o1 hj, fun hj => hz.unique S.net o2 hj, fun hj => hz.unique S.net o3 hj⟩
      obtain ⟨kx0, kx1, kx2, kx3⟩ := key hx
      obtain ⟨ky0, ky1, ky2, ky3⟩ := key hy
      rcases four_places k k4 k' k4' hkk hk with ⟨p, q⟩ | ⟨p, q⟩ | ⟨p, q⟩ | ⟨p, q⟩ | ⟨p, q⟩ | ⟨p, q⟩ | ⟨p, q⟩ | ⟨p, q⟩
      · rw [kx0 p, ky1 q] at hne ⊢; exact A hne
      · rw [kx1 p, ky0 q] at hne ⊢; exact (A (Ne.symm hne)).symm
      · rw [kx2 p, ky3 q] at hne ⊢; exact B hne
      · rw [kx3 p, ky2 q] at hne ⊢; exact (B (Ne.symm hne)).symm
      · rw [kx0 p, ky2 q] at hne ⊢; exact C hne
      · rw [kx2 p, ky0 q] at hne ⊢; exact (C (Ne.symm hne)).symm
      · rw [kx1 p, ky3 q] at hne ⊢; exact d4 hne
      · rw [kx3 p, ky1 q] at hne ⊢; exact (d4 (Ne.symm hne)).symm

end Verif.Casulli
