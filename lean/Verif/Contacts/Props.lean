import Verif.Contacts.MultiLemmas
/-!
# C26: contacts are well formed

`WellFormed` is the specification: two lists of equal length, every contact joins an existing 1D node that the mask
selects with an existing 2D face.
-/
namespace Verif.Contacts

/-- The contacts refer to existing nodes and faces. -/
structure Existing (M : Meshes) (c : Lists) : Prop where
  sameLength : c.mesh1.length = c.mesh2.length
  nodes : ∀ n ∈ c.mesh1, n < M.numNodes1
  faces : ∀ f ∈ c.mesh2, f < M.numFaces

/-- The contacts refer to existing faces and to existing nodes that the mask selects. -/
structure WellFormed (M : Meshes) (mask : List Bool) (c : Lists) : Prop extends Existing M c where
  mask : ∀ n ∈ c.mesh1, mask[n]? = some true

theorem wellFormed_of {M : Meshes} {mask : List Bool} (hmask : mask.length = M.numNodes1) {l : List (Nat × Nat)}
    (h1 : ∀ p ∈ l, mask[p.1]? = some true) (h2 : ∀ p ∈ l, p.2 < M.numFaces) : WellFormed M mask (Lists.of l) := by
  refine ⟨⟨of_length l, ?_, ?_⟩, ?_⟩
  · intro n hn
    simp only [Lists.of, List.mem_map] at hn
    obtain ⟨p, hp, rfl⟩ := hn
    have := (List.getElem?_eq_some_iff.1 (h1 p hp)).1
    omega
  · intro f hf
    simp only [Lists.of, List.mem_map] at hf
    obtain ⟨p, hp, rfl⟩ := hf
    exact h2 p hp
  · intro n hn
    simp only [Lists.of, List.mem_map] at hn
    obtain ⟨p, hp, rfl⟩ := hn
    exact h1 p hp

theorem nonempty_of_checks {M : Meshes} {mask : List Bool} (h : checks M mask = .ok ()) : mask ≠ [] := by
  obtain ⟨h1, h2⟩ := checks_ok h
  intro he
  rw [he] at h1
  simp only [List.length_nil] at h1
  omega

/-! ## Single contacts -/

/-- Face numbers found by the geometry are `missing` or numbers of faces. -/
structure SingleGeo.Valid (M : Meshes) (G : SingleGeo) : Prop where
  faceOf : ∀ n, G.faceOf n = missing ∨ G.faceOf n < M.numFaces
  hit : ∀ n right, (G.hit n right).1 = missing ∨ (G.hit n right).1 < M.numFaces

theorem single_pairs {M : Meshes} {G : SingleGeo} {mask : List Bool} {c : Lists} (h : single M G mask = .ok c) :
    mask.length = M.numNodes1 ∧ ∃ l, c = Lists.of l ∧ (∀ p ∈ l, p.1 < M.numNodes1 ∧ SingleReason M G mask p) ∧
      (∀ n < M.numNodes1, (l.filter (fun p => p.1 == n)).length ≤ 2) ∧
      (∀ n < M.numNodes1, G.inPolygon n = true → mask[n]? = some true → G.faceOf n ≠ missing →
        l.filter (fun p => p.1 == n) = [(n, G.faceOf n)]) ∧ l.Pairwise (NotCrossing G) := by
  unfold single at h
  obtain ⟨_, hc, h⟩ := Res.bind_eq_ok.1 h
  obtain ⟨l, rfl, h1, h2, h3, h4⟩ :=
    singleLoop_ok (nonempty_of_checks hc) List.nodup_range (l := []) List.Pairwise.nil h
  refine ⟨(checks_ok hc).1, l, by simp, ?_, ?_, ?_, by simpa using h4⟩
  · intro p hp
    exact ⟨by simpa using (h1 p hp).1, (h1 p hp).2⟩
  · intro n hn
    exact h2 n (by simpa using hn)
  · intro n hn
    exact h3 n (by simpa using hn)

/-- The single method returns well formed contacts. -/
theorem single_well_formed {M : Meshes} {G : SingleGeo} (hG : G.Valid M) {mask : List Bool} {c : Lists}
    (h : single M G mask = .ok c) : WellFormed M mask c := by
  obtain ⟨hmask, l, rfl, h1, -⟩ := single_pairs h
  refine wellFormed_of hmask (fun p hp => (h1 p hp).2.unmasked) ?_
  intro p hp
  rcases (h1 p hp).2.face with ⟨h, hne⟩ | ⟨-, hne, ⟨right, h⟩, -⟩
  · rw [h]; exact (hG.faceOf p.1).resolve_left hne
  · rw [h] at hne ⊢; exact (hG.hit p.1 right).resolve_left hne

/-- A selected node inside a face is joined with that face and with nothing else. -/
theorem single_inner_node {M : Meshes} {G : SingleGeo} {mask : List Bool} {c : Lists}
    (h : single M G mask = .ok c) {n : Nat} (hn : n < M.numNodes1) (hp : G.inPolygon n = true)
    (hm : mask[n]? = some true) (hf : G.faceOf n ≠ missing) :
    c.contacts.filter (fun p => p.1 == n) = [(n, G.faceOf n)] := by
  obtain ⟨-, l, rfl, -, -, h3, -⟩ := single_pairs h
  rw [contacts_of]
  exact h3 n hn hp hm hf

/-- Every node has at most two contacts, and only nodes in the polygons have contacts. -/
theorem single_at_most_two {M : Meshes} {G : SingleGeo} {mask : List Bool} {c : Lists}
    (h : single M G mask = .ok c) {n : Nat} (hn : n < M.numNodes1) :
    (c.contacts.filter (fun p => p.1 == n)).length ≤ 2 ∧ (n ∈ c.mesh1 → G.inPolygon n = true) := by
  obtain ⟨-, l, rfl, h1, h2, -⟩ := single_pairs h
  rw [contacts_of]
  refine ⟨h2 n hn, fun hm => ?_⟩
  simp only [Lists.of, List.mem_map] at hm
  obtain ⟨p, hp, rfl⟩ := hm
  exact (h1 p hp).2.inPolygon

/-- A contact of a node outside the 2D mesh crosses no 1D edge and no contact stored before it. -/
theorem single_outer_contacts_cross_nothing {M : Meshes} {G : SingleGeo} {mask : List Bool} {c : Lists}
    (h : single M G mask = .ok c) {before after : List (Nat × Nat)} {n f : Nat}
    (hc : c.contacts = before ++ (n, f) :: after) (hf : G.faceOf n = missing) :
    (∀ e ∈ M.edges1, G.crossesEdge n f e.1 e.2 = false) ∧
    ∀ p ∈ before, G.crossesContact n f p.1 p.2 = false := by
  obtain ⟨-, l, rfl, h1, -, -, h4⟩ := single_pairs h
  rw [contacts_of] at hc
  subst hc
  constructor
  · rcases (h1 (n, f) (by simp)).2.face with ⟨_, hne⟩ | ⟨_, _, _, h⟩
    · exact absurd hf hne
    · exact h
  · intro p hp
    exact (List.pairwise_append.1 h4).2.2 p hp (n, f) (by simp) hf

/-- A selected node outside the 2D mesh is joined with the face found on each of its two sides, unless that contact would
cross a 1D edge or another contact. -/
theorem single_outer_node {M : Meshes} {G : SingleGeo} {mask : List Bool} {c : Lists}
    (h : single M G mask = .ok c) {n : Nat} (hn : n < M.numNodes1) (hp : G.inPolygon n = true)
    (hm : mask[n]? = some true) (hf : G.faceOf n = missing) (right : Bool)
    (h1 : (G.hit n right).1 ≠ missing) (h2 : (G.hit n right).2 ≠ missing) :
    (n, (G.hit n right).1) ∈ c.contacts ∨
    (∃ e ∈ M.edges1, G.crossesEdge n (G.hit n right).1 e.1 e.2 = true) ∨
    ∃ p ∈ c.contacts, G.crossesContact n (G.hit n right).1 p.1 p.2 = true := by
  unfold single at h
  obtain ⟨_, hc, h⟩ := Res.bind_eq_ok.1 h
  obtain ⟨l, rfl, -, ht⟩ := singleLoop_tried (nonempty_of_checks hc) (l := []) h
  rw [contacts_of]
  exact ht n (by simpa using hn) hp hm hf right h1 h2

theorem singleLoop_ne_ub {M : Meshes} {G : SingleGeo} (hG : G.Valid M) {mask : List Bool}
    (hmask : mask ≠ []) (ns : List Nat) (hns : ∀ n ∈ ns, n < mask.length) (l : List (Nat × Nat))
    (hl : ∀ p ∈ l, p.2 < M.numFaces) :
    loop (singleStep M G mask) ns (Lists.of l) ≠ .ub := by
  induction ns generalizing l with
  | nil => simp [loop]
  | cons n ns ih =>
    simp only [loop]
    have hn := hns n List.mem_cons_self
    have hgrow : ∀ right c1, ∀ l : List (Nat × Nat), (∀ p ∈ l, p.2 < M.numFaces) →
        connectCrossing M G n right (Lists.of l) = .ok c1 →
        ∃ l1, c1 = Lists.of l1 ∧ ∀ p ∈ l1, p.2 < M.numFaces := by
      intro right c1 l hl h
      rcases connectCrossing_ok h with rfl | ⟨rfl, hne, -⟩
      · exact ⟨l, rfl, hl⟩
      · refine ⟨_, rfl, ?_⟩
        intro p hp
        rcases List.mem_append.1 hp with hp | hp
        · exact hl p hp
        · rw [List.mem_singleton.1 hp]
          exact (hG.hit n right).resolve_left hne
    have step : singleStep M G mask (Lists.of l) n ≠ .ub ∧ ∀ c1, singleStep M G mask (Lists.of l) n = .ok c1 →
        ∃ l1, c1 = Lists.of l1 ∧ ∀ p ∈ l1, p.2 < M.numFaces := by
      unfold singleStep
      split
      · exact ⟨by simp, fun c1 h => ⟨l, (Res.ok.inj h).symm, hl⟩⟩
      · rw [maskedOut_lt hn]
        simp only [Res.ok_bind]
        split
        · exact ⟨by simp, fun c1 h => ⟨l, (Res.ok.inj h).symm, hl⟩⟩
        · split
          · rename_i hf
            refine ⟨by simp, fun c1 h => ⟨l ++ [(n, G.faceOf n)], by rw [← of_push, ← Res.ok.inj h], ?_⟩⟩
            intro p hp
            rcases List.mem_append.1 hp with hp | hp
            · exact hl p hp
            · rw [List.mem_singleton.1 hp]
              exact (hG.faceOf n).resolve_left hf
          · constructor
            · refine bind_ne_ub (connectCrossing_ne_ub (hG.hit n true) hl) fun c1 hc1 => ?_
              obtain ⟨l1, rfl, hl1⟩ := hgrow _ _ _ hl hc1
              exact connectCrossing_ne_ub (hG.hit n false) hl1
            · intro c2 h
              obtain ⟨c1, hc1, h⟩ := Res.bind_eq_ok.1 h
              obtain ⟨l1, rfl, hl1⟩ := hgrow _ _ _ hl hc1
              exact hgrow _ _ _ hl1 h
    refine bind_ne_ub step.1 fun c1 hc1 => ?_
    obtain ⟨l1, rfl, hl1⟩ := step.2 c1 hc1
    exact ih (fun k hk => hns k (List.mem_cons_of_mem _ hk)) l1 hl1

/-- The single method never accesses memory out of bounds, also for deleted 1D edges and masks of a wrong size. -/
theorem single_no_undefined_behaviour {M : Meshes} {G : SingleGeo} (hG : G.Valid M) (mask : List Bool) :
    single M G mask ≠ .ub := by
  unfold single
  refine bind_ne_ub (checks_not_ub _ _) fun _ hc => ?_
  refine singleLoop_ne_ub hG (nonempty_of_checks hc) _ ?_ [] (by simp)
  intro n hn
  rw [(checks_ok hc).1]
  simpa using hn

/-- Three 1D nodes, the middle one in face 1; the others find face 0 on the right. -/
def exSingle : SingleGeo where
  faceOf n := if n = 1 then 1 else missing
  inPolygon _ := true
  isolated _ := false
  hit _ right := if right then (0, 0) else (missing, missing)
  crossesEdge _ _ _ _ := false
  crossesContact n f _ _ := n == 2 && f == 0

/-- Three 1D nodes on a line, two faces. -/
def exMeshes : Meshes := ⟨3, [(0, 1), (1, 2)], 6, 2⟩

example : exSingle.Valid exMeshes ∧ single exMeshes exSingle [true, true, true] = .ok ⟨[0, 1], [0, 1]⟩ ∧
    single exMeshes exSingle [false, true, true] = .ok ⟨[1], [1]⟩ ∧
    single exMeshes { exSingle with isolated := fun n => n == 2 } [true, true, true] = .throw := by
  refine ⟨⟨?_, ?_⟩, by decide +kernel, by decide +kernel, by decide +kernel⟩
  · intro n
    unfold exSingle
    simp only []
    split <;> simp [exMeshes]
  · intro n right
    unfold exSingle
    simp only []
    split <;> simp [exMeshes]

/-! ## Multiple contacts -/

theorem multiple_pairs {M : Meshes} {G : MultiGeo} {mask : List Bool} {c : Lists} (h : multiple M G mask = .ok c) :
    mask.length = M.numNodes1 ∧ ∃ l marks, c = Lists.of l ∧ MultiInv M G mask l marks ∧
      ∀ j edge, M.edges1[j]? = some edge → ∀ f ∈ G.near j, Connectable G mask j edge f → f ∈ l.map Prod.snd := by
  unfold multiple at h
  obtain ⟨_, hc, h⟩ := Res.bind_eq_ok.1 h
  obtain ⟨s, hs, h⟩ := Res.bind_eq_ok.1 h
  have hinv : MultiInv M G mask [] (List.replicate M.numFaces false) := by
    refine ⟨by simp, ?_, by simp, by simp⟩
    intro f
    simp [List.getElem?_replicate]
  obtain ⟨l, marks, rfl, h1, h2⟩ := multiLoop_ok (nonempty_of_checks hc) (i := 0) (by simp) hinv hs
  refine ⟨(checks_ok hc).1, l, marks, ?_, by simpa using h1, ?_⟩
  · rw [← Res.ok.inj h]; simp
  · intro j edge hj f hf hcon
    simpa using h2 j (Nat.zero_le _) edge hj f hf hcon

/-- The multiple method returns well formed contacts and uses every face at most once. -/
theorem multiple_well_formed {M : Meshes} {G : MultiGeo} (hnear : ∀ i, ∀ f ∈ G.near i, f < M.numFaces)
    {mask : List Bool} {c : Lists} (h : multiple M G mask = .ok c) :
    WellFormed M mask c ∧ c.mesh2.Nodup := by
  obtain ⟨hmask, l, marks, rfl, hinv, -⟩ := multiple_pairs h
  refine ⟨wellFormed_of hmask ?_ ?_, hinv.nodup⟩
  · intro p hp
    obtain ⟨i, edge, -, -, hcon, hp1⟩ := hinv.reason p hp
    rw [hp1]
    exact hcon.unmasked
  · intro p hp
    obtain ⟨i, edge, -, hn, -, -⟩ := hinv.reason p hp
    exact hnear i _ hn

/-- A face has a contact exactly if it is near some 1D edge that crosses it, and the end of that edge nearer to the face
is selected and lies in the 2D mesh. -/
theorem multiple_connects_exactly {M : Meshes} {G : MultiGeo} {mask : List Bool} {c : Lists}
    (h : multiple M G mask = .ok c) (f : Nat) :
    f ∈ c.mesh2 ↔ ∃ (i : Nat) (edge : Nat × Nat), M.edges1[i]? = some edge ∧ f ∈ G.near i ∧ Connectable G mask i edge f := by
  obtain ⟨-, l, marks, rfl, hinv, hall⟩ := multiple_pairs h
  constructor
  · intro hf
    simp only [Lists.of, List.mem_map] at hf
    obtain ⟨p, hp, rfl⟩ := hf
    obtain ⟨i, edge, h1, h2, h3, -⟩ := hinv.reason p hp
    exact ⟨i, edge, h1, h2, h3⟩
  · rintro ⟨i, edge, h1, h2, h3⟩
    exact hall i edge h1 f h2 h3

/-- The node of a contact is the nearer end of a 1D edge that crosses the face. -/
theorem multiple_nearer_end {M : Meshes} {G : MultiGeo} {mask : List Bool} {c : Lists}
    (h : multiple M G mask = .ok c) {n f : Nat} (hc : (n, f) ∈ c.contacts) :
    ∃ (i a b : Nat), M.edges1[i]? = some (a, b) ∧ true ∈ G.crossing i f ∧
      (n = a ∧ G.dist a f ≤ G.dist b f ∨ n = b ∧ G.dist b f < G.dist a f) := by
  obtain ⟨-, l, marks, rfl, hinv, -⟩ := multiple_pairs h
  rw [contacts_of] at hc
  obtain ⟨i, edge, h1, -, h3, h4⟩ := hinv.reason _ hc
  refine ⟨i, edge.1, edge.2, h1, h3.crossed, ?_⟩
  simp only [] at h4
  unfold MultiGeo.nearerEnd at h4
  split at h4
  · exact Or.inl ⟨h4, by assumption⟩
  · exact Or.inr ⟨h4, not_le.1 (by assumption)⟩

/-- With a mask of the right size, meshes with nodes and no deleted 1D edges the multiple method succeeds. -/
theorem multiple_succeeds {M : Meshes} {G : MultiGeo} (hnear : ∀ i, ∀ f ∈ G.near i, f < M.numFaces)
    {mask : List Bool} (hmask : mask.length = M.numNodes1) (h1 : 0 < M.numNodes1) (h2 : 0 < M.numNodes2)
    (hedges : ∀ e ∈ M.edges1, e.1 < M.numNodes1 ∧ e.2 < M.numNodes1) : ∃ c, multiple M G mask = .ok c := by
  unfold multiple checks
  rw [if_neg (by omega), if_neg (by omega), if_neg (by omega), Res.ok_bind]
  obtain ⟨t, ht⟩ := multiLoop_total (G := G) hmask M.edges1 hedges hnear 0
    (⟨[], []⟩, List.replicate M.numFaces false) (by simp)
  rw [ht]
  exact ⟨_, rfl⟩

/-- A deleted 1D edge (which joining an empty 1D mesh with a network leaves behind) makes the multiple method read out of
bounds. -/
theorem multiple_deleted_edge_undefined {M : Meshes} {G : MultiGeo} {mask : List Bool} (hmask : mask.length = M.numNodes1)
    (h1 : 0 < M.numNodes1) (h2 : 0 < M.numNodes2) {es : List (Nat × Nat)} (hM : M.numNodes1 ≤ missing)
    (hedges : M.edges1 = (missing, missing) :: es) : multiple M G mask = .ub := by
  unfold multiple checks
  rw [if_neg (by omega), if_neg (by omega), if_neg (by omega), Res.ok_bind, hedges]
  simp only [multiLoop]
  rw [if_pos (by omega)]
  rfl

/-- Both 1D edges are near both faces and cross them. -/
def exMulti : MultiGeo where
  faceOf _ := 0
  near _ := [1, 0]
  crossing _ _ := [false, true, true]
  dist n f := if n = f then 0 else 1

example : (∀ i, ∀ f ∈ exMulti.near i, f < exMeshes.numFaces) ∧
    multiple exMeshes exMulti [true, true, true] = .ok ⟨[1, 0], [1, 0]⟩ ∧
    multiple exMeshes exMulti [false, true, true] = .ok ⟨[1, 1], [1, 0]⟩ ∧
    multiple { exMeshes with edges1 := [(missing, missing), (1, 2)] } exMulti [true, true, true] = .ub := by
  refine ⟨?_, by decide +kernel, by decide +kernel, by decide +kernel⟩
  intro i f hf
  simp only [exMulti, List.mem_cons, List.not_mem_nil, or_false] at hf
  simp only [exMeshes]
  omega

/-! ## Contacts with polygons -/

theorem withPolygons_entries {M : Meshes} {G : PolyGeo} {mask : List Bool} {c : Lists}
    (h : withPolygons M G mask = .ok c) :
    mask.length = M.numNodes1 ∧ ∃ cs : List Closest, cs.length = G.numPolygons ∧
      c = ⟨cs.map Closest.node, cs.map Closest.face⟩ ∧
      ∀ k e, cs[k]? = some e → PolyEntry G mask (List.range M.numFaces) k e := by
  unfold withPolygons at h
  split at h; · cases h
  rename_i hlen
  refine ⟨by omega, ?_⟩
  split at h
  · rename_i h0
    exact ⟨[], by simp [h0], (Res.ok.inj h).symm, by simp⟩
  · obtain ⟨_, hc, h⟩ := Res.bind_eq_ok.1 h
    obtain ⟨cs, hcs, h⟩ := Res.bind_eq_ok.1 h
    have hinit : ∀ k e, (List.replicate G.numPolygons (⟨missing, missing, false⟩ : Closest))[k]? = some e →
        PolyEntry G mask [] k e := by
      intro k e he
      rw [List.getElem?_replicate] at he
      split at he
      · obtain rfl := Option.some.inj he
        exact Or.inl ⟨rfl, rfl, rfl, by simp⟩
      · cases he
    obtain ⟨h1, h2⟩ := polyLoop_ok (nonempty_of_checks hc) (by simp) hinit hcs
    exact ⟨cs, h1, (Res.ok.inj h).symm, by simpa using h2⟩

/-- One contact per polygon.  For a polygon that contains faces it joins a face `f` of the polygon with the 1D node
nearest to it, which is selected, and `f` is the face of the polygon that has a 1D node nearest. -/
theorem polygons_one_contact_each {M : Meshes} {G : PolyGeo} {mask : List Bool} {c : Lists}
    (h : withPolygons M G mask = .ok c) :
    c.mesh1.length = G.numPolygons ∧ c.mesh2.length = G.numPolygons ∧
    ∀ k < G.numPolygons, ∀ g < M.numFaces, G.polygonOf g = (true, k) →
      ∃ f, c.contacts[k]? = some (G.nearest f, f) ∧ f < M.numFaces ∧ G.polygonOf f = (true, k) ∧
        mask[G.nearest f]? = some true ∧ ∀ g < M.numFaces, G.polygonOf g = (true, k) → G.dist f ≤ G.dist g := by
  obtain ⟨hmask, cs, hlen, rfl, hcs⟩ := withPolygons_entries h
  refine ⟨by simpa using hlen, by simpa using hlen, ?_⟩
  intro k hk g hg hgk
  have hk' : k < cs.length := by omega
  rcases hcs k cs[k] (List.getElem?_eq_getElem hk') with ⟨-, -, -, h4⟩ | ⟨-, h2, h3, h4, h5, h6⟩
  · exact absurd hgk (h4 g (by simpa using hg))
  · refine ⟨cs[k].face, ?_, by simpa using h2, h3, h4 ▸ h5, ?_⟩
    · unfold Lists.contacts
      rw [List.getElem?_zip_eq_some]
      simp [hk', h4]
    · intro g' hg' hgk'
      exact h6 g' (by simpa using hg') hgk'

/-- If every polygon contains a face, the contacts are well formed.  Missing: polygons without faces, see
`polygon_without_faces_misreported`. -/
theorem polygons_well_formed_partial {M : Meshes} {G : PolyGeo} {mask : List Bool} {c : Lists}
    (hall : ∀ k < G.numPolygons, ∃ g < M.numFaces, G.polygonOf g = (true, k))
    (h : withPolygons M G mask = .ok c) : WellFormed M mask c ∧ c.mesh2.Nodup := by
  obtain ⟨hmask, cs, hlen, rfl, hcs⟩ := withPolygons_entries h
  have key : ∀ k (hk : k < cs.length), cs[k].face < M.numFaces ∧ G.polygonOf cs[k].face = (true, k) ∧
      mask[cs[k].node]? = some true := by
    intro k hk
    obtain ⟨g, hg, hgk⟩ := hall k (by omega)
    rcases hcs k cs[k] (List.getElem?_eq_getElem hk) with ⟨-, -, -, h4⟩ | ⟨-, h2, h3, h4, h5, -⟩
    · exact absurd hgk (h4 g (by simpa using hg))
    · exact ⟨by simpa using h2, h3, h5⟩
  refine ⟨⟨⟨by simp, ?_, ?_⟩, ?_⟩, ?_⟩
  · intro n hn
    simp only [List.mem_map] at hn
    obtain ⟨e, he, rfl⟩ := hn
    obtain ⟨k, hk, rfl⟩ := List.getElem_of_mem he
    have := (List.getElem?_eq_some_iff.1 (key k hk).2.2).1
    omega
  · intro f hf
    simp only [List.mem_map] at hf
    obtain ⟨e, he, rfl⟩ := hf
    obtain ⟨k, hk, rfl⟩ := List.getElem_of_mem he
    exact (key k hk).1
  · intro n hn
    simp only [List.mem_map] at hn
    obtain ⟨e, he, rfl⟩ := hn
    obtain ⟨k, hk, rfl⟩ := List.getElem_of_mem he
    exact (key k hk).2.2
  · rw [List.Nodup, List.pairwise_iff_getElem]
    intro i j hi hj hij
    simp only [List.length_map] at hi hj
    simp only [List.getElem_map]
    intro heq
    have h1 := (key i hi).2.1
    have h2 := (key j hj).2.1
    rw [heq, h2] at h1
    simp only [Prod.mk.injEq, true_and] at h1
    omega

/-- A polygon that contains no face is reported as a contact between the node and the face numbered `missing`. -/
theorem polygon_without_faces_misreported {M : Meshes} {G : PolyGeo} {mask : List Bool} {c : Lists}
    (h : withPolygons M G mask = .ok c) {k : Nat} (hk : k < G.numPolygons)
    (hno : ∀ g < M.numFaces, G.polygonOf g ≠ (true, k)) : c.contacts[k]? = some (missing, missing) := by
  obtain ⟨hmask, cs, hlen, rfl, hcs⟩ := withPolygons_entries h
  have hk' : k < cs.length := by omega
  rcases hcs k cs[k] (List.getElem?_eq_getElem hk') with ⟨-, h2, h3, -⟩ | ⟨-, h2, h3, -⟩
  · unfold Lists.contacts
    rw [List.getElem?_zip_eq_some]
    simp [hk', h2, h3]
  · exact absurd h3 (hno _ (by simpa using h2))

/-- If for every face in a polygon the nearest 1D node is selected, the method succeeds. -/
theorem polygons_succeeds {M : Meshes} {G : PolyGeo} {mask : List Bool} (hmask : mask.length = M.numNodes1)
    (h1 : 0 < M.numNodes1) (h2 : 0 < M.numNodes2)
    (hG : ∀ f < M.numFaces, (G.polygonOf f).1 = true →
      mask[G.nearest f]? = some true ∧ (G.polygonOf f).2 < G.numPolygons) :
    ∃ c, withPolygons M G mask = .ok c := by
  unfold withPolygons
  rw [if_neg (by omega)]
  split
  · exact ⟨_, rfl⟩
  · unfold checks
    rw [if_neg (by omega), if_neg (by omega), if_neg (by omega), Res.ok_bind]
    obtain ⟨t, ht⟩ := polyLoop_total (M := M) (G := G) hmask (List.range M.numFaces)
      (fun f hf => hG f (by simpa using hf)) (List.replicate G.numPolygons ⟨missing, missing, false⟩) (by simp)
    rw [ht]
    exact ⟨_, rfl⟩

/-- One polygon with face 0, whose nearest 1D node is node 0. -/
def exPoly : PolyGeo where
  numPolygons := 1
  polygonOf f := (f == 0, if f = 0 then 0 else missing)
  nearest _ := 0
  dist _ := 1

/-- The same with a second polygon that contains no face. -/
def exPoly2 : PolyGeo := { exPoly with numPolygons := 2 }

example : withPolygons exMeshes exPoly [true, true, true] = .ok ⟨[0], [0]⟩ ∧
    withPolygons exMeshes exPoly2 [true, true, true] = .ok ⟨[0, missing], [0, missing]⟩ := by
  constructor <;> decide +kernel

/-- The nearest 1D node is not selected, other nodes are: the method fails instead of using the nearest selected node. -/
theorem polygons_masked_node_fails :
    withPolygons exMeshes exPoly [false, true, true] = .throw := by decide +kernel

/-! ## Contacts with points -/

theorem pointLoop_eq (ps : List (Nat × Option Nat)) (l : List (Nat × Nat)) :
    pointLoop ps (Lists.of l) = Lists.of (l ++ ps.filterMap (fun p =>
      if p.1 = missing then none else p.2.map (fun n => (n, p.1)))) := by
  induction ps generalizing l with
  | nil => simp [pointLoop]
  | cons p ps ih =>
    obtain ⟨face, found⟩ := p
    simp only [pointLoop]
    split
    · rename_i hf
      rw [ih, List.filterMap_cons_none (by simp [hf])]
    · rename_i hf
      cases found with
      | none => simp only []; rw [ih, List.filterMap_cons_none (by simp [hf])]
      | some n =>
        simp only []
        rw [of_push, ih, List.filterMap_cons_some (b := (n, face)) (by simp [hf])]
        simp

/-- The points in the 2D mesh are joined, in order, with the nearest 1D node; the contacts refer to existing nodes and
faces.  Missing: the mask, see `points_ignore_mask`. -/
theorem points_well_formed_partial {M : Meshes} {points : List (Nat × Option Nat)} {mask : List Bool} {c : Lists}
    (hp : ∀ p ∈ points, (p.1 = missing ∨ p.1 < M.numFaces) ∧ ∀ n, p.2 = some n → n < M.numNodes1)
    (h : withPoints M points mask = .ok c) :
    Existing M c ∧ c.contacts = points.filterMap (fun p =>
      if p.1 = missing then none else p.2.map (fun n => (n, p.1))) := by
  unfold withPoints at h
  obtain ⟨_, -, h⟩ := Res.bind_eq_ok.1 h
  rw [of_nil, pointLoop_eq] at h
  obtain rfl := Res.ok.inj h
  have key : ∀ q ∈ points.filterMap (fun p => if p.1 = missing then none else p.2.map (fun n => (n, p.1))),
      q.1 < M.numNodes1 ∧ q.2 < M.numFaces := by
    intro q hq
    obtain ⟨p, hpm, hpq⟩ := List.mem_filterMap.1 hq
    split at hpq
    · cases hpq
    · rename_i hne
      obtain ⟨n, hn, rfl⟩ := Option.map_eq_some_iff.1 hpq
      exact ⟨(hp p hpm).2 n hn, ((hp p hpm).1).resolve_left hne⟩
  refine ⟨⟨of_length _, ?_, ?_⟩, by rw [contacts_of]; simp⟩
  · intro n hn
    simp only [Lists.of, List.nil_append, List.mem_map] at hn
    obtain ⟨q, hq, rfl⟩ := hn
    exact (key q hq).1
  · intro f hf
    simp only [Lists.of, List.nil_append, List.mem_map] at hf
    obtain ⟨q, hq, rfl⟩ := hf
    exact (key q hq).2

/-- The mask has no influence on the result of the point method. -/
theorem points_ignore_mask {M : Meshes} (points : List (Nat × Option Nat)) {mask mask' : List Bool}
    (h : mask.length = mask'.length) : withPoints M points mask = withPoints M points mask' := by
  unfold withPoints checks
  rw [h]

example : withPoints exMeshes [(1, some 2), (missing, some 0), (0, some 0)] [false, false, false] =
    .ok ⟨[2, 0], [1, 0]⟩ := by decide +kernel

/-! ## Boundary contacts -/

theorem boundary_pairs {M : Meshes} (hM : M.numNodes1 ≤ missing) {G : BoundGeo} {mask : List Bool} {c : Lists}
    (h : boundary M G mask = .ok c) :
    mask.length = M.numNodes1 ∧ ∃ l s, c = Lists.of l ∧ BoundInv M G (visits G mask (List.range M.numNodes1)) s ∧
      (l.map Prod.snd).Sublist (List.range M.numFaces) ∧
      ∀ p : Nat × Nat, p ∈ l ↔ p.2 < M.numFaces ∧ s.node[p.2]? = some p.1 ∧ p.1 ≠ missing ∧ s.valid[p.2]? = some true := by
  unfold boundary at h
  obtain ⟨_, hc, h⟩ := Res.bind_eq_ok.1 h
  obtain ⟨s, hs, h⟩ := Res.bind_eq_ok.1 h
  have hinit : BoundInv M G [] ⟨List.replicate M.numFaces true, List.replicate M.numFaces missing⟩ := by
    refine ⟨by simp, by simp, ?_⟩
    intro f v n hv hn
    simp only [List.getElem?_replicate] at hv hn
    split at hv
    · rename_i hf
      rw [if_pos hf] at hn
      obtain rfl := Option.some.inj hv
      obtain rfl := Option.some.inj hn
      exact ⟨fun h => by simp at h, fun _ => by simp, fun h => absurd rfl h⟩
    · cases hv
  have hns : ∀ n ∈ List.range M.numNodes1, n ≠ missing := by
    intro n hn
    have := List.mem_range.1 hn
    omega
  have hinv := boundLoop_ok (nonempty_of_checks hc) hns hinit hs
  obtain ⟨l, rfl, h1, h2⟩ := collect_ok (l := []) List.nodup_range h
  exact ⟨(checks_ok hc).1, l, s, by simp, by simpa using hinv, h1, by simpa using h2⟩

/-- The boundary method returns well formed contacts and uses every face at most once, in order.  (The number of 1D nodes
is a 32 bit number, so it is at most `missing`.) -/
theorem boundary_well_formed {M : Meshes} (hM : M.numNodes1 ≤ missing) {G : BoundGeo} {mask : List Bool} {c : Lists}
    (h : boundary M G mask = .ok c) : WellFormed M mask c ∧ c.mesh2.Nodup ∧ c.mesh2.Pairwise (· < ·) := by
  obtain ⟨hmask, l, s, rfl, hinv, hsub, hl⟩ := boundary_pairs hM h
  refine ⟨wellFormed_of hmask ?_ (fun p hp => ((hl p).1 hp).1), hsub.nodup List.nodup_range, ?_⟩
  · intro p hp
    obtain ⟨h1, h2, h3, h4⟩ := (hl p).1 hp
    exact (mem_visits.1 ((hinv.entry _ _ _ h4 h2).some h3).2.2.1).2.1
  · exact List.Pairwise.sublist hsub List.pairwise_lt_range

/-- A face has a contact exactly if it lies on the boundary and in the polygons and some selected node is near it. -/
theorem boundary_connects_exactly {M : Meshes} (hM : M.numNodes1 ≤ missing) {G : BoundGeo} {mask : List Bool} {c : Lists}
    (h : boundary M G mask = .ok c) (f : Nat) :
    f ∈ c.mesh2 ↔ f < M.numFaces ∧ G.onBoundary f = true ∧ G.inPolygon f = true ∧
      ∃ n < M.numNodes1, mask[n]? = some true ∧ f ∈ G.near n := by
  obtain ⟨hmask, l, s, rfl, hinv, hsub, hl⟩ := boundary_pairs hM h
  constructor
  · intro hf
    simp only [Lists.of, List.mem_map] at hf
    obtain ⟨p, hp, rfl⟩ := hf
    obtain ⟨h1, h2, h3, h4⟩ := (hl p).1 hp
    obtain ⟨a, b, d, -⟩ := (hinv.entry _ _ _ h4 h2).some h3
    have hv := mem_visits.1 d
    exact ⟨h1, a, b, p.1, by simpa using hv.1, hv.2.1, hv.2.2⟩
  · rintro ⟨hf, hb, hp, n, hn, hm, hnear⟩
    have e1 : s.node[f]? = some (s.node[f]'(by rw [hinv.size2]; exact hf)) := List.getElem?_eq_getElem _
    have e2 : s.valid[f]? = some (s.valid[f]'(by rw [hinv.size1]; exact hf)) := List.getElem?_eq_getElem _
    have he := hinv.entry _ _ _ e2 e1
    have hne : s.node[f]'(by rw [hinv.size2]; exact hf) ≠ missing := by
      intro hmis
      exact he.none hmis (n, f) (mem_visits.2 ⟨by simpa using hn, hm, hnear⟩) rfl ⟨hb, hp⟩
    have hv : s.valid[f]'(by rw [hinv.size1]; exact hf) = true := by
      by_contra hv
      exact he.invalid (by simpa using hv) ⟨hb, hp⟩
    rw [hv] at e2
    exact List.mem_map.2 ⟨(_, f), (hl _).2 ⟨hf, e1, hne, e2⟩, rfl⟩

/-- The node of a contact is the nearest of the selected nodes near the face. -/
theorem boundary_nearest {M : Meshes} (hM : M.numNodes1 ≤ missing) {G : BoundGeo} {mask : List Bool} {c : Lists}
    (h : boundary M G mask = .ok c) {n f : Nat} (hc : (n, f) ∈ c.contacts) :
    f ∈ G.near n ∧ ∀ m < M.numNodes1, mask[m]? = some true → f ∈ G.near m → G.dist n f ≤ G.dist m f := by
  obtain ⟨hmask, l, s, rfl, hinv, hsub, hl⟩ := boundary_pairs hM h
  rw [contacts_of] at hc
  obtain ⟨h1, h2, h3, h4⟩ := (hl (n, f)).1 hc
  obtain ⟨-, -, d, e⟩ := (hinv.entry _ _ _ h4 h2).some h3
  refine ⟨(mem_visits.1 d).2.2, ?_⟩
  intro m hm hmm hf
  exact e (m, f) (mem_visits.2 ⟨by simpa using hm, hmm, hf⟩) rfl

/-- The number of every candidate is `missing` or a node. -/
theorem boundFaces_total {M : Meshes} {G : BoundGeo} {n : Nat} (hn : n < M.numNodes1) (fs : List Nat)
    (hfs : ∀ f ∈ fs, f < M.numFaces) (s : Candidates) (h1 : s.valid.length = M.numFaces)
    (h2 : s.node.length = M.numFaces) (h3 : ∀ m ∈ s.node, m = missing ∨ m < M.numNodes1) :
    ∃ t, boundFaces M G n fs s = .ok t ∧ t.valid.length = M.numFaces ∧ t.node.length = M.numFaces ∧
      ∀ m ∈ t.node, m = missing ∨ m < M.numNodes1 := by
  induction fs generalizing s with
  | nil => exact ⟨s, rfl, h1, h2, h3⟩
  | cons f fs ih =>
    have hf := hfs f List.mem_cons_self
    have hfs' : ∀ g ∈ fs, g < M.numFaces := fun g hg => hfs g (List.mem_cons_of_mem _ hg)
    have hset : ∀ m ∈ s.node.set f n, m = missing ∨ m < M.numNodes1 := by
      intro m hm
      rcases List.mem_or_eq_of_mem_set hm with h | h
      · exact h3 m h
      · right; omega
    simp only [boundFaces]
    rw [vget_ok (by omega), Res.ok_bind]
    split
    · exact ih hfs' s h1 h2 h3
    · split
      · rw [vset_ok _ (by omega), Res.ok_bind]
        exact ih hfs' _ (by simpa using h1) h2 h3
      · split
        · rw [vset_ok _ (by omega), Res.ok_bind]
          exact ih hfs' _ (by simpa using h1) h2 h3
        · rw [vget_ok (by omega), Res.ok_bind]
          split
          · rw [vset_ok _ (by omega), Res.ok_bind]
            exact ih hfs' _ h1 (by simpa using h2) hset
          · rename_i hmis
            rw [nodeCheck_lt ((h3 _ (List.getElem_mem _)).resolve_left hmis), Res.ok_bind]
            split
            · rw [vset_ok _ (by omega), Res.ok_bind]
              exact ih hfs' _ h1 (by simpa using h2) hset
            · exact ih hfs' s h1 h2 h3

/-- With a mask of the right size and meshes with nodes the boundary method succeeds. -/
theorem boundary_succeeds {M : Meshes} {G : BoundGeo} (hnear : ∀ n, ∀ f ∈ G.near n, f < M.numFaces) {mask : List Bool}
    (hmask : mask.length = M.numNodes1) (h1 : 0 < M.numNodes1) (h2 : 0 < M.numNodes2) :
    ∃ c, boundary M G mask = .ok c := by
  have hloop : ∀ ns : List Nat, (∀ n ∈ ns, n < M.numNodes1) → ∀ s : Candidates, s.valid.length = M.numFaces →
      s.node.length = M.numFaces → (∀ m ∈ s.node, m = missing ∨ m < M.numNodes1) →
      ∃ t, boundLoop M G mask ns s = .ok t ∧ t.valid.length = M.numFaces ∧ t.node.length = M.numFaces := by
    intro ns
    induction ns with
    | nil => intro _ s a b _; exact ⟨s, rfl, a, b⟩
    | cons n ns ih =>
      intro hns s a b d
      have hn := hns n List.mem_cons_self
      have hns' : ∀ k ∈ ns, k < M.numNodes1 := fun k hk => hns k (List.mem_cons_of_mem _ hk)
      simp only [boundLoop]
      rw [maskedOut_lt (by omega), Res.ok_bind]
      split
      · exact ih hns' s a b d
      · obtain ⟨t, ht, a', b', d'⟩ := boundFaces_total (G := G) hn (G.near n) (hnear n) s a b d
        rw [ht, Res.ok_bind]
        exact ih hns' t a' b' d'
  obtain ⟨t, ht, a, b⟩ := hloop (List.range M.numNodes1) (by simp)
    ⟨List.replicate M.numFaces true, List.replicate M.numFaces missing⟩ (by simp) (by simp)
    (fun m hm => Or.inl (List.eq_of_mem_replicate hm))
  have hcol : ∀ fs : List Nat, (∀ f ∈ fs, f < M.numFaces) → ∀ c, ∃ d, loop (collectStep t) fs c = .ok d := by
    intro fs
    induction fs with
    | nil => intro _ c; exact ⟨c, rfl⟩
    | cons f fs ih =>
      intro hfs c
      have hf := hfs f List.mem_cons_self
      simp only [loop, collectStep]
      rw [vget_ok (by omega), Res.ok_bind, vget_ok (by omega), Res.ok_bind]
      split
      · rw [Res.ok_bind]; exact ih (fun g hg => hfs g (List.mem_cons_of_mem _ hg)) _
      · rw [Res.ok_bind]; exact ih (fun g hg => hfs g (List.mem_cons_of_mem _ hg)) _
  unfold boundary checks
  rw [if_neg (by omega), if_neg (by omega), if_neg (by omega), Res.ok_bind, ht, Res.ok_bind]
  exact hcol _ (by simp) _

/-- Every node is near both faces; face 1 is not on the boundary. -/
def exBound : BoundGeo where
  near _ := [1, 0]
  onBoundary f := f == 0
  inPolygon _ := true
  dist n _ := if n = 1 then 0 else 1

example : boundary exMeshes exBound [true, true, true] = .ok ⟨[1], [0]⟩ ∧
    boundary exMeshes exBound [false, false, true] = .ok ⟨[2], [0]⟩ ∧
    boundary exMeshes exBound [false, false, false] = .ok ⟨[], []⟩ ∧
    boundary exMeshes exBound [true] = .throw := by
  refine ⟨?_, ?_, ?_, ?_⟩ <;> decide +kernel

end Verif.Contacts
