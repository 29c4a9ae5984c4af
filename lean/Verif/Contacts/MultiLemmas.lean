import Verif.Contacts.Lemmas
/-!
# Lemmas about the multiple, polygon and boundary contacts
-/
namespace Verif.Contacts

/-! ## Multiple -/

/-- The face can be connected to the nearer end of the 1D edge. -/
structure Connectable (G : MultiGeo) (mask : List Bool) (i : Nat) (edge : Nat × Nat) (face : Nat) : Prop where
  crossed : true ∈ G.crossing i face
  unmasked : mask[G.nearerEnd edge face]? = some true
  inside : G.faceOf (G.nearerEnd edge face) ≠ missing

theorem multiEdges_ok {M : Meshes} {G : MultiGeo} {mask : List Bool} (hm : mask ≠ []) {edge : Nat × Nat}
    {node face : Nat} {bs : List Bool} {l : List (Nat × Nat)} {marks : List Bool} {s : Marked}
    (h : multiEdges M G mask edge node face bs (Lists.of l, marks) = .ok s) :
    (s = (Lists.of l, marks) ∧ ¬ (true ∈ bs ∧ mask[node]? = some true ∧ G.faceOf node ≠ missing)) ∨
    (s = (Lists.of (l ++ [(node, face)]), marks.set face true) ∧
      true ∈ bs ∧ mask[node]? = some true ∧ G.faceOf node ≠ missing) := by
  induction bs with
  | nil =>
    simp only [multiEdges] at h
    exact Or.inl ⟨(Res.ok.inj h).symm, by simp⟩
  | cons b bs ih =>
    simp only [multiEdges] at h
    obtain ⟨_, _, h⟩ := Res.bind_eq_ok.1 h
    obtain ⟨_, _, h⟩ := Res.bind_eq_ok.1 h
    split at h
    · rename_i hb
      have hb' : b = false := by simpa using hb
      rcases ih h with ⟨h1, h2⟩ | ⟨h1, h2⟩
      · exact Or.inl ⟨h1, by simpa [hb'] using h2⟩
      · exact Or.inr ⟨h1, by simpa [hb'] using h2⟩
    · rename_i hb
      have hb' : b = true := by simpa using hb
      obtain ⟨_, _, h⟩ := Res.bind_eq_ok.1 h
      obtain ⟨out, ho, h⟩ := Res.bind_eq_ok.1 h
      have ho' := maskedOut_ok hm ho
      split at h
      · rename_i hout
        subst hout
        rcases ih h with ⟨h1, h2⟩ | ⟨h1, h2⟩
        · exact Or.inl ⟨h1, fun h => by rw [ho'] at h; simp at h⟩
        · exact Or.inr ⟨h1, by simp [hb'], h2.2⟩
      · rename_i hout
        have hmask : mask[node]? = some true := by rw [ho']; simpa using hout
        split at h
        · rename_i hf
          rcases ih h with ⟨h1, h2⟩ | ⟨h1, h2⟩
          · exact Or.inl ⟨h1, fun h => h.2.2 hf⟩
          · exact Or.inr ⟨h1, by simp [hb'], h2.2⟩
        · rename_i hf
          obtain ⟨marks', hmk, h⟩ := Res.bind_eq_ok.1 h
          rw [(vset_eq_ok.1 hmk).2, of_push] at h
          exact Or.inr ⟨(Res.ok.inj h).symm, by simp [hb'], hmask, hf⟩

/-- Invariant of the loops: the marks are the connected faces. -/
structure MultiInv (M : Meshes) (G : MultiGeo) (mask : List Bool) (l : List (Nat × Nat)) (marks : List Bool) : Prop where
  size : marks.length = M.numFaces
  marked : ∀ f : Nat, marks[f]? = some true ↔ f ∈ l.map Prod.snd
  nodup : (l.map Prod.snd).Nodup
  reason : ∀ p ∈ l, ∃ (i : Nat) (edge : Nat × Nat), M.edges1[i]? = some edge ∧ p.2 ∈ G.near i ∧
    Connectable G mask i edge p.2 ∧ p.1 = G.nearerEnd edge p.2

theorem multiFaces_ok {M : Meshes} {G : MultiGeo} {mask : List Bool} (hm : mask ≠ []) {i : Nat} {edge : Nat × Nat}
    (he : M.edges1[i]? = some edge) {fs : List Nat} (hfs : ∀ f ∈ fs, f ∈ G.near i)
    {l : List (Nat × Nat)} {marks : List Bool} (hinv : MultiInv M G mask l marks) {s : Marked}
    (h : multiFaces M G mask i edge fs (Lists.of l, marks) = .ok s) :
    ∃ l' marks', s = (Lists.of (l ++ l'), marks') ∧ MultiInv M G mask (l ++ l') marks' ∧
      ∀ f ∈ fs, Connectable G mask i edge f → f ∈ (l ++ l').map Prod.snd := by
  induction fs generalizing l marks with
  | nil =>
    simp only [multiFaces] at h
    exact ⟨[], marks, by rw [List.append_nil, Res.ok.inj h], by simpa using hinv, by simp⟩
  | cons f fs ih =>
    simp only [multiFaces] at h
    obtain ⟨conn, hconn, h⟩ := Res.bind_eq_ok.1 h
    have hconn' := vget_eq_ok.1 hconn
    have hfs' : ∀ g ∈ fs, g ∈ G.near i := fun g hg => hfs g (List.mem_cons_of_mem _ hg)
    split at h
    · rename_i hc
      subst hc
      obtain ⟨l', marks', rfl, hinv', hall⟩ := ih hfs' hinv h
      refine ⟨l', marks', rfl, hinv', ?_⟩
      intro g hg hcon
      rcases List.mem_cons.1 hg with rfl | hg
      · rw [List.map_append]
        exact List.mem_append_left _ ((hinv.marked g).1 hconn')
      · exact hall g hg hcon
    · rename_i hc
      have hc' : conn = false := by simpa using hc
      subst hc'
      obtain ⟨s1, hs1, h⟩ := Res.bind_eq_ok.1 h
      rcases multiEdges_ok hm hs1 with ⟨rfl, hno⟩ | ⟨rfl, hyes⟩
      · obtain ⟨l', marks', rfl, hinv', hall⟩ := ih hfs' hinv h
        refine ⟨l', marks', rfl, hinv', ?_⟩
        intro g hg hcon
        rcases List.mem_cons.1 hg with rfl | hg
        · exact absurd ⟨hcon.crossed, hcon.unmasked, hcon.inside⟩ hno
        · exact hall g hg hcon
      · have hlt : f < marks.length := (List.getElem?_eq_some_iff.1 hconn').1
        have hnot : f ∉ l.map Prod.snd := fun hmem => by
          have := (hinv.marked f).2 hmem
          rw [hconn'] at this
          simp at this
        have hinv1 : MultiInv M G mask (l ++ [(G.nearerEnd edge f, f)]) (marks.set f true) := by
          refine ⟨by simpa using hinv.size, ?_, ?_, ?_⟩
          · intro g
            rw [List.map_append, List.mem_append, ← hinv.marked g]
            by_cases hgf : g = f
            · subst hgf
              simp [hlt]
            · rw [List.getElem?_set_ne (fun h => hgf h.symm)]
              simp [hgf]
          · rw [List.map_append, List.nodup_append]
            refine ⟨hinv.nodup, by simp, ?_⟩
            intro a ha b hb
            simp only [List.map_cons, List.map_nil, List.mem_singleton] at hb
            rw [hb]
            exact fun hab => hnot (hab ▸ ha)
          · intro p hp
            rcases List.mem_append.1 hp with hp | hp
            · exact hinv.reason p hp
            · rw [List.mem_singleton.1 hp]
              exact ⟨i, edge, he, hfs f List.mem_cons_self, ⟨hyes.1, hyes.2.1, hyes.2.2⟩, rfl⟩
        obtain ⟨l', marks', rfl, hinv', hall⟩ := ih hfs' hinv1 h
        refine ⟨(G.nearerEnd edge f, f) :: l', marks', by simp, by simpa using hinv', ?_⟩
        intro g hg hcon
        rcases List.mem_cons.1 hg with rfl | hg
        · simp
        · simpa using hall g hg hcon

theorem multiLoop_ok {M : Meshes} {G : MultiGeo} {mask : List Bool} (hm : mask ≠ []) {es : List (Nat × Nat)} {i : Nat}
    (hes : M.edges1.drop i = es) {l : List (Nat × Nat)} {marks : List Bool} (hinv : MultiInv M G mask l marks)
    {s : Marked} (h : multiLoop M G mask es i (Lists.of l, marks) = .ok s) :
    ∃ l' marks', s = (Lists.of (l ++ l'), marks') ∧ MultiInv M G mask (l ++ l') marks' ∧
      ∀ j ≥ i, ∀ edge, M.edges1[j]? = some edge → ∀ f ∈ G.near j, Connectable G mask j edge f →
        f ∈ (l ++ l').map Prod.snd := by
  induction es generalizing i l marks with
  | nil =>
    simp only [multiLoop] at h
    refine ⟨[], marks, by rw [List.append_nil, Res.ok.inj h], by simpa using hinv, ?_⟩
    intro j hj edge hedge
    have : M.edges1.length ≤ i := by simpa using hes
    have := (List.getElem?_eq_some_iff.1 hedge).1
    omega
  | cons e es ih =>
    simp only [multiLoop] at h
    split at h
    · cases h
    · obtain ⟨s1, hs1, h⟩ := Res.bind_eq_ok.1 h
      have hi : M.edges1[i]? = some e := by
        have := congrArg (·[0]?) hes
        simpa using this
      obtain ⟨l1, marks1, rfl, hinv1, hall1⟩ := multiFaces_ok hm hi (fun f hf => hf) hinv hs1
      have hes' : M.edges1.drop (i + 1) = es := by
        have := congrArg (List.drop 1) hes
        simpa [List.drop_drop, Nat.add_comm] using this
      obtain ⟨l2, marks2, rfl, hinv2, hall2⟩ := ih hes' hinv1 h
      refine ⟨l1 ++ l2, marks2, by simp, by simpa using hinv2, ?_⟩
      intro j hj edge hedge f hf hcon
      rcases Nat.lt_or_ge i j with hlt | hge
      · simpa using hall2 j hlt edge hedge f hf hcon
      · have hji : j = i := by omega
        subst hji
        rw [hi] at hedge
        obtain rfl := Option.some.inj hedge
        have := hall1 f hf hcon
        rw [← List.append_assoc, List.map_append]
        exact List.mem_append_left _ this

theorem multiEdges_total {M : Meshes} {G : MultiGeo} {mask : List Bool} (hmask : mask.length = M.numNodes1)
    {edge : Nat × Nat} (h1 : edge.1 < M.numNodes1) (h2 : edge.2 < M.numNodes1) {node face : Nat}
    (hn : node < M.numNodes1) (hf : face < M.numFaces) (bs : List Bool) (s : Marked) (hs : s.2.length = M.numFaces) :
    ∃ t, multiEdges M G mask edge node face bs s = .ok t ∧ t.2.length = M.numFaces := by
  induction bs with
  | nil => exact ⟨s, rfl, hs⟩
  | cons b bs ih =>
    obtain ⟨t, ht⟩ := ih
    simp only [multiEdges, nodeCheck_lt h1, nodeCheck_lt h2, Res.ok_bind, faceRead_lt hf]
    split
    · exact ⟨t, ht⟩
    · rw [maskedOut_lt (by omega)]
      simp only [Res.ok_bind]
      split
      · exact ⟨t, ht⟩
      · split
        · exact ⟨t, ht⟩
        · rw [vset_ok _ (by omega)]
          exact ⟨_, rfl, by simpa using hs⟩

theorem multiFaces_total {M : Meshes} {G : MultiGeo} {mask : List Bool} (hmask : mask.length = M.numNodes1) (i : Nat)
    {edge : Nat × Nat} (h1 : edge.1 < M.numNodes1) (h2 : edge.2 < M.numNodes1) (fs : List Nat)
    (hfs : ∀ f ∈ fs, f < M.numFaces) (s : Marked) (hs : s.2.length = M.numFaces) :
    ∃ t, multiFaces M G mask i edge fs s = .ok t ∧ t.2.length = M.numFaces := by
  induction fs generalizing s with
  | nil => exact ⟨s, rfl, hs⟩
  | cons f fs ih =>
    have hf : f < M.numFaces := hfs f List.mem_cons_self
    have hfs' : ∀ g ∈ fs, g < M.numFaces := fun g hg => hfs g (List.mem_cons_of_mem _ hg)
    simp only [multiFaces]
    rw [vget_ok (by omega)]
    simp only [Res.ok_bind]
    split
    · exact ih hfs' s hs
    · have hn : G.nearerEnd edge f < M.numNodes1 := by
        unfold MultiGeo.nearerEnd; split <;> assumption
      obtain ⟨t, ht, htl⟩ := multiEdges_total (G := G) hmask h1 h2 hn hf (G.crossing i f) s hs
      rw [ht]
      exact ih hfs' t htl

theorem multiLoop_total {M : Meshes} {G : MultiGeo} {mask : List Bool} (hmask : mask.length = M.numNodes1)
    (es : List (Nat × Nat)) (hes : ∀ e ∈ es, e.1 < M.numNodes1 ∧ e.2 < M.numNodes1)
    (hnear : ∀ i, ∀ f ∈ G.near i, f < M.numFaces) (i : Nat) (s : Marked) (hs : s.2.length = M.numFaces) :
    ∃ t, multiLoop M G mask es i s = .ok t := by
  induction es generalizing i s with
  | nil => exact ⟨s, rfl⟩
  | cons e es ih =>
    obtain ⟨h1, h2⟩ := hes e List.mem_cons_self
    simp only [multiLoop]
    rw [if_neg (by omega)]
    obtain ⟨t, ht, htl⟩ := multiFaces_total (G := G) hmask i h1 h2 (G.near i) (hnear i) s hs
    rw [ht]
    exact ih (fun e he => hes e (List.mem_cons_of_mem _ he)) (i + 1) t htl

/-! ## Polygons -/

/-- What is stored for polygon `k` after the faces `fs`. -/
def PolyEntry (G : PolyGeo) (mask : List Bool) (fs : List Nat) (k : Nat) (c : Closest) : Prop :=
  (c.found = false ∧ c.node = missing ∧ c.face = missing ∧ ∀ f ∈ fs, G.polygonOf f ≠ (true, k)) ∨
  (c.found = true ∧ c.face ∈ fs ∧ G.polygonOf c.face = (true, k) ∧ c.node = G.nearest c.face ∧
    mask[c.node]? = some true ∧ ∀ f ∈ fs, G.polygonOf f = (true, k) → G.dist c.face ≤ G.dist f)

theorem findMasked_ok {mask : List Bool} (hm : mask ≠ []) {n m : Nat} (h : findMasked mask n = .ok m) :
    m = n ∧ mask[n]? = some true := by
  unfold findMasked at h
  rw [if_neg (by simpa using hm)] at h
  obtain ⟨b, hb, h⟩ := Res.bind_eq_ok.1 h
  split at h
  · rename_i hbt
    subst hbt
    exact ⟨(Res.ok.inj h).symm, vget_eq_ok.1 hb⟩
  · cases h

theorem PolyEntry.skip {G : PolyGeo} {mask : List Bool} {fs : List Nat} {k : Nat} {c : Closest} {f : Nat}
    (h : PolyEntry G mask fs k c) (hf : G.polygonOf f ≠ (true, k)) : PolyEntry G mask (fs ++ [f]) k c := by
  rcases h with ⟨a, b, d, e⟩ | ⟨a, b, d, e, g, m⟩
  · refine Or.inl ⟨a, b, d, ?_⟩
    intro x hx
    rcases List.mem_append.1 hx with hx | hx
    · exact e x hx
    · rw [List.mem_singleton.1 hx]; exact hf
  · refine Or.inr ⟨a, List.mem_append_left _ b, d, e, g, ?_⟩
    intro x hx hxk
    rcases List.mem_append.1 hx with hx | hx
    · exact m x hx hxk
    · rw [List.mem_singleton.1 hx] at hxk; exact absurd hxk hf

theorem polyStep_ok {M : Meshes} {G : PolyGeo} {mask : List Bool} (hm : mask ≠ []) {cs cs' : List Closest}
    {fs : List Nat} {f : Nat} (hlen : cs.length = G.numPolygons)
    (hcs : ∀ k c, cs[k]? = some c → PolyEntry G mask fs k c) (h : polyStep M G mask cs f = .ok cs') :
    cs'.length = G.numPolygons ∧ ∀ k c, cs'[k]? = some c → PolyEntry G mask (fs ++ [f]) k c := by
  unfold polyStep at h
  split at h
  · rename_i hin
    obtain rfl := Res.ok.inj h
    refine ⟨hlen, fun k c hk => (hcs k c hk).skip (fun he => ?_)⟩
    rw [he] at hin
    simp at hin
  · rename_i hin
    have hin' : (G.polygonOf f).1 = true := by simpa using hin
    obtain ⟨n, hn, h⟩ := Res.bind_eq_ok.1 h
    obtain ⟨_, _, h⟩ := Res.bind_eq_ok.1 h
    obtain ⟨c0, hc0, h⟩ := Res.bind_eq_ok.1 h
    obtain ⟨rfl, hmask⟩ := findMasked_ok hm hn
    have hk0 := vget_eq_ok.1 hc0
    split at h
    · rename_i hbetter
      obtain ⟨hlt, rfl⟩ := vset_eq_ok.1 h
      refine ⟨by simpa using hlen, ?_⟩
      intro k c hk
      by_cases hkf : k = (G.polygonOf f).2
      · subst hkf
        rw [List.getElem?_set_self hlt] at hk
        obtain rfl := Option.some.inj hk
        refine Or.inr ⟨rfl, by simp, by rw [← hin'], rfl, hmask, ?_⟩
        intro x hx hxk
        rcases List.mem_append.1 hx with hx | hx
        · rcases hcs _ _ hk0 with ⟨a, b, d, e⟩ | ⟨a, b, d, e, g, m⟩
          · exact absurd hxk (e x hx)
          · rcases hbetter with hb | hb
            · rw [a] at hb; simp at hb
            · exact le_trans (le_of_lt hb) (m x hx hxk)
        · rw [List.mem_singleton.1 hx]
      · rw [List.getElem?_set_ne (fun h => hkf h.symm)] at hk
        exact (hcs k c hk).skip (fun he => hkf (by rw [he]))
    · rename_i hbetter
      push Not at hbetter
      obtain rfl := Res.ok.inj h
      refine ⟨hlen, ?_⟩
      intro k c hk
      by_cases hkf : k = (G.polygonOf f).2
      · subst hkf
        rw [hk0] at hk
        obtain rfl := Option.some.inj hk
        rcases hcs _ _ hk0 with ⟨a, b, d, e⟩ | ⟨a, b, d, e, g, m⟩
        · exact absurd a hbetter.1
        · refine Or.inr ⟨a, List.mem_append_left _ b, d, e, g, ?_⟩
          intro x hx hxk
          rcases List.mem_append.1 hx with hx | hx
          · exact m x hx hxk
          · rw [List.mem_singleton.1 hx]; exact hbetter.2
      · exact (hcs k c hk).skip (fun he => hkf (by rw [he]))

theorem polyLoop_ok {M : Meshes} {G : PolyGeo} {mask : List Bool} (hm : mask ≠ []) {gs : List Nat}
    {cs cs' : List Closest} {fs : List Nat} (hlen : cs.length = G.numPolygons)
    (hcs : ∀ k c, cs[k]? = some c → PolyEntry G mask fs k c) (h : polyLoop M G mask gs cs = .ok cs') :
    cs'.length = G.numPolygons ∧ ∀ k c, cs'[k]? = some c → PolyEntry G mask (fs ++ gs) k c := by
  induction gs generalizing cs fs with
  | nil =>
    simp only [polyLoop] at h
    obtain rfl := Res.ok.inj h
    exact ⟨hlen, by simpa using hcs⟩
  | cons g gs ih =>
    simp only [polyLoop] at h
    obtain ⟨c1, hc1, h⟩ := Res.bind_eq_ok.1 h
    obtain ⟨hlen1, hcs1⟩ := polyStep_ok hm hlen hcs hc1
    have := ih hlen1 hcs1 h
    simpa using this

theorem polyLoop_total {M : Meshes} {G : PolyGeo} {mask : List Bool} (hmask : mask.length = M.numNodes1) (gs : List Nat)
    (hgs : ∀ f ∈ gs, (G.polygonOf f).1 = true → mask[G.nearest f]? = some true ∧ (G.polygonOf f).2 < G.numPolygons)
    (cs : List Closest) (hlen : cs.length = G.numPolygons) : ∃ cs', polyLoop M G mask gs cs = .ok cs' := by
  induction gs generalizing cs with
  | nil => exact ⟨cs, rfl⟩
  | cons g gs ih =>
    have step : ∃ c1, polyStep M G mask cs g = .ok c1 ∧ c1.length = G.numPolygons := by
      unfold polyStep
      split
      · exact ⟨cs, rfl, hlen⟩
      · rename_i hin
        obtain ⟨h1, h2⟩ := hgs g List.mem_cons_self (by simpa using hin)
        obtain ⟨hlt, hv⟩ := List.getElem?_eq_some_iff.1 h1
        have hne : mask.isEmpty = false := by
          cases mask with
          | nil => simp at hlt
          | cons _ _ => rfl
        unfold findMasked
        rw [if_neg (by simp [hne]), vget_ok hlt, Res.ok_bind, hv, if_pos rfl, Res.ok_bind, nodeCheck_lt (by omega),
          Res.ok_bind, vget_ok (by omega), Res.ok_bind]
        split
        · rw [vset_ok _ (by omega)]
          exact ⟨_, rfl, by simpa using hlen⟩
        · exact ⟨cs, rfl, hlen⟩
    obtain ⟨c1, hc1, hl1⟩ := step
    simp only [polyLoop, hc1, Res.ok_bind]
    exact ih (fun f hf => hgs f (List.mem_cons_of_mem _ hf)) c1 hl1

/-! ## Boundary -/

/-- What is stored for a face after the visits `V` (pairs of node and face). -/
structure BoundEntry (G : BoundGeo) (V : List (Nat × Nat)) (f : Nat) (valid : Bool) (node : Nat) : Prop where
  invalid : valid = false → ¬ (G.onBoundary f = true ∧ G.inPolygon f = true)
  none : node = missing → ∀ p ∈ V, p.2 = f → ¬ (G.onBoundary f = true ∧ G.inPolygon f = true)
  some : node ≠ missing → G.onBoundary f = true ∧ G.inPolygon f = true ∧ (node, f) ∈ V ∧
    ∀ p ∈ V, p.2 = f → G.dist node f ≤ G.dist p.1 f

/-- Invariant: every face has its entry. -/
structure BoundInv (M : Meshes) (G : BoundGeo) (V : List (Nat × Nat)) (s : Candidates) : Prop where
  size1 : s.valid.length = M.numFaces
  size2 : s.node.length = M.numFaces
  entry : ∀ (f : Nat) v n, s.valid[f]? = some v → s.node[f]? = some n → BoundEntry G V f v n

theorem BoundEntry.other {G : BoundGeo} {V : List (Nat × Nat)} {f v n} (h : BoundEntry G V f v n) {q : Nat × Nat}
    (hq : q.2 ≠ f ∨ ¬ (G.onBoundary f = true ∧ G.inPolygon f = true)) : BoundEntry G (V ++ [q]) f v n := by
  refine ⟨h.invalid, ?_, ?_⟩
  · intro hn p hp hpf hbad
    rcases List.mem_append.1 hp with hp | hp
    · exact h.none hn p hp hpf hbad
    · rw [List.mem_singleton.1 hp] at hpf
      rcases hq with hq | hq
      · exact hq hpf
      · exact hq hbad
  · intro hn
    obtain ⟨a, b, c, d⟩ := h.some hn
    refine ⟨a, b, List.mem_append_left _ c, ?_⟩
    intro p hp hpf
    rcases List.mem_append.1 hp with hp | hp
    · exact d p hp hpf
    · rw [List.mem_singleton.1 hp] at hpf
      rcases hq with hq | hq
      · exact absurd hpf hq
      · exact absurd ⟨a, b⟩ hq

theorem boundFaces_ok {M : Meshes} {G : BoundGeo} {n : Nat} (hn : n ≠ missing) {fs : List Nat} {s t : Candidates}
    {V : List (Nat × Nat)} (hinv : BoundInv M G V s) (h : boundFaces M G n fs s = .ok t) :
    BoundInv M G (V ++ fs.map (fun f => (n, f))) t := by
  induction fs generalizing s V with
  | nil =>
    simp only [boundFaces] at h
    obtain rfl := Res.ok.inj h
    simpa using hinv
  | cons f fs ih =>
    simp only [boundFaces] at h
    rw [List.map_cons, List.append_cons]
    obtain ⟨v, hv, h⟩ := Res.bind_eq_ok.1 h
    have hv' := vget_eq_ok.1 hv
    split at h
    · rename_i hvf
      refine ih ?_ h
      refine ⟨hinv.size1, hinv.size2, ?_⟩
      intro g w m hw hmm
      refine (hinv.entry g w m hw hmm).other ?_
      by_cases hgf : g = f
      · right
        subst hgf
        rw [hv'] at hw
        obtain rfl := Option.some.inj hw
        exact (hinv.entry g _ m hv' hmm).invalid (by simpa using hvf)
      · exact Or.inl (fun h => hgf h.symm)
    · have hbad : ∀ v1, vset s.valid f false = .ok v1 → ¬ (G.onBoundary f = true ∧ G.inPolygon f = true) →
          BoundInv M G (V ++ [(n, f)]) { s with valid := v1 } := by
        intro v1 hv1 hno
        obtain ⟨hlt, rfl⟩ := vset_eq_ok.1 hv1
        refine ⟨by simpa using hinv.size1, hinv.size2, ?_⟩
        intro g w m hw hmm
        by_cases hgf : g = f
        · subst hgf
          simp only [List.getElem?_set_self hlt] at hw
          obtain rfl := Option.some.inj hw
          have := (hinv.entry g v m hv' hmm).other (q := (n, g)) (Or.inr hno)
          exact ⟨fun _ => hno, this.none, this.some⟩
        · simp only [List.getElem?_set_ne (fun h => hgf h.symm)] at hw
          exact (hinv.entry g w m hw hmm).other (Or.inl (fun h => hgf h.symm))
      split at h
      · rename_i hb
        obtain ⟨v1, hv1, h⟩ := Res.bind_eq_ok.1 h
        exact ih (hbad v1 hv1 (fun hh => by simp [hh.1] at hb)) h
      · split at h
        · rename_i hb
          obtain ⟨v1, hv1, h⟩ := Res.bind_eq_ok.1 h
          exact ih (hbad v1 hv1 (fun hh => by simp [hh.2] at hb)) h
        · rename_i hvt hb1 hb2
          have hvt' : v = true := by simpa using hvt
          have hb1' : G.onBoundary f = true := by simpa using hb1
          have hb2' : G.inPolygon f = true := by simpa using hb2
          obtain ⟨old, hold, h⟩ := Res.bind_eq_ok.1 h
          have hold' := vget_eq_ok.1 hold
          have key : ∀ n1, vset s.node f n = .ok n1 → (old ≠ missing → G.dist n f ≤ G.dist old f) →
              BoundInv M G (V ++ [(n, f)]) { s with node := n1 } := by
            intro n1 hn1 hd
            obtain ⟨hlt, rfl⟩ := vset_eq_ok.1 hn1
            refine ⟨hinv.size1, by simpa using hinv.size2, ?_⟩
            intro g w m hw hmm
            by_cases hgf : g = f
            · subst hgf
              simp only [List.getElem?_set_self hlt] at hmm
              obtain rfl := Option.some.inj hmm
              have he := hinv.entry g v old hv' hold'
              simp only [] at hw
              rw [hv', hvt'] at hw
              obtain rfl := Option.some.inj hw
              refine ⟨fun h => by simp at h, fun h => absurd h hn, fun _ => ⟨hb1', hb2', by simp, ?_⟩⟩
              intro p hp hpf
              rcases List.mem_append.1 hp with hp | hp
              · by_cases hm : old = missing
                · exact absurd ⟨hb1', hb2'⟩ (he.none hm p hp hpf)
                · exact le_trans (hd hm) ((he.some hm).2.2.2 p hp hpf)
              · rw [List.mem_singleton.1 hp]
            · simp only [List.getElem?_set_ne (fun h => hgf h.symm)] at hmm
              exact (hinv.entry g w m hw hmm).other (Or.inl (fun h => hgf h.symm))
          split at h
          · rename_i hm
            obtain ⟨n1, hn1, h⟩ := Res.bind_eq_ok.1 h
            exact ih (key n1 hn1 (fun hh => absurd hm hh)) h
          · rename_i hm
            obtain ⟨_, _, h⟩ := Res.bind_eq_ok.1 h
            split at h
            · rename_i hd
              obtain ⟨n1, hn1, h⟩ := Res.bind_eq_ok.1 h
              exact ih (key n1 hn1 (fun _ => le_of_lt hd)) h
            · rename_i hd
              refine ih ?_ h
              refine ⟨hinv.size1, hinv.size2, ?_⟩
              intro g w m hw hmm
              by_cases hgf : g = f
              · subst hgf
                have he := hinv.entry g w m hw hmm
                rw [hold'] at hmm
                obtain rfl := Option.some.inj hmm
                obtain ⟨a, b, c, d⟩ := he.some hm
                refine ⟨he.invalid, fun h => absurd h hm, fun _ => ⟨a, b, List.mem_append_left _ c, ?_⟩⟩
                intro p hp hpf
                rcases List.mem_append.1 hp with hp | hp
                · exact d p hp hpf
                · rw [List.mem_singleton.1 hp]
                  exact not_lt.1 hd
              · exact (hinv.entry g w m hw hmm).other (Or.inl (fun h => hgf h.symm))

/-- The visits of the unmasked nodes. -/
def visits (G : BoundGeo) (mask : List Bool) (ns : List Nat) : List (Nat × Nat) :=
  (ns.filter (fun n => mask[n]? == some true)).flatMap (fun n => (G.near n).map (fun f => (n, f)))

theorem mem_visits {G : BoundGeo} {mask : List Bool} {ns : List Nat} {p : Nat × Nat} :
    p ∈ visits G mask ns ↔ p.1 ∈ ns ∧ mask[p.1]? = some true ∧ p.2 ∈ G.near p.1 := by
  unfold visits
  simp only [List.mem_flatMap, List.mem_filter, beq_iff_eq, List.mem_map]
  constructor
  · rintro ⟨n, ⟨h1, h2⟩, f, hf, rfl⟩
    exact ⟨h1, h2, hf⟩
  · rintro ⟨h1, h2, h3⟩
    exact ⟨p.1, ⟨h1, h2⟩, p.2, h3, rfl⟩

theorem boundLoop_ok {M : Meshes} {G : BoundGeo} {mask : List Bool} (hm : mask ≠ []) {ns : List Nat}
    (hns : ∀ n ∈ ns, n ≠ missing) {s t : Candidates} {V : List (Nat × Nat)} (hinv : BoundInv M G V s)
    (h : boundLoop M G mask ns s = .ok t) : BoundInv M G (V ++ visits G mask ns) t := by
  induction ns generalizing s V with
  | nil =>
    simp only [boundLoop] at h
    obtain rfl := Res.ok.inj h
    simpa [visits] using hinv
  | cons n ns ih =>
    simp only [boundLoop] at h
    obtain ⟨out, ho, h⟩ := Res.bind_eq_ok.1 h
    have ho' := maskedOut_ok hm ho
    have hns' : ∀ k ∈ ns, k ≠ missing := fun k hk => hns k (List.mem_cons_of_mem _ hk)
    split at h
    · rename_i hout
      subst hout
      have hv : visits G mask (n :: ns) = visits G mask ns := by
        unfold visits
        rw [List.filter_cons_of_neg (by simp [ho'])]
      rw [hv]
      exact ih hns' hinv h
    · rename_i hout
      have hout' : out = false := by simpa using hout
      subst hout'
      obtain ⟨s1, hs1, h⟩ := Res.bind_eq_ok.1 h
      have h1 := boundFaces_ok (hns n List.mem_cons_self) hinv hs1
      have hv : visits G mask (n :: ns) = (G.near n).map (fun f => (n, f)) ++ visits G mask ns := by
        unfold visits
        rw [List.filter_cons_of_pos (by simp [ho']), List.flatMap_cons]
      rw [hv, ← List.append_assoc]
      exact ih hns' h1 h

theorem collect_ok {s : Candidates} {fs : List Nat} (hnd : fs.Nodup) {l : List (Nat × Nat)} {c : Lists}
    (h : loop (collectStep s) fs (Lists.of l) = .ok c) :
    ∃ l', c = Lists.of (l ++ l') ∧ (l'.map Prod.snd).Sublist fs ∧
      ∀ p : Nat × Nat, p ∈ l' ↔ p.2 ∈ fs ∧ s.node[p.2]? = some p.1 ∧ p.1 ≠ missing ∧ s.valid[p.2]? = some true := by
  induction fs generalizing l with
  | nil =>
    simp only [loop] at h
    obtain rfl := Res.ok.inj h
    exact ⟨[], by simp, by simp, by simp⟩
  | cons f fs ih =>
    simp only [loop] at h
    obtain ⟨c1, hc1, h⟩ := Res.bind_eq_ok.1 h
    obtain ⟨hnf, hnd'⟩ := List.nodup_cons.1 hnd
    unfold collectStep at hc1
    obtain ⟨n, hn, hc1⟩ := Res.bind_eq_ok.1 hc1
    obtain ⟨v, hv, hc1⟩ := Res.bind_eq_ok.1 hc1
    have hn' := vget_eq_ok.1 hn
    have hv' := vget_eq_ok.1 hv
    split at hc1
    · rename_i hcond
      rw [of_push] at hc1
      obtain rfl := Res.ok.inj hc1
      obtain ⟨l', rfl, hsub, hl'⟩ := ih hnd' h
      refine ⟨(n, f) :: l', by simp, by simpa using hsub, ?_⟩
      intro p
      rw [List.mem_cons, hl' p]
      constructor
      · rintro (rfl | ⟨h1, h2⟩)
        · exact ⟨List.mem_cons_self, hn', hcond.1, by rw [hv', hcond.2]⟩
        · exact ⟨List.mem_cons_of_mem _ h1, h2⟩
      · rintro ⟨h1, h2, h3, h4⟩
        rcases List.mem_cons.1 h1 with h1 | h1
        · left
          rw [h1, hn'] at h2
          exact Prod.ext (Option.some.inj h2).symm h1
        · exact Or.inr ⟨h1, h2, h3, h4⟩
    · rename_i hcond
      obtain rfl := Res.ok.inj hc1
      obtain ⟨l', rfl, hsub, hl'⟩ := ih hnd' h
      refine ⟨l', rfl, hsub.trans (List.sublist_cons_self _ _), ?_⟩
      intro p
      rw [hl' p]
      constructor
      · rintro ⟨h1, h2⟩
        exact ⟨List.mem_cons_of_mem _ h1, h2⟩
      · rintro ⟨h1, h2, h3, h4⟩
        rcases List.mem_cons.1 h1 with h1 | h1
        · exfalso
          rw [h1, hn'] at h2
          rw [h1, hv'] at h4
          apply hcond
          rw [Option.some.inj h2]
          exact ⟨h3, Option.some.inj h4⟩
        · exact ⟨h1, h2, h3, h4⟩

end Verif.Contacts
