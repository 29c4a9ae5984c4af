import Verif.Refine.Lemmas
/-!
# Lemmas: one round of splitting
-/
namespace Verif.Refine
open Verif.Mesh Verif.Faces Verif.Circular
variable {P : Type} {mid : P → P → P}

/-! ## Nodes in the middle of the edges -/

theorem pointOf_ok {m : Mesh P} {n : Nat} {p : P} (h : pointOf m n = .ok p) : m.nodes[n]? = some (some p) := by
  simp only [pointOf, Res.bind_eq_ok] at h
  obtain ⟨v, h1, h2⟩ := h
  rw [vget_eq_ok] at h1
  cases v with
  | none => cases h2
  | some q => simp only [Res.ok.injEq] at h2; rw [h1, h2]

/-- `u` comes from `s` by recorded edits. -/
def Ran (mid : P → P → P) (s u : Split P) : Prop := ∃ as, u.acts = s.acts ++ as ∧ Makes mid s.mesh as u.mesh

theorem Ran.refl (mid : P → P → P) (s : Split P) : Ran mid s s := ⟨[], by simp, Makes.refl mid _⟩

theorem Ran.trans {s u v : Split P} (h1 : Ran mid s u) (h2 : Ran mid u v) : Ran mid s v := by
  obtain ⟨as, a1, a2⟩ := h1
  obtain ⟨bs, b1, b2⟩ := h2
  exact ⟨as ++ bs, by rw [b1, a1, List.append_assoc], a2.trans b2⟩

/-- What is known in the loop over the edges before edge `j`. -/
structure Mids (mid : P → P → P) (s : Split P) (j : Nat) (u : Split P) : Prop where
  ran : Ran mid s u
  edges : u.mesh.edges = s.mesh.edges
  bro : u.bro = s.bro
  nodes : ∃ l, u.mesh.nodes = s.mesh.nodes ++ l
  later : ∀ e, j ≤ e → u.edge[e]? = s.edge[e]?
  zero : ∀ e : Nat, e < j → s.edge[e]? = some 0 → u.edge[e]? = some 0
  middle : ∀ e : Nat, e < j → ∀ k, s.edge[e]? = some k → k ≠ 0 → ∃ (n : Nat) (a : Edge) (p q : P), u.edge[e]? = some (n : Int) ∧
    s.mesh.nodes.length ≤ n ∧ 0 < n ∧ s.mesh.edges[e]? = some a ∧ u.mesh.nodes[a.1]? = some (some p) ∧ u.mesh.nodes[a.2]? = some (some q) ∧
    u.mesh.nodes[n]? = some (some (mid p q))
  inj : ∀ e e' : Nat, e < j → e' < j → ∀ n : Nat, n ≠ 0 → u.edge[e]? = some (n : Int) → u.edge[e']? = some (n : Int) → e = e'
  all : ∀ n, s.mesh.nodes.length ≤ n → n < u.mesh.nodes.length → ∃ e : Nat, e < j ∧ u.edge[e]? = some (n : Int)
  marked : ∀ e : Nat, e < j → ∃ k, s.edge[e]? = some k
  old : ∀ e : Nat, e < j → ∀ n : Nat, u.edge[e]? = some (n : Int) → n < u.mesh.nodes.length ∨ n = 0

theorem Mids.refl (mid : P → P → P) (s : Split P) : Mids mid s 0 s where
  ran := Ran.refl mid s
  edges := rfl
  bro := rfl
  nodes := ⟨[], by simp⟩
  later := fun _ _ => rfl
  zero := fun _ h => absurd h (Nat.not_lt_zero _)
  middle := fun _ h => absurd h (Nat.not_lt_zero _)
  inj := fun _ _ h => absurd h (Nat.not_lt_zero _)
  all := fun n h h' => absurd h' (by omega)
  marked := fun _ h => absurd h (Nat.not_lt_zero _)
  old := fun _ h => absurd h (Nat.not_lt_zero _)

theorem middleStep_mids {s u v : Split P} {j : Nat} (h : Mids mid s j u) (hv : middleStep mid j u = .ok v) : Mids mid s (j + 1) v := by
  simp only [middleStep, Res.bind_eq_ok] at hv
  obtain ⟨k, hk, hv⟩ := hv
  rw [vget_eq_ok] at hk
  have hks : s.edge[j]? = some k := by rw [← h.later j (Nat.le_refl _), hk]
  split at hv
  · rename_i hk0
    subst hk0
    simp only [Res.ok.injEq] at hv
    subst hv
    refine { h with later := fun e he => h.later e (by omega), zero := ?_, middle := ?_, inj := ?_, all := ?_, marked := ?_, old := ?_ }
    · intro e he h0
      rcases Nat.lt_succ_iff_lt_or_eq.1 he with he | rfl
      · exact h.zero e he h0
      · exact hk
    · intro e he k' hk' hne
      rcases Nat.lt_succ_iff_lt_or_eq.1 he with he | rfl
      · exact h.middle e he k' hk' hne
      · rw [hks] at hk'; exact absurd (Option.some.inj hk').symm hne
    · intro e e' he he' n hn h1 h2
      have aux : ∀ x : Nat, x < j + 1 → u.edge[x]? = some (n : Int) → x < j := by
        intro x hx hxe
        rcases Nat.lt_succ_iff_lt_or_eq.1 hx with hx | rfl
        · exact hx
        · rw [hk] at hxe; have := Option.some.inj hxe; omega
      exact h.inj e e' (aux e he h1) (aux e' he' h2) n hn h1 h2
    · intro n h1 h2
      obtain ⟨e, he, h3⟩ := h.all n h1 h2
      exact ⟨e, by omega, h3⟩
    · intro e he
      rcases Nat.lt_succ_iff_lt_or_eq.1 he with he | rfl
      · exact h.marked e he
      · exact ⟨0, hks⟩
    · intro e he n hn
      rcases Nat.lt_succ_iff_lt_or_eq.1 he with he | rfl
      · exact h.old e he n hn
      · rw [hk] at hn; have := Option.some.inj hn; right; omega
  · rename_i hk0
    simp only [addMiddle, Res.bind_eq_ok] at hv
    obtain ⟨a, ha, p, hp, q, hq, r, hr, em, hem, x, _, y, _, nm, _, hv⟩ := hv
    simp only [Res.ok.injEq] at hv
    obtain ⟨as, m'⟩ := r
    rw [vget_eq_ok] at ha
    have hp := pointOf_ok hp
    have hq := pointOf_ok hq
    obtain ⟨hje, rfl⟩ := vset_eq_ok.1 hem
    obtain ⟨r1, r2⟩ := insertNodeU_eq hr
    have hm := insertNodeU_makes (mid := mid) hr
    subst hv
    obtain ⟨l, hl⟩ := h.nodes
    have hlen : s.mesh.nodes.length ≤ u.mesh.nodes.length := by rw [hl]; simp
    have hpos : 0 < u.mesh.nodes.length := by have := (List.getElem?_eq_some_iff.1 hp).1; omega
    have ext : Extends u.mesh m' := extends_append r1
    have hself : (u.edge.set j (u.mesh.nodes.length : Int))[j]? = some (u.mesh.nodes.length : Int) := List.getElem?_set_self hje
    have hne : ∀ e, e ≠ j → (u.edge.set j (u.mesh.nodes.length : Int))[e]? = u.edge[e]? := fun e he => List.getElem?_set_ne (Ne.symm he)
    refine ⟨?_, ?_, h.bro, ?_, ?_, ?_, ?_, ?_, ?_, ?_, ?_⟩
    · exact h.ran.trans ⟨as, rfl, hm⟩
    · show m'.edges = _; rw [r2, h.edges]
    · exact ⟨l ++ [some (mid p q)], by show m'.nodes = _; rw [r1, hl, List.append_assoc]⟩
    · intro e he
      show (u.edge.set j _)[e]? = _
      rw [hne e (by omega)]
      exact h.later e (by omega)
    · intro e he h0
      show (u.edge.set j _)[e]? = _
      rcases Nat.lt_succ_iff_lt_or_eq.1 he with he | rfl
      · rw [hne e (by omega)]; exact h.zero e he h0
      · rw [hks] at h0; exact absurd (Option.some.inj h0) hk0
    · intro e he k' hk' hne'
      show ∃ (n : Nat) (a : Edge) (p q : P), (u.edge.set j (u.mesh.nodes.length : Int))[e]? = some (n : Int) ∧ _
      rcases Nat.lt_succ_iff_lt_or_eq.1 he with he | rfl
      · obtain ⟨n, a', p', q', c1, c2, c3, c4, c5, c6, c7⟩ := h.middle e he k' hk' hne'
        exact ⟨n, a', p', q', by rw [hne e (by omega)]; exact c1, c2, c3, c4, ext _ _ c5, ext _ _ c6, ext _ _ c7⟩
      · refine ⟨u.mesh.nodes.length, a, p, q, hself, hlen, hpos, by rw [← h.edges]; exact ha, ext _ _ hp, ext _ _ hq, ?_⟩
        show m'.nodes[_]? = _
        rw [r1, List.getElem?_append_right (Nat.le_refl _)]; simp
    · intro e e' he he' n hn
      show (u.edge.set j _)[e]? = _ → (u.edge.set j _)[e']? = _ → _
      intro h1 h2
      have aux : ∀ x : Nat, x < j → u.edge[x]? = some (n : Int) → n ≠ u.mesh.nodes.length := by
        intro x hx hxe
        rcases h.old x hx n hxe with h | h
        · omega
        · exact absurd h hn
      rcases Nat.lt_succ_iff_lt_or_eq.1 he with he | rfl
      · rcases Nat.lt_succ_iff_lt_or_eq.1 he' with he' | rfl
        · rw [hne e (by omega)] at h1; rw [hne e' (by omega)] at h2
          exact h.inj e e' he he' n hn h1 h2
        · rw [hne e (by omega)] at h1; rw [hself] at h2
          have := Option.some.inj h2
          exact absurd (by omega) (aux e he h1)
      · rcases Nat.lt_succ_iff_lt_or_eq.1 he' with he' | rfl
        · rw [hne e' (by omega)] at h2; rw [hself] at h1
          have := Option.some.inj h1
          exact absurd (by omega) (aux e' he' h2)
        · rfl
    · intro n h1 h2
      show ∃ e : Nat, e < j + 1 ∧ (u.edge.set j _)[e]? = _
      have h2 : n < m'.nodes.length := h2
      rw [r1, List.length_append] at h2
      simp only [List.length_cons, List.length_nil] at h2
      rcases Nat.lt_succ_iff_lt_or_eq.1 h2 with h2 | rfl
      · obtain ⟨e, he, h3⟩ := h.all n h1 h2
        exact ⟨e, by omega, by rw [hne e (by omega)]; exact h3⟩
      · exact ⟨j, by omega, hself⟩
    · intro e he
      rcases Nat.lt_succ_iff_lt_or_eq.1 he with he | rfl
      · exact h.marked e he
      · exact ⟨k, hks⟩
    · intro e he n
      show (u.edge.set j _)[e]? = _ → n < m'.nodes.length ∨ _
      intro hn
      rw [r1, List.length_append]
      simp only [List.length_cons, List.length_nil]
      rcases Nat.lt_succ_iff_lt_or_eq.1 he with he | rfl
      · rw [hne e (by omega)] at hn
        rcases h.old e he n hn with h | h
        · left; omega
        · right; exact h
      · rw [hself] at hn
        have := Option.some.inj hn
        left; omega

theorem middles {s u : Split P} (h : forRange 0 s.mesh.edges.length (middleStep mid) s = .ok u) : Mids mid s s.mesh.edges.length u :=
  forRange_of_ok (Mids mid s) (Nat.zero_le _) h (Mids.refl mid s) (fun _ _ _ _ _ h hv => middleStep_mids h hv)

/-! ## Connections in the faces -/

theorem connect_ran {s u : Split P} {x y : Nat} (h : connect s x y = .ok u) :
    Ran mid s u ∧ u.edge = s.edge ∧ u.node = s.node ∧ u.bro = s.bro ∧ u.mesh.nodes = s.mesh.nodes ∧
      (u.mesh.edges = s.mesh.edges ∨ u.mesh.edges = s.mesh.edges ++ [(x, y)]) := by
  simp only [connect, Res.bind_eq_ok] at h
  obtain ⟨⟨as, m'⟩, h1, h2⟩ := h
  simp only [Res.ok.injEq] at h2
  subst h2
  obtain ⟨a, b⟩ := connectNodesU_eq h1
  exact ⟨⟨as, rfl, connectNodesU_makes h1⟩, rfl, rfl, rfl, a, b⟩

theorem connectAll_ran : ∀ {l : List (Nat × Nat)} {s u : Split P}, connectAll l s = .ok u →
    Ran mid s u ∧ u.edge = s.edge ∧ u.node = s.node ∧ u.bro = s.bro ∧ u.mesh.nodes = s.mesh.nodes ∧
      ∃ es, u.mesh.edges = s.mesh.edges ++ es ∧ ∀ e ∈ es, e ∈ l
  | [], s, u, h => by
    simp only [connectAll, Res.ok.injEq] at h
    subst h
    exact ⟨Ran.refl mid s, rfl, rfl, rfl, rfl, [], by simp, by simp⟩
  | p :: l, s, u, h => by
    simp only [connectAll, Res.bind_eq_ok] at h
    obtain ⟨v, h1, h2⟩ := h
    obtain ⟨a1, a2, a3, a4, a5, a6⟩ := connect_ran (mid := mid) h1
    obtain ⟨b1, b2, b3, b4, b5, es, b6, b7⟩ := connectAll_ran (l := l) h2
    refine ⟨a1.trans b1, b2.trans a2, b3.trans a3, b4.trans a4, b5.trans a5, ?_⟩
    rcases a6 with a6 | a6
    · exact ⟨es, by rw [b6, a6], fun e he => List.mem_cons_of_mem _ (b7 e he)⟩
    · refine ⟨p :: es, by rw [b6, a6, List.append_assoc]; rfl, ?_⟩
      intro e he
      rcases List.mem_cons.1 he with rfl | he
      · exact List.mem_cons_self
      · exact List.mem_cons_of_mem _ (b7 e he)

theorem addCentre_ran {c : P} {b : Bool} {ns : List Nat} {s u : Split P} (h : addCentre c b ns s = .ok u) :
    Ran mid s u ∧ u.edge = s.edge ∧ u.bro = s.bro ∧ u.mesh.nodes = s.mesh.nodes ++ [some c] ∧
      ∃ es, u.mesh.edges = s.mesh.edges ++ es ∧ ∀ e ∈ es, e ∈ ns.map (fun n => (n, s.mesh.nodes.length)) := by
  simp only [addCentre, Res.bind_eq_ok] at h
  obtain ⟨⟨as, m'⟩, h1, s1, h2, nm, _, h3⟩ := h
  simp only [Res.ok.injEq] at h3
  subst h3
  obtain ⟨r1, r2⟩ := insertNodeU_eq h1
  obtain ⟨b1, b2, b3, b4, b5, es, b6, b7⟩ := connectAll_ran (mid := mid) h2
  refine ⟨?_, b2, b4, ?_, es, ?_, b7⟩
  · have : Ran mid s ⟨s.acts ++ as, m', s.edge, s.node, s.bro⟩ := ⟨as, rfl, insertNodeU_makes h1⟩
    obtain ⟨cs, c1, c2⟩ := this.trans b1
    exact ⟨cs, c1, c2⟩
  · show s1.mesh.nodes = _; rw [b5, r1]
  · show s1.mesh.edges = _; rw [b6]; show m'.edges ++ _ = _; rw [r2]

theorem connectFace_ran {c : P} {b : Bool} {k : Nat} {ns : List Nat} {s u : Split P} (h : connectFace c b k ns s = .ok u) :
    Ran mid s u ∧ u.edge = s.edge ∧ u.bro = s.bro ∧ (∃ l, u.mesh.nodes = s.mesh.nodes ++ l) ∧ ∃ l, u.mesh.edges = s.mesh.edges ++ l := by
  simp only [connectFace] at h
  split at h
  · split at h
    · obtain ⟨a1, a2, a3, a4, es, a5, _⟩ := addCentre_ran (mid := mid) h
      exact ⟨a1, a2, a3, ⟨_, a4⟩, ⟨_, a5⟩⟩
    · split at h
      · obtain ⟨b1, b2, b3, b4, b5, es, b6, b7⟩ := connectAll_ran (mid := mid) h
        exact ⟨b1, b2, b4, ⟨[], by simpa using b5⟩, ⟨_, b6⟩⟩
      · simp only [Res.ok.injEq] at h
        subst h
        exact ⟨Ran.refl mid s, rfl, rfl, ⟨[], by simp⟩, ⟨[], by simp⟩⟩
  · obtain ⟨b1, b2, b3, b4, b5, es, b6, b7⟩ := connectAll_ran (mid := mid) h
    exact ⟨b1, b2, b4, ⟨[], by simpa using b5⟩, ⟨_, b6⟩⟩

theorem refineFace_ok {centre : Nat → P} {st : State} {f : Nat} {s u : Split P} (h : refineFace centre st f s = .ok (some u)) :
    ∃ es nodes sides b, st.facesEdges[f]? = some es ∧ sideNodes s.mesh.edges s.edge s.bro es (List.range es.length) [] = .ok (some nodes) ∧
      sidesKept s.bro es = .ok sides ∧ connectFace (centre f) b sides nodes s = .ok u := by
  simp only [refineFace, Res.bind_eq_ok] at h
  obtain ⟨ns, _, es, h2, l, h3, h4⟩ := h
  rw [vget_eq_ok] at h2
  cases l with
  | none => cases h4
  | some nodes =>
    simp only [Res.bind_eq_ok] at h4
    obtain ⟨sides, h5, s', h6, h7⟩ := h4
    simp only [Res.ok.injEq, Option.some.injEq] at h7
    subst h7
    exact ⟨es, nodes, sides, _, h2, h3, h5, h6⟩

theorem refineFaces_ran {centre : Nat → P} {st : State} {face : List Int} : ∀ {fs : List Nat} {s u : Split P} {b : Bool},
    refineFaces centre st face fs s = .ok (b, u) →
    Ran mid s u ∧ u.edge = s.edge ∧ u.bro = s.bro ∧ (∃ l, u.mesh.nodes = s.mesh.nodes ++ l) ∧ ∃ l, u.mesh.edges = s.mesh.edges ++ l
  | [], s, u, b, h => by
    simp only [refineFaces, Res.ok.injEq, Prod.mk.injEq] at h
    obtain ⟨_, rfl⟩ := h
    exact ⟨Ran.refl mid s, rfl, rfl, ⟨[], by simp⟩, ⟨[], by simp⟩⟩
  | f :: fs, s, u, b, h => by
    simp only [refineFaces, Res.bind_eq_ok] at h
    obtain ⟨k, _, h⟩ := h
    split at h
    · exact refineFaces_ran (fs := fs) h
    · simp only [Res.bind_eq_ok] at h
      obtain ⟨r, h1, h2⟩ := h
      cases r with
      | none =>
        simp only [Res.ok.injEq, Prod.mk.injEq] at h2
        obtain ⟨_, rfl⟩ := h2
        exact ⟨Ran.refl mid s, rfl, rfl, ⟨[], by simp⟩, ⟨[], by simp⟩⟩
      | some v =>
        obtain ⟨es, nodes, sides, b', _, _, _, c⟩ := refineFace_ok h1
        obtain ⟨a1, a2, a3, ⟨l, a4⟩, l', a5⟩ := connectFace_ran (mid := mid) c
        obtain ⟨d1, d2, d3, ⟨k, d4⟩, k', d5⟩ := refineFaces_ran (fs := fs) h2
        exact ⟨a1.trans d1, d2.trans a2, d3.trans a3, ⟨l ++ k, by rw [d4, a4, List.append_assoc]⟩, ⟨l' ++ k', by rw [d5, a5, List.append_assoc]⟩⟩

/-! ## Cutting the edges -/

/-- What is known in the loop that cuts the edges before edge `j`; `s` is the state before the loop. -/
structure Cuts (mid : P → P → P) (s : Split P) (j : Nat) (u : Split P) : Prop where
  ran : Ran mid s u
  edge : u.edge = s.edge
  nodes : u.mesh.nodes = s.mesh.nodes
  len : s.mesh.edges.length ≤ u.mesh.edges.length
  same : ∀ i : Nat, i < s.mesh.edges.length → (j ≤ i ∨ ∀ k, s.edge[i]? = some k → k ≤ 0) → u.mesh.edges[i]? = s.mesh.edges[i]?
  cut : ∀ (i : Nat) (k : Int) (a : Edge), i < j → s.edge[i]? = some k → 0 < k → s.mesh.edges[i]? = some a →
    u.mesh.edges[i]? = some (a.1, k.toNat) ∧ ∃ l : Nat, s.mesh.edges.length ≤ l ∧ u.mesh.edges[l]? = some (k.toNat, a.2)
  new : ∀ (l : Nat) e, s.mesh.edges.length ≤ l → u.mesh.edges[l]? = some e → ∃ (i : Nat) (k : Int) (a : Edge), i < j ∧ s.edge[i]? = some k ∧
    0 < k ∧ s.mesh.edges[i]? = some a ∧ e = (k.toNat, a.2)

/-- The mask points at a node in the middle of each of the first `n` edges to be cut. -/
def Aimed (mid : P → P → P) (s : Split P) (n : Nat) : Prop :=
  ∀ (i : Nat) (k : Int), i < n → s.edge[i]? = some k → 0 < k → ∃ (a : Edge) (p q : P), s.mesh.edges[i]? = some a ∧
    s.mesh.nodes[a.1]? = some (some p) ∧ s.mesh.nodes[a.2]? = some (some q) ∧ s.mesh.nodes[k.toNat]? = some (some (mid p q))

theorem Cuts.refl (mid : P → P → P) (s : Split P) : Cuts mid s 0 s where
  ran := Ran.refl mid s
  edge := rfl
  nodes := rfl
  len := Nat.le_refl _
  same := fun _ _ _ => rfl
  cut := fun _ _ _ h => absurd h (Nat.not_lt_zero _)
  new := fun l e h h' => absurd (List.getElem?_eq_some_iff.1 h').1 (by omega)

theorem connectNodes_of_U {m m' : Mesh P} {x y : Nat} {as : List (Act P)} {f : Nat × Mesh P} (h1 : connectNodes m x y = .ok f)
    (h2 : connectNodesU m x y = .ok (as, m')) : (f.1 = missing ∧ m'.edges = m.edges) ∨ (f.1 = m.edges.length ∧ m'.edges = m.edges ++ [(x, y)]) := by
  simp only [connectNodes, connectNodesU, Res.bind_eq_ok] at h1 h2
  obtain ⟨i, hi, h1⟩ := h1
  obtain ⟨i', hi', h2⟩ := h2
  rw [hi] at hi'
  obtain rfl := Res.ok.inj hi'
  split at h1
  · rename_i hm
    rw [if_pos hm] at h2
    simp only [Res.ok.injEq, Prod.mk.injEq] at h1 h2
    left
    rw [← h1, ← h2.2]
    exact ⟨rfl, rfl⟩
  · rename_i hm
    rw [if_neg hm] at h2
    simp only [Res.ok.injEq, Prod.mk.injEq] at h1 h2
    right
    rw [← h1, ← h2.2]
    exact ⟨rfl, rfl⟩

theorem resize_length (l : List Nat) (n : Nat) : (resize l n).length = n := by
  simp [resize]; omega

theorem resetEdgeU_length {m m' : Mesh P} {e : Nat} {a : Edge} {as : List (Act P)} (h : resetEdgeU m e a = .ok (as, m')) :
    m'.edges.length = m.edges.length := by
  simp only [resetEdgeU, resetEdge, Res.bind_eq_ok] at h
  obtain ⟨old, _, m3, ⟨es, h5, h6⟩, h4⟩ := h
  obtain ⟨_, rfl⟩ := vset_eq_ok.1 h5
  simp only [Res.ok.injEq, Prod.mk.injEq] at h4 h6
  obtain ⟨_, rfl⟩ := h4
  subst h6
  simp

theorem cutStep_length {u v : Split P} {j : Nat} (h : cutStep j u = .ok v) : u.mesh.edges.length ≤ v.mesh.edges.length := by
  simp only [cutStep, Res.bind_eq_ok] at h
  obtain ⟨k, _, h⟩ := h
  split at h
  · simp only [cutEdge, Res.bind_eq_ok] at h
    obtain ⟨a, _, f, _, ⟨as, m1⟩, h1, ⟨bs, m2⟩, h2, b1, _, b2, _, h3⟩ := h
    simp only [Res.ok.injEq] at h3
    subst h3
    show _ ≤ m2.edges.length
    rw [resetEdgeU_length h2]
    rcases (connectNodesU_eq h1).2 with c | c <;> rw [c] <;> simp
  · simp only [Res.ok.injEq] at h
    rw [h]

theorem cutStep_cuts {s u v : Split P} {n j : Nat} (hn : n ≤ s.mesh.edges.length) (hj : j < n) (ha : Aimed mid s n) (h : Cuts mid s j u)
    (hfit : v.mesh.edges.length ≤ missing) (hv : cutStep j u = .ok v) : Cuts mid s (j + 1) v := by
  have hmono := cutStep_length hv
  simp only [cutStep, Res.bind_eq_ok] at hv
  obtain ⟨k, hk, hv⟩ := hv
  rw [vget_eq_ok, h.edge] at hk
  split at hv
  · rename_i hk0
    obtain ⟨a, p, q, c1, c2, c3, c4⟩ := ha j k hj hk hk0
    simp only [cutEdge, Res.bind_eq_ok] at hv
    obtain ⟨a', ha', f, hf, ⟨as, m1⟩, h1, ⟨bs, m2⟩, h2, b1, hb1, b2, _, hv⟩ := hv
    simp only [Res.ok.injEq] at hv
    subst hv
    have hju : u.mesh.edges[j]? = some a := by rw [h.same j (by omega) (Or.inl (Nat.le_refl _)), c1]
    rw [vget_eq_ok, hju] at ha'
    obtain rfl := Option.some.inj ha'
    have hfit : m2.edges.length ≤ missing := hfit
    have hcon : m1.edges = u.mesh.edges ++ [(k.toNat, a.2)] := by
      rcases connectNodes_of_U hf h1 with ⟨d1, _⟩ | ⟨_, d2⟩
      · exfalso
        have := (vset_eq_ok.1 hb1).1
        rw [resize_length, d1] at this
        have this : missing < m2.edges.length := this
        omega
      · exact d2
    obtain ⟨e1, e2, e3⟩ := cut_makes (mid := mid) hju (by rw [h.nodes]; exact c2) (by rw [h.nodes]; exact c3) (by rw [h.nodes]; exact c4) h1 hcon h2
    have hju' : j < u.mesh.edges.length := (List.getElem?_eq_some_iff.1 hju).1
    have old : ∀ i, i < u.mesh.edges.length → i ≠ j → m2.edges[i]? = u.mesh.edges[i]? := by
      intro i hi hij
      rw [e3, List.getElem?_append_left (by simpa using hi), List.getElem?_set_ne (Ne.symm hij)]
    have last : m2.edges[u.mesh.edges.length]? = some (k.toNat, a.2) := by
      rw [e3, List.getElem?_append_right (by simp)]; simp
    have self : m2.edges[j]? = some (a.1, k.toNat) := by
      rw [e3, List.getElem?_append_left (by simpa using hju'), List.getElem?_set_self hju']
    refine ⟨?_, h.edge, ?_, Nat.le_trans h.len hmono, ?_, ?_, ?_⟩
    · exact h.ran.trans ⟨as ++ bs, List.append_assoc _ _ _, e1⟩
    · show m2.nodes = _; rw [e2, h.nodes]
    · intro i hi hor
      show m2.edges[i]? = _
      have hij : i ≠ j := by
        rintro rfl
        rcases hor with ho | ho
        · omega
        · have := ho k hk; omega
      rw [old i (Nat.lt_of_lt_of_le hi h.len) hij]
      refine h.same i hi ?_
      rcases hor with ho | ho
      · left; omega
      · right; exact ho
    · intro i k' a' hi hk' h0 ha'
      show m2.edges[i]? = _ ∧ ∃ l : Nat, _ ∧ m2.edges[l]? = _
      rcases Nat.lt_succ_iff_lt_or_eq.1 hi with hi | rfl
      · obtain ⟨f1, l, f2, f3⟩ := h.cut i k' a' hi hk' h0 ha'
        have hil := (List.getElem?_eq_some_iff.1 f1).1
        have hll := (List.getElem?_eq_some_iff.1 f3).1
        exact ⟨by rw [old i hil (by omega)]; exact f1, l, f2, by rw [old l hll (by omega)]; exact f3⟩
      · rw [hk] at hk'; rw [c1] at ha'
        obtain rfl := Option.some.inj hk'
        obtain rfl := Option.some.inj ha'
        exact ⟨self, u.mesh.edges.length, h.len, last⟩
    · intro l e hl
      show m2.edges[l]? = _ → _
      intro he
      have hlen : m2.edges.length = u.mesh.edges.length + 1 := by rw [e3]; simp
      have hl2 := (List.getElem?_eq_some_iff.1 he).1
      rw [hlen] at hl2
      rcases Nat.lt_succ_iff_lt_or_eq.1 hl2 with hl2 | rfl
      · rw [old l hl2 (by omega)] at he
        obtain ⟨i, k', a', g1, g⟩ := h.new l e hl he
        exact ⟨i, k', a', by omega, g⟩
      · rw [last] at he
        exact ⟨j, k, a, by omega, hk, hk0, c1, (Option.some.inj he).symm⟩
  · rename_i hk0
    simp only [Res.ok.injEq] at hv
    subst hv
    refine { h with same := ?_, cut := ?_, new := ?_ }
    · intro i hi hor
      refine h.same i hi ?_
      by_cases hij : i = j
      · left; omega
      · rcases hor with ho | ho
        · left; omega
        · right; exact ho
    · intro i k' a' hi hk' h0 ha'
      rcases Nat.lt_succ_iff_lt_or_eq.1 hi with hi | rfl
      · exact h.cut i k' a' hi hk' h0 ha'
      · rw [hk] at hk'
        exact absurd (Option.some.inj hk' ▸ h0) hk0
    · intro l e hl he
      obtain ⟨i, k', a', g1, g⟩ := h.new l e hl he
      exact ⟨i, k', a', by omega, g⟩

theorem cuts {s u : Split P} {n : Nat} (hn : n ≤ s.mesh.edges.length) (ha : Aimed mid s n) (hfit : u.mesh.edges.length ≤ missing)
    (h : forRange 0 n cutStep s = .ok u) : Cuts mid s n u := by
  have := forRange_of_ok (fun j v => v.mesh.edges.length ≤ missing → Cuts mid s j v) (Nat.zero_le n) h (fun _ => Cuts.refl mid s)
    (fun j u v _ hj hu hv hf => cutStep_cuts hn hj ha (hu (Nat.le_trans (cutStep_length hv) hf)) hf hv)
  exact this hfit

theorem cutStep_good {u v : Split P} {j : Nat} (h : cutStep j u = .ok v) : ∃ as, v.acts = u.acts ++ as ∧ Good u.mesh as v.mesh := by
  simp only [cutStep, Res.bind_eq_ok] at h
  obtain ⟨k, _, h⟩ := h
  split at h
  · simp only [cutEdge, Res.bind_eq_ok] at h
    obtain ⟨a, _, f, _, ⟨as, m1⟩, h1, ⟨bs, m2⟩, h2, b1, _, b2, _, h3⟩ := h
    simp only [Res.ok.injEq] at h3
    subst h3
    exact ⟨as ++ bs, List.append_assoc _ _ _, (connectNodesU_good h1).trans (resetEdgeU_good h2)⟩
  · simp only [Res.ok.injEq] at h
    subst h
    exact ⟨[], by simp, Good.refl _⟩

theorem cutLoop_good {s u : Split P} {n : Nat} (h : forRange 0 n cutStep s = .ok u) : ∃ as, u.acts = s.acts ++ as ∧ Good s.mesh as u.mesh := by
  refine forRange_of_ok (fun _ v => ∃ as, v.acts = s.acts ++ as ∧ Good s.mesh as v.mesh) (Nat.zero_le n) h ⟨[], by simp, Good.refl _⟩ ?_
  rintro j u v _ _ ⟨as, a1, a2⟩ hv
  obtain ⟨bs, b1, b2⟩ := cutStep_good hv
  exact ⟨as ++ bs, by rw [b1, a1, List.append_assoc], a2.trans b2⟩

/-! ## The round -/

/-- After the loop over the edges the mask points at the middles. -/
theorem Mids.aimed {s u : Split P} (h : Mids mid s s.mesh.edges.length u) : Aimed mid u s.mesh.edges.length := by
  intro i k hi hk h0
  obtain ⟨k', hk'⟩ := h.marked i hi
  by_cases hz : k' = 0
  · subst hz
    rw [h.zero i hi hk'] at hk
    have := Option.some.inj hk
    omega
  · obtain ⟨n, a, p, q, c1, c2, c3, c4, c5, c6, c7⟩ := h.middle i hi k' hk' hz
    rw [c1] at hk
    obtain rfl := Option.some.inj hk
    exact ⟨a, p, q, by rw [h.edges]; exact c4, c5, c6, c7⟩

theorem Aimed.mono {s u : Split P} {n : Nat} (h : Aimed mid s n) (he : u.edge = s.edge) (hn : ∃ l, u.mesh.nodes = s.mesh.nodes ++ l)
    (hd : ∃ l, u.mesh.edges = s.mesh.edges ++ l) : Aimed mid u n := by
  intro i k hi hk h0
  rw [he] at hk
  obtain ⟨a, p, q, c1, c2, c3, c4⟩ := h i k hi hk h0
  obtain ⟨l, hl⟩ := hn
  obtain ⟨l', hl'⟩ := hd
  have x := extends_append hl
  exact ⟨a, p, q, by rw [hl', List.getElem?_append_left (List.getElem?_eq_some_iff.1 c1).1]; exact c1, x _ _ c2, x _ _ c3, x _ _ c4⟩

theorem refineBySplitting_ran {centre : Nat → P} {st : State} {face : List Int} {s u : Split P}
    (h : refineBySplitting mid centre st face s = .ok u) : Ran mid s u := by
  simp only [refineBySplitting, Res.bind_eq_ok] at h
  obtain ⟨s1, h1, ⟨b, s2⟩, h2, h3⟩ := h
  have m1 := middles h1
  obtain ⟨a1, a2, a3, a4, a5⟩ := refineFaces_ran (mid := mid) h2
  cases b with
  | true =>
    simp only [if_true, Res.ok.injEq] at h3
    subst h3
    exact m1.ran.trans a1
  | false =>
    simp only [Bool.false_eq_true, if_false] at h3
    have hlen : s.mesh.edges.length ≤ s2.mesh.edges.length := by
      obtain ⟨l, hl⟩ := a5
      rw [hl, m1.edges]; simp
    obtain ⟨as, g1, g2⟩ := cutLoop_good h3
    refine (m1.ran.trans a1).trans ⟨as, g1, g2, fun hn he => ?_⟩
    obtain ⟨bs, _, k⟩ := (cuts hlen (m1.aimed.mono a2 a4 a5) he h3).ran
    exact k.refines hn he

end Verif.Refine
