import Verif.Faces.WalkLemmas
import Verif.Mesh.AdminLemmas
/-!
# Lemmas: the administration of nodes and edges before the search for faces

In contrast to `Verif.Mesh.AdminLemmas` the mesh may have repeated edges, edges from a node to itself and nodes with more
than 16 edges.
-/
namespace Verif.Faces
open Verif.Mesh

/-- `Listed` for the first `k` edges. -/
structure ListedUpTo (edges : List Edge) (k : Nat) (adj : List (List Nat)) (N : Nat) : Prop where
  base : Listed edges adj N
  below : ∀ (n : Nat) l, adj[n]? = some l → ∀ e ∈ l, e < k

theorem pushEdge_getElem? (adj : List (List Nat)) {n : Nat} (e k : Nat) {l : List Nat} (hl : adj[n]? = some l) :
    (pushEdge adj n e)[k]? = if k = n then some (l ++ [e]) else adj[k]? := by
  have hn : n < adj.length := (List.getElem?_eq_some_iff.1 hl).1
  unfold pushEdge
  by_cases h : k = n
  · subst h
    rw [if_pos rfl, List.getElem?_set_self hn, hl, Option.getD_some]
  · rw [if_neg h, List.getElem?_set_ne (Ne.symm h)]

theorem otherNode_cases {p : Edge} {n : Nat} (h : p.1 = n ∨ p.2 = n) : (otherNode p n = p.1 ∧ n = p.2) ∨ (otherNode p n = p.2 ∧ n = p.1) := by
  unfold otherNode
  split
  · right; exact ⟨rfl, by assumption⟩
  · next hne =>
    left
    refine ⟨rfl, ?_⟩
    rcases h with h | h
    · exact absurd h.symm hne
    · exact h.symm

theorem alreadyAdded_iff {edges : List Edge} {l : List Nat} {b : Nat} :
    alreadyAdded edges l b = true ↔ ∃ i ∈ l, ∃ c, edges[i]? = some c ∧ (c.1 = b ∨ c.2 = b) := by
  unfold alreadyAdded
  rw [List.any_eq_true]
  constructor
  · rintro ⟨i, hi, h⟩
    cases hc : edges[i]? with
    | none => rw [hc] at h; simp at h
    | some c =>
      rw [hc] at h
      exact ⟨i, hi, c, hc, by simpa using h⟩
  · rintro ⟨i, hi, c, hc, h⟩
    refine ⟨i, hi, ?_⟩
    rw [hc]
    simpa using h

/-- The search on both ends of an edge has the same outcome. -/
theorem alreadyAdded_symm {edges : List Edge} {adj : List (List Nat)} {N a b : Nat} (h : Listed edges adj N) (hab : a ≠ b) {la lb : List Nat}
    (ha : adj[a]? = some la) (hb : adj[b]? = some lb) : alreadyAdded edges la b = true → alreadyAdded edges lb a = true := by
  rw [alreadyAdded_iff, alreadyAdded_iff]
  rintro ⟨i, hi, c, hc, hcb⟩
  obtain ⟨p, p1, _, _, p4, l', q1, q2⟩ := h.ends a la ha i hi
  rw [hc] at p1
  obtain rfl := Option.some.inj p1
  have : otherNode c a = b := by
    unfold otherNode
    split
    · rcases hcb with h | h
      · omega
      · exact h
    · rcases p4 with h | h
      · omega
      · rcases hcb with h' | h'
        · exact h'
        · omega
  rw [this, hb] at q1
  obtain rfl := Option.some.inj q1
  exact ⟨i, q2, c, hc, p4⟩

theorem adminStep_listed {edges : List Edge} {N k : Nat} {adj : List (List Nat)} (h : ListedUpTo edges k adj N)
    (hb : ∀ (e : Nat) p, edges[e]? = some p → p.1 ≠ missing → p.2 ≠ missing → p.1 < N ∧ p.2 < N) :
    ListedUpTo edges (k + 1) (adminStep edges adj k) N := by
  have hmono : ListedUpTo edges (k + 1) adj N := ⟨h.base, fun n l hl e he => by have := h.below n l hl e he; omega⟩
  unfold adminStep
  cases hk : edges[k]? with
  | none => simpa using hmono
  | some p =>
    obtain ⟨a, b⟩ := p
    simp only
    split
    · exact hmono
    · next hm =>
      split
      · exact hmono
      · obtain ⟨haN, hbN⟩ := hb k (a, b) hk (by simp; omega) (by simp; omega)
        simp only at haN hbN
        have haL : a < adj.length := by rw [h.base.len]; exact haN
        have hbL : b < adj.length := by rw [h.base.len]; exact hbN
        have ga := List.getElem?_eq_getElem haL
        have gb := List.getElem?_eq_getElem hbL
        generalize adj[a] = la at ga
        generalize adj[b] = lb at gb
        simp only [ga, Option.getD_some]
        have nota : k ∉ la := fun hh => absurd (h.below a la ga k hh) (Nat.lt_irrefl k)
        have notb : k ∉ lb := fun hh => absurd (h.below b lb gb k hh) (Nat.lt_irrefl k)
        by_cases hab : a = b
        · subst hab
          rw [ga] at gb
          obtain rfl := Option.some.inj gb
          cases hx : alreadyAdded edges la a with
          | true =>
            simp only [if_true, ga, Option.getD_some, hx]
            exact hmono
          | false =>
            simp only [Bool.false_eq_true, if_false]
            have g1 := pushEdge_getElem? adj k a ga
            rw [if_pos rfl] at g1
            have : alreadyAdded edges (((pushEdge adj a k)[a]?).getD []) a = true := by
              rw [g1, alreadyAdded_iff]
              exact ⟨k, by simp, (a, a), hk, Or.inl rfl⟩
            rw [this, if_pos rfl]
            refine ⟨⟨by rw [pushEdge_length]; exact h.base.len, ?_, ?_⟩, ?_⟩
            · intro n l hl
              rw [pushEdge_getElem? adj k n ga] at hl
              split at hl
              · obtain rfl := Option.some.inj hl
                rw [List.nodup_append]
                exact ⟨h.base.nodup a la ga, by simp, by intro x hx y hy; simp at hy; rintro rfl; exact nota (hy ▸ hx)⟩
              · exact h.base.nodup n l hl
            · intro n l hl e he
              rw [pushEdge_getElem? adj k n ga] at hl
              have old : ∀ l0, adj[n]? = some l0 → e ∈ l0 → ∃ p, edges[e]? = some p ∧ p.1 < N ∧ p.2 < N ∧ (p.1 = n ∨ p.2 = n) ∧
                  ∃ l', (pushEdge adj a k)[otherNode p n]? = some l' ∧ e ∈ l' := by
                intro l0 hl0 he0
                obtain ⟨p, p1, p2, p3, p4, l', q1, q2⟩ := h.base.ends n l0 hl0 e he0
                refine ⟨p, p1, p2, p3, p4, ?_⟩
                rw [pushEdge_getElem? adj k _ ga]
                split
                · next hh =>
                  rw [hh, ga] at q1
                  obtain rfl := Option.some.inj q1
                  exact ⟨_, rfl, by simp [q2]⟩
                · exact ⟨l', q1, q2⟩
              split at hl
              · next hn =>
                subst hn
                obtain rfl := Option.some.inj hl
                rcases List.mem_append.1 he with he | he
                · exact old la ga he
                · have : e = k := by simpa using he
                  subst this
                  refine ⟨(n, n), hk, haN, haN, Or.inl rfl, ?_⟩
                  have : otherNode (n, n) n = n := by simp [otherNode]
                  rw [this, g1]
                  exact ⟨_, rfl, by simp⟩
              · exact old l hl he
            · intro n l hl e he
              rw [pushEdge_getElem? adj k n ga] at hl
              split at hl
              · obtain rfl := Option.some.inj hl
                rcases List.mem_append.1 he with he | he
                · have := h.below a la ga e he; omega
                · have : e = k := by simpa using he
                  omega
              · have := h.below n l hl e he; omega
        · cases hx : alreadyAdded edges la b with
          | true =>
            have hy := alreadyAdded_symm h.base hab ga gb hx
            simp only [if_true, gb, Option.getD_some, hy]
            exact hmono
          | false =>
            have hy : alreadyAdded edges lb a = false := by
              cases hy : alreadyAdded edges lb a with
              | false => rfl
              | true =>
                have := alreadyAdded_symm h.base (Ne.symm hab) gb ga hy
                rw [hx] at this; exact absurd this (by simp)
            simp only [Bool.false_eq_true, if_false]
            have g1 : (pushEdge adj a k)[b]? = some lb := by
              rw [pushEdge_getElem? adj k b ga, if_neg (Ne.symm hab), gb]
            rw [g1, Option.getD_some, hy]
            simp only [Bool.false_eq_true, if_false]
            have get : ∀ n, (pushEdge (pushEdge adj a k) b k)[n]? =
                if n = b then some (lb ++ [k]) else if n = a then some (la ++ [k]) else adj[n]? := by
              intro n
              rw [pushEdge_getElem? _ k n g1, pushEdge_getElem? adj k n ga]
            refine ⟨⟨by rw [pushEdge_length, pushEdge_length]; exact h.base.len, ?_, ?_⟩, ?_⟩
            · intro n l hl
              rw [get] at hl
              split at hl
              · obtain rfl := Option.some.inj hl
                rw [List.nodup_append]
                exact ⟨h.base.nodup b lb gb, by simp, by intro x hx y hy; simp at hy; rintro rfl; exact notb (hy ▸ hx)⟩
              · split at hl
                · obtain rfl := Option.some.inj hl
                  rw [List.nodup_append]
                  exact ⟨h.base.nodup a la ga, by simp, by intro x hx y hy; simp at hy; rintro rfl; exact nota (hy ▸ hx)⟩
                · exact h.base.nodup n l hl
            · intro n l hl e he
              rw [get] at hl
              have old : ∀ l0, adj[n]? = some l0 → e ∈ l0 → ∃ p, edges[e]? = some p ∧ p.1 < N ∧ p.2 < N ∧ (p.1 = n ∨ p.2 = n) ∧
                  ∃ l', (pushEdge (pushEdge adj a k) b k)[otherNode p n]? = some l' ∧ e ∈ l' := by
                intro l0 hl0 he0
                obtain ⟨p, p1, p2, p3, p4, l', q1, q2⟩ := h.base.ends n l0 hl0 e he0
                refine ⟨p, p1, p2, p3, p4, ?_⟩
                rw [get]
                split
                · next hh =>
                  rw [hh, gb] at q1
                  obtain rfl := Option.some.inj q1
                  exact ⟨_, rfl, by simp [q2]⟩
                · split
                  · next hh =>
                    rw [hh, ga] at q1
                    obtain rfl := Option.some.inj q1
                    exact ⟨_, rfl, by simp [q2]⟩
                  · exact ⟨l', q1, q2⟩
              split at hl
              · next hn =>
                subst hn
                obtain rfl := Option.some.inj hl
                rcases List.mem_append.1 he with he | he
                · exact old lb gb he
                · have : e = k := by simpa using he
                  subst this
                  refine ⟨(a, n), hk, haN, hbN, Or.inr rfl, ?_⟩
                  have : otherNode (a, n) n = a := by simp [otherNode, Ne.symm hab]
                  rw [this, get, if_neg hab, if_pos rfl]
                  exact ⟨_, rfl, by simp⟩
              · split at hl
                · next hn =>
                  subst hn
                  obtain rfl := Option.some.inj hl
                  rcases List.mem_append.1 he with he | he
                  · exact old la ga he
                  · have : e = k := by simpa using he
                    subst this
                    refine ⟨(n, b), hk, haN, hbN, Or.inl rfl, ?_⟩
                    have : otherNode (n, b) n = b := by simp [otherNode]
                    rw [this, get, if_pos rfl]
                    exact ⟨_, rfl, by simp⟩
                · exact old l hl he
            · intro n l hl e he
              rw [get] at hl
              split at hl
              · obtain rfl := Option.some.inj hl
                rcases List.mem_append.1 he with he | he
                · have := h.below b lb gb e he; omega
                · have : e = k := by simpa using he
                  omega
              · split at hl
                · obtain rfl := Option.some.inj hl
                  rcases List.mem_append.1 he with he | he
                  · have := h.below a la ga e he; omega
                  · have : e = k := by simpa using he
                    omega
                · have := h.below n l hl e he; omega

theorem nodeAdministration_listed {edges : List Edge} {N : Nat}
    (hb : ∀ (e : Nat) p, edges[e]? = some p → p.1 ≠ missing → p.2 ≠ missing → p.1 < N ∧ p.2 < N) :
    Listed edges (nodeAdministration edges N) N := by
  have : ∀ k, ListedUpTo edges k ((List.range k).foldl (adminStep edges) (List.replicate N [])) N := by
    intro k
    induction k with
    | zero =>
      have e : ∀ (n : Nat) (l : List Nat), (List.replicate N ([] : List Nat))[n]? = some l → l = [] := by
        intro n l hl
        rw [List.getElem?_replicate] at hl
        split at hl
        · exact (Option.some.inj hl).symm
        · cases hl
      refine ⟨⟨by simp, ?_, ?_⟩, ?_⟩
      · intro n l hl; rw [e n l hl]; simp
      · intro n l hl x hx; rw [e n l hl] at hx; simp at hx
      · intro n l hl x hx; rw [e n l hl] at hx; simp at hx
    | succ k ih =>
      rw [List.range_succ, List.foldl_append]
      exact adminStep_listed ih hb
  exact (this edges.length).base

/-- Rearranging the list of each node keeps `Listed`. -/
theorem Listed.rearrange {edges : List Edge} {adj : List (List Nat)} {N : Nat} (h : Listed edges adj N) (g : Nat → List Nat → List Nat)
    (hg : ∀ n l, (g n l).Perm l) : Listed edges (adj.mapIdx g) N := by
  refine ⟨by simp [h.len], ?_, ?_⟩
  · intro n l hl
    rw [List.getElem?_mapIdx] at hl
    cases hx : adj[n]? with
    | none => rw [hx] at hl; simp at hl
    | some l0 =>
      rw [hx] at hl
      obtain rfl := Option.some.inj hl
      exact (hg n l0).nodup_iff.2 (h.nodup n l0 hx)
  · intro n l hl e he
    rw [List.getElem?_mapIdx] at hl
    cases hx : adj[n]? with
    | none => rw [hx] at hl; simp at hl
    | some l0 =>
      rw [hx] at hl
      obtain rfl := Option.some.inj hl
      obtain ⟨p, p1, p2, p3, p4, l', q1, q2⟩ := h.ends n l0 hx e ((hg n l0).mem_iff.1 he)
      refine ⟨p, p1, p2, p3, p4, g (otherNode p n) l', ?_, (hg _ l').mem_iff.2 q2⟩
      rw [List.getElem?_mapIdx, q1]; rfl

/-- After the administration the edges of the mesh are deleted or have two valid ends. -/
theorem administrate_listed {P : Type} {order : Nat → List Nat → List Nat} (hperm : ∀ n l, (order n l).Perm l) {m : Mesh P}
    (hn : m.nodes.length ≤ missing) (hb : inBounds m = true) :
    ∃ m1, administrate order m = .ok m1 ∧ m1.nodes.length = m.nodes.length ∧
      (∃ m0, setUnconnectedInvalid m = .ok m0 ∧ m1.nodes = m0.nodes ∧ m1.edges = m0.edges) ∧
      (∀ (e : Nat) p, m1.edges[e]? = some p → p = noEdge ∨ (validNode m1.nodes p.1 = true ∧ validNode m1.nodes p.2 = true)) ∧
      (m1.nodes = [] ∨ (m1.edges = [] ∧ ∀ n, validNode m1.nodes n = false) ∨ (Listed m1.edges m1.nodesEdges m1.nodes.length ∧
        ∀ (n : Nat) l, m1.nodesEdges[n]? = some l → validNode m1.nodes n = true → ∃ l0, l = order n l0)) := by
  obtain ⟨m1, a1, a2, a3, a4⟩ := setUnconnectedInvalid_ok hn hb
  have hvalid : ∀ (e : Nat) p, m1.edges[e]? = some p → p = noEdge ∨ (validNode m1.nodes p.1 = true ∧ validNode m1.nodes p.2 = true) := by
    intro e p hp
    have hlt : e < m.edges.length := by rw [← a3]; exact (List.getElem?_eq_some_iff.1 hp).1
    have h4 := a4 e
    have he1 : edgeAt m1 e = p := by simp [edgeAt, hp]
    have he : edgeAt m e = m.edges[e] := by simp [edgeAt, hlt]
    rw [he1, he] at h4
    split at h4
    · next hs =>
      right
      rw [← seg_connectedNodes hn (List.getElem_mem hlt), ← a2, ← h4] at hs
      unfold seg at hs
      unfold validNode
      cases h1 : m1.nodes[p.1]?.join with
      | none => rw [h1] at hs; simp at hs
      | some x =>
        cases h2 : m1.nodes[p.2]?.join with
        | none => rw [h1, h2] at hs; simp at hs
        | some y => simp
    · exact Or.inl h4
  have hlen : m1.nodes.length = m.nodes.length := by rw [a2, connectedNodes_length]
  have hlt : ∀ n, validNode m1.nodes n = true → n < m1.nodes.length := by
    intro n h
    unfold validNode at h
    by_contra hc
    rw [List.getElem?_eq_none (by omega)] at h
    simp at h
  unfold administrate
  rw [a1]
  simp only
  split
  · next hc =>
    refine ⟨m1, rfl, hlen, ⟨m1, rfl, rfl, rfl⟩, hvalid, ?_⟩
    rw [Bool.or_eq_true] at hc
    rcases hc with h | h
    · exact Or.inl (by simpa using h)
    · right; left
      have h0 : m1.edges = [] := by simpa using h
      have h1 : m.edges = [] := by
        have := a3
        rw [h0] at this
        exact List.length_eq_zero_iff.1 this.symm
      refine ⟨h0, ?_⟩
      intro n
      unfold validNode
      rw [a2, connectedNodes_get]
      simp [connected, h1]
  · refine ⟨_, rfl, hlen, ⟨m1, rfl, rfl, rfl⟩, hvalid, Or.inr (Or.inr ⟨Listed.rearrange (nodeAdministration_listed ?_) _ ?_, ?_⟩)⟩
    · intro e p hp h1 h2
      rcases hvalid e p hp with h | h
      · rw [h] at h1; exact absurd rfl h1
      · exact ⟨hlt _ h.1, hlt _ h.2⟩
    · intro n l
      split
      · exact hperm n l
      · exact List.Perm.refl l
    · intro n l hl hv
      simp only [List.getElem?_mapIdx] at hl
      cases hx : (nodeAdministration m1.edges m1.nodes.length)[n]? with
      | none => rw [hx] at hl; simp at hl
      | some l0 =>
        rw [hx] at hl
        simp only [Option.map_some, Option.some.injEq] at hl
        rw [if_pos hv] at hl
        exact ⟨l0, hl.symm⟩

end Verif.Faces
