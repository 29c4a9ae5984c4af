import Verif.Flip.ListLemmas
import Verif.Cross.SegmentLemmas
import Verif.Mesh.UndoLemmas
/-!
# Lemmas: one round of the loop over the edges
-/
namespace Verif.Flip
open Verif.Mesh Verif.Faces
open Verif.Polygons (Pt)

/-- The wanted number of edges of a node. -/
def wanted (types : List Int) (n : Nat) : Int := optimalOf ((types[n]?).getD 0)

theorem validNode_lt' {nodes : List (Option Pt)} {n : Nat} (h : validNode nodes n = true) : n < nodes.length := by
  unfold validNode at h
  by_contra hc
  rw [List.getElem?_eq_none (by omega)] at h
  simp at h

theorem pointAt_ok {nodes : List (Option Pt)} {n : Nat} (h : n < nodes.length) : pointAt nodes n = .ok (position nodes n) := if_pos h

theorem Exact.degree_eq {m : Mesh Pt} {s : State} (h : Exact m s) {n : Nat} {l : List Nat} (hl : m.nodesEdges[n]? = some l) :
    l.length = degree m.edges n := degree_of_list (h.nodup n l hl) (h.listed n l hl)

theorem Exact.list {m : Mesh Pt} {s : State} (h : Exact m s) {n : Nat} (hn : n < m.nodes.length) : ∃ l, m.nodesEdges[n]? = some l :=
  ⟨m.nodesEdges[n]'(by rw [h.lists]; exact hn), List.getElem?_eq_getElem _⟩

theorem excess_eq {m : Mesh Pt} {s : State} (h : Exact m s) {types : List Int} (ht : types.length = m.nodes.length) {n : Nat}
    (hn : n < m.nodes.length) : excess m types n = .ok ((degree m.edges n : Int) - wanted types n) := by
  obtain ⟨l, hl⟩ := h.list hn
  have h1 : m.numEdges[n]? = some (degree m.edges n) := by
    rw [h.counts, List.getElem?_map, hl, ← h.degree_eq hl]; rfl
  have h2 : types[n]? = some (types[n]'(by omega)) := List.getElem?_eq_getElem _
  unfold excess wanted
  rw [vget_eq_ok.2 h1, Res.ok_bind, vget_eq_ok.2 h2, Res.ok_bind, h2]
  rfl

/-- The two triangles of an edge that has two. -/
theorem Linked.quad {edges : List Edge} {s : State} (hL : Linked edges s) {e a b f g : Nat} (he : edges[e]? = some (a, b))
    (hf : s.edgesFaces[e]? = some (f, g)) (h2 : g ≠ missing) {nf ng : List Nat} (hnf : s.facesNodes[f]? = some nf)
    (hng : s.facesNodes[g]? = some ng) (lf : nf.length = 3) (lg : ng.length = 3) :
    f ≠ g ∧ ∃ ef eg l r al bl ar br, s.facesEdges[f]? = some ef ∧ s.facesEdges[g]? = some eg ∧ Triangle edges nf ef e a b l al bl ∧
      Triangle edges ng eg e a b r ar br := by
  obtain ⟨c, p, L, k1, k2, k3, k4, k5⟩ := hL.faces e (List.getElem?_eq_some_iff.1 he).1
  rw [hf] at k2
  obtain rfl := Option.some.inj k2
  obtain ⟨rfl, rfl⟩ := Places.two_of k3 h2
  have hne : f ≠ g := by simpa using k4
  obtain ⟨ef, hef, mf⟩ := (k5 f).1 (by simp)
  obtain ⟨eg, heg, mg⟩ := (k5 g).1 (by simp)
  obtain ⟨l, al, bl, t1⟩ := triangle_of (hL.proper f nf ef hnf hef) lf mf he
  obtain ⟨r, ar, br, t2⟩ := triangle_of (hL.proper g ng eg hng heg) lg mg he
  exact ⟨hne, ef, eg, l, r, al, bl, ar, br, hef, heg, t1, t2⟩

theorem Linked.count {edges : List Edge} {s : State} (hL : Linked edges s) {e f g : Nat} (he : e < edges.length)
    (hf : s.edgesFaces[e]? = some (f, g)) : ∃ c, s.numFaces[e]? = some c ∧ (c = 1 → g = missing) ∧ (g ≠ missing → c = 2) := by
  obtain ⟨c, p, L, k1, k2, k3, k4, k5⟩ := hL.faces e he
  rw [hf] at k2
  obtain rfl := Option.some.inj k2
  refine ⟨c, k1, ?_, fun h => (Places.two_of k3 h).1⟩
  rintro rfl
  cases k3
  rfl

theorem functional_eq {m : Mesh Pt} {s : State} (h : Exact m s) {types : List Int} (ht : types.length = m.nodes.length)
    {e a b f g l r al bl ar br : Nat} {nf ng ef eg : List Nat} (he : m.edges[e]? = some (a, b)) (hf : s.edgesFaces[e]? = some (f, g))
    (h2 : g ≠ missing) (hnf : s.facesNodes[f]? = some nf) (hng : s.facesNodes[g]? = some ng)
    (t1 : Triangle m.edges nf ef e a b l al bl) (t2 : Triangle m.edges ng eg e a b r ar br) (hlr : l ≠ r) :
    functional m s types e =
      .ok (energy (wanted types) m.nodes.length (m.edges.set e (l, r)) - energy (wanted types) m.nodes.length m.edges, l, r) := by
  have hlt := (List.getElem?_eq_some_iff.1 he).1
  obtain ⟨c, hc, hc1, hc2⟩ := h.linked.count hlt hf
  have va : a < m.nodes.length := validNode_lt' (h.corners f nf hnf a (t1.nodes.mem_iff.2 (by simp)))
  have vb : b < m.nodes.length := validNode_lt' (h.corners f nf hnf b (t1.nodes.mem_iff.2 (by simp)))
  have vl : l < m.nodes.length := validNode_lt' (h.corners f nf hnf l (t1.nodes.mem_iff.2 (by simp)))
  have vr : r < m.nodes.length := validNode_lt' (h.corners g ng hng r (t2.nodes.mem_iff.2 (by simp)))
  have hfit := h.nodesFit
  have hmis : missing < 2 ^ 32 := by decide
  have n3 : nf.length = 3 := by rw [t1.nodes.length_eq]; rfl
  have m3 : ng.length = 3 := by rw [t2.nodes.length_eq]; rfl
  obtain ⟨d1, d2, d3⟩ := t1.distinct
  obtain ⟨d4, d5, d6⟩ := t2.distinct
  unfold functional
  rw [vget_eq_ok.2 hc, Res.ok_bind, hc2 h2, if_neg (by omega), vget_eq_ok.2 he, Res.ok_bind, vget_eq_ok.2 hf, Res.ok_bind,
    vget_eq_ok.2 hnf, Res.ok_bind, vget_eq_ok.2 hng, Res.ok_bind, if_neg (by omega)]
  simp only []
  rw [apex_eq t1.nodes (by omega), Res.ok_bind, apex_eq t2.nodes (by omega), Res.ok_bind, if_neg (by omega),
    if_neg (not_not.2 (t1.nodes.mem_iff.2 (by simp))), if_neg (not_not.2 (t2.nodes.mem_iff.2 (by simp))),
    excess_eq h ht va, Res.ok_bind, excess_eq h ht vb, Res.ok_bind, excess_eq h ht vl, Res.ok_bind, excess_eq h ht vr, Res.ok_bind,
    energy_set he ⟨d1, d2, d5, d3, d6, hlr⟩ va vb vl vr]
  congr 2
  ring

/-- Edges and faces of a state. -/
def picture (st : St) : Picture := ⟨st.mesh.edges, st.faces.facesNodes⟩

/-- What the round does to the mesh when it flips. -/
structure Turned (types : List Int) (e : Nat) (st st' : St) : Prop where
  nodes : st'.mesh.nodes = st.mesh.nodes
  edges : st'.mesh.edges.length = st.mesh.edges.length
  flip : Flipped st.mesh.nodes (wanted types) (picture st) (picture st')
  exact : Exact st'.mesh st'.faces
  count : st'.flipped = st.flipped + 1
  stays : st'.left = st.left
  acts : ∃ as, st'.acts = st.acts ++ as ∧ Good st.mesh as st'.mesh

/-- A flip that brings a node to more than 16 edges. -/
def Overfull (types : List Int) (nodes : List (Option Pt)) (p : Picture) : Prop :=
  ∃ p' n, Flipped nodes (wanted types) p p' ∧ n < nodes.length ∧ maxEdgesPerNode < degree p'.edges n

theorem flipEdge_spec {order : List Edge → Nat → List Nat → List Nat} (perm : ∀ es n l, (order es n l).Perm l) {types : List Int} {st : St}
    (h : Exact st.mesh st.faces) {e a b f g l r al bl ar br : Nat} {nf ng ef eg : List Nat}
    (q : Quad st.mesh.edges st.faces e a b l r f g al bl ar br nf ef ng eg)
    (hm : Cross.Meet (position st.mesh.nodes a) (position st.mesh.nodes b) (position st.mesh.nodes l) (position st.mesh.nodes r))
    (hap : Cross.Apart (position st.mesh.nodes a) (position st.mesh.nodes b) (position st.mesh.nodes l) (position st.mesh.nodes r))
    (less : energy (wanted types) st.mesh.nodes.length (st.mesh.edges.set e (l, r)) < energy (wanted types) st.mesh.nodes.length st.mesh.edges) :
    (flipEdge order e a b l r (f, g) st = .ub ∧ Overfull types st.mesh.nodes (picture st)) ∨
      ∃ st', flipEdge order e a b l r (f, g) st = .ok st' ∧ Turned types e st st' := by
  obtain ⟨d1, d2, d3⟩ := q.left.distinct
  obtain ⟨d4, d5, d6⟩ := q.right.distinct
  have hlr := q.apart
  have he := q.edge
  have va' := h.corners f nf q.nodesF a (q.left.nodes.mem_iff.2 (by simp))
  have vb' := h.corners f nf q.nodesF b (q.left.nodes.mem_iff.2 (by simp))
  have vl' := h.corners f nf q.nodesF l (q.left.nodes.mem_iff.2 (by simp))
  have vr' := h.corners g ng q.nodesG r (q.right.nodes.mem_iff.2 (by simp))
  have va := validNode_lt' va'
  have vb := validNode_lt' vb'
  have vl := validNode_lt' vl'
  have vr := validNode_lt' vr'
  obtain ⟨la, ha⟩ := h.list va
  obtain ⟨lb, hb⟩ := h.list vb
  obtain ⟨ll, hl⟩ := h.list vl
  obtain ⟨lr, hr⟩ := h.list vr
  have hlt := (List.getElem?_eq_some_iff.1 he).1
  have ea : e ∈ la := (h.listed a la ha e).2 ⟨_, he, Or.inl rfl⟩
  have eb : e ∈ lb := (h.listed b lb hb e).2 ⟨_, he, Or.inr rfl⟩
  have el : e ∉ ll := by
    intro hc
    obtain ⟨p, k1, k2⟩ := (h.listed l ll hl e).1 hc
    rw [he] at k1
    obtain rfl := Option.some.inj k1
    rcases k2 with k | k
    · exact d2 k
    · exact d3 k
  have er : e ∉ lr := by
    intro hc
    obtain ⟨p, k1, k2⟩ := (h.listed r lr hr e).1 hc
    rw [he] at k1
    obtain rfl := Option.some.inj k1
    rcases k2 with k | k
    · exact d5 k
    · exact d6 k
  have diag : Diagonal st.mesh.nodes st.mesh.edges e a b l r := by
    obtain ⟨p1, u1, v1⟩ := q.left.first
    obtain ⟨p2, u2, v2⟩ := q.left.second
    obtain ⟨p3, u3, v3⟩ := q.right.first
    obtain ⟨p4, u4, v4⟩ := q.right.second
    exact ⟨he, ⟨va', vb', vl', vr'⟩, ⟨d1, d2, d5, d3, d6, hlr⟩, ⟨⟨_, _, u1, v1⟩, ⟨_, _, u2, v2⟩⟩, ⟨⟨_, _, u3, v3⟩, ⟨_, _, u4, v4⟩⟩, hm, hap⟩
  have flipped : Flipped st.mesh.nodes (wanted types) (picture st)
      ⟨st.mesh.edges.set e (l, r), (st.faces.facesNodes.set f [l, r, a]).set g [l, r, b]⟩ :=
    ⟨e, a, b, l, r, f, g, nf, ng, diag, q.ne, q.nodesF, q.nodesG, q.left.nodes, q.right.nodes, rfl, less⟩
  have hu : resetEdgeU st.mesh e (l, r) = .ok ([.resetEdge e (a, b) (l, r)], { st.mesh with edges := st.mesh.edges.set e (l, r) }) := by
    unfold resetEdgeU resetEdge
    rw [vget_eq_ok.2 he, Res.ok_bind, vset_ok _ hlt]
    rfl
  have hgood := resetEdgeU_good hu
  unfold flipEdge
  rw [hu, Res.ok_bind]
  simp only []
  rw [flipFaces_ok h.linked q, Res.ok_bind]
  have hlists := flipLists_eq (order := order) (m := { st.mesh with edges := st.mesh.edges.set e (l, r) }) (e := e) h.counts
    ⟨d1, d2, d5, d3, d6, hlr⟩ ha hb hl hr ea eb vl' vr' perm
  rw [hlists]
  have dl := degree_set (l := l) (r := r) he l
  have dr := degree_set (l := l) (r := r) he r
  rw [if_neg (by omega), if_pos (Or.inl rfl), ← h.degree_eq hl] at dl
  rw [if_neg (by omega), if_pos (Or.inr rfl), ← h.degree_eq hr] at dr
  by_cases c1 : maxEdgesPerNode < ll.length + 1
  · left
    rw [if_pos c1]
    exact ⟨rfl, _, l, flipped, vl, by simp only []; omega⟩
  by_cases c2 : maxEdgesPerNode < lr.length + 1
  · left
    rw [if_neg c1, if_pos c2]
    exact ⟨rfl, _, r, flipped, vr, by simp only []; omega⟩
  right
  rw [if_neg c1, if_neg c2, Res.ok_bind]
  have hla : a < st.mesh.nodesEdges.length := by rw [h.lists]; exact va
  have hlb : b < st.mesh.nodesEdges.length := by rw [h.lists]; exact vb
  have hll : l < st.mesh.nodesEdges.length := by rw [h.lists]; exact vl
  have hlr' : r < st.mesh.nodesEdges.length := by rw [h.lists]; exact vr
  have hq : (quadLists order (st.mesh.edges.set e (l, r)) st.mesh.nodesEdges e a b l r la lb ll lr).length = st.mesh.nodesEdges.length := by
    unfold quadLists; simp
  -- the list of each node
  have look : ∀ n x, (quadLists order (st.mesh.edges.set e (l, r)) st.mesh.nodesEdges e a b l r la lb ll lr)[n]? = some x →
      (n = a ∧ x = la.erase e) ∨ (n = b ∧ x = lb.erase e) ∨ (n = l ∧ x.Perm (ll ++ [e])) ∨ (n = r ∧ x.Perm (lr ++ [e])) ∨
        (n ≠ a ∧ n ≠ b ∧ n ≠ l ∧ n ≠ r ∧ st.mesh.nodesEdges[n]? = some x) := by
    intro n x hx
    unfold quadLists at hx
    by_cases nr : n = r
    · subst nr
      rw [List.getElem?_set_self (by simpa using hlr')] at hx
      obtain rfl := Option.some.inj hx
      exact Or.inr (Or.inr (Or.inr (Or.inl ⟨rfl, perm _ _ _⟩)))
    rw [List.getElem?_set_ne (Ne.symm nr)] at hx
    by_cases nl : n = l
    · subst nl
      rw [List.getElem?_set_self (by simpa using hll)] at hx
      obtain rfl := Option.some.inj hx
      exact Or.inr (Or.inr (Or.inl ⟨rfl, perm _ _ _⟩))
    rw [List.getElem?_set_ne (Ne.symm nl)] at hx
    by_cases nb : n = b
    · subst nb
      rw [List.getElem?_set_self (by simpa using hlb)] at hx
      obtain rfl := Option.some.inj hx
      exact Or.inr (Or.inl ⟨rfl, rfl⟩)
    rw [List.getElem?_set_ne (Ne.symm nb)] at hx
    by_cases na : n = a
    · subst na
      rw [List.getElem?_set_self (by simpa using hla)] at hx
      obtain rfl := Option.some.inj hx
      exact Or.inl ⟨rfl, rfl⟩
    rw [List.getElem?_set_ne (Ne.symm na)] at hx
    exact Or.inr (Or.inr (Or.inr (Or.inr ⟨na, nb, nl, nr, hx⟩)))
  have gete : (st.mesh.edges.set e (l, r))[e]? = some (l, r) := by simp [hlt]
  have geto : ∀ x, x ≠ e → (st.mesh.edges.set e (l, r))[x]? = st.mesh.edges[x]? := fun x hx => List.getElem?_set_ne (Ne.symm hx)
  refine ⟨_, rfl, rfl, by simp, flipped, ?_, rfl, rfl, _, rfl, ?_⟩
  · refine ⟨h.nodesFit, ?_, ?_, by simp only []; rw [hq]; exact h.lists, rfl, ?_, ?_, flipFaces_linked h.linked q, ?_, ?_⟩
    · intro x p hx
      simp only [] at hx
      by_cases hxe : x = e
      · subst hxe
        rw [gete] at hx
        obtain rfl := Option.some.inj hx
        exact Or.inr ⟨vl', vr', hlr⟩
      · rw [geto x hxe] at hx
        exact h.ends x p hx
    · intro n hn
      obtain ⟨x, p, h1, h2⟩ := h.used n hn
      simp only []
      by_cases hxe : x = e
      · subst hxe
        rw [he] at h1
        obtain rfl := Option.some.inj h1
        obtain ⟨p1, u1, v1⟩ := q.left.first
        obtain ⟨p2, u2, v2⟩ := q.left.second
        rcases h2 with rfl | rfl
        · exact ⟨al, p1, by rw [geto al (Ne.symm q.left.apart.1)]; exact u1, (Joins.touches_iff v1).2 (Or.inl rfl)⟩
        · exact ⟨bl, p2, by rw [geto bl (Ne.symm q.left.apart.2.1)]; exact u2, (Joins.touches_iff v2).2 (Or.inl rfl)⟩
      · exact ⟨x, p, by rw [geto x hxe]; exact h1, h2⟩
    · intro n x hx
      rcases look n x hx with ⟨rfl, rfl⟩ | ⟨rfl, rfl⟩ | ⟨rfl, hp⟩ | ⟨rfl, hp⟩ | ⟨_, _, _, _, hx⟩
      · exact (h.nodup _ _ ha).erase _
      · exact (h.nodup _ _ hb).erase _
      · rw [hp.nodup_iff, List.nodup_append]
        exact ⟨h.nodup _ _ hl, by simp, by simpa using fun x hx (hc : x = e) => el (hc ▸ hx)⟩
      · rw [hp.nodup_iff, List.nodup_append]
        exact ⟨h.nodup _ _ hr, by simp, by simpa using fun x hx (hc : x = e) => er (hc ▸ hx)⟩
      · exact h.nodup _ _ hx
    · intro n x hx y
      simp only []
      by_cases hye : y = e
      · subst hye
        rw [gete]
        rcases look n x hx with ⟨rfl, rfl⟩ | ⟨rfl, rfl⟩ | ⟨rfl, hp⟩ | ⟨rfl, hp⟩ | ⟨na, nb, nl, nr, hx⟩
        · rw [(h.nodup _ _ ha).mem_erase_iff]
          simp [Ne.symm d2, Ne.symm d5]
        · rw [(h.nodup _ _ hb).mem_erase_iff]
          simp [Ne.symm d3, Ne.symm d6]
        · rw [hp.mem_iff]; simp
        · rw [hp.mem_iff]; simp
        · rw [h.listed n x hx, he]
          simp [Ne.symm na, Ne.symm nb, Ne.symm nl, Ne.symm nr]
      · rw [geto y hye]
        rcases look n x hx with ⟨rfl, rfl⟩ | ⟨rfl, rfl⟩ | ⟨rfl, hp⟩ | ⟨rfl, hp⟩ | ⟨na, nb, nl, nr, hx⟩
        · rw [(h.nodup _ _ ha).mem_erase_iff, ← h.listed _ _ ha y]; simp [hye]
        · rw [(h.nodup _ _ hb).mem_erase_iff, ← h.listed _ _ hb y]; simp [hye]
        · rw [hp.mem_iff, ← h.listed _ _ hl y]; simp [hye]
        · rw [hp.mem_iff, ← h.listed _ _ hr y]; simp [hye]
        · exact h.listed n x hx y
    · show ((_ : List (List Nat)).set _ _).length ≤ _
      simpa using h.facesFit
    · intro k ns hk n hn
      have hk' : ((st.faces.facesNodes.set f [l, r, a]).set g [l, r, b])[k]? = some ns := hk
      show validNode st.mesh.nodes n = true
      by_cases hkg : k = g
      · subst hkg
        rw [List.getElem?_set_self (by simpa using (List.getElem?_eq_some_iff.1 q.nodesG).1)] at hk'
        obtain rfl := Option.some.inj hk'
        simp only [List.mem_cons, List.not_mem_nil, or_false] at hn
        rcases hn with rfl | rfl | rfl <;> assumption
      · rw [List.getElem?_set_ne (Ne.symm hkg)] at hk'
        by_cases hkf : k = f
        · subst hkf
          rw [List.getElem?_set_self (List.getElem?_eq_some_iff.1 q.nodesF).1] at hk'
          obtain rfl := Option.some.inj hk'
          simp only [List.mem_cons, List.not_mem_nil, or_false] at hn
          rcases hn with rfl | rfl | rfl <;> assumption
        · rw [List.getElem?_set_ne (Ne.symm hkf)] at hk'
          exact h.corners k ns hk' n hn
  · refine hgood.admin _ _ ?_
    simp only [List.length_map, hq, h.counts]

/-- One round: nothing, the early return, a flip, or a node with too many edges. -/
theorem tryEdge_spec {order : List Edge → Nat → List Nat → List Nat} (perm : ∀ es n l, (order es n l).Perm l) {types : List Int} {st : St}
    (h : Exact st.mesh st.faces) (ht : types.length = st.mesh.nodes.length) {e : Nat} (he : e < st.mesh.edges.length) :
    (tryEdge order types e st = .ub ∧ Overfull types st.mesh.nodes (picture st)) ∨
      (tryEdge order types e st = .ok st ∧ (st.left = true ∨ ¬ BetterAt (wanted types) st.mesh st.faces e)) ∨
      (tryEdge order types e st = .ok { st with left := true } ∧
        ∃ ns f g, st.faces.edgesFaces[e]? = some (f, g) ∧ (st.faces.facesNodes[f]? = some ns ∨ st.faces.facesNodes[g]? = some ns) ∧ ns.length ≠ 3) ∨
      ∃ st', tryEdge order types e st = .ok st' ∧ Turned types e st st' := by
  unfold tryEdge
  rcases Bool.eq_false_or_eq_true st.left with hleft | hleft
  · right; left
    rw [if_pos hleft]
    exact ⟨rfl, Or.inl hleft⟩
  rw [if_neg (by rw [hleft]; decide)]
  obtain ⟨c, p, L, k1, k2, k3, k4, k5⟩ := h.linked.faces e he
  obtain ⟨f, g⟩ := p
  rcases hab : st.mesh.edges[e] with ⟨a, b⟩
  have hedge : st.mesh.edges[e]? = some (a, b) := by rw [List.getElem?_eq_getElem he, hab]
  have hnone : ∀ ns, st.faces.facesNodes[missing]? ≠ some ns := by
    intro ns hc
    have := (List.getElem?_eq_some_iff.1 hc).1
    have := h.facesFit
    omega
  have notBetter : (f = missing ∨ g = missing) → ¬ BetterAt (wanted types) st.mesh st.faces e := by
    rintro hm ⟨a', b', l, r, f', g', nf, ng, b1, b2, b3, b4, _⟩
    rw [k2] at b2
    obtain ⟨rfl, rfl⟩ := Prod.mk.inj (Option.some.inj b2)
    rcases hm with rfl | rfl
    · exact hnone _ b3
    · exact hnone _ b4
  rw [vget_eq_ok.2 k1, Res.ok_bind]
  by_cases hc : c = 1
  · right; left
    rw [if_pos hc]
    subst hc
    refine ⟨rfl, Or.inr (notBetter (Or.inr ?_))⟩
    cases k3; rfl
  rw [if_neg hc, vget_eq_ok.2 k2, Res.ok_bind]
  by_cases hm : f = missing ∨ g = missing
  · right; left
    rw [if_pos hm]
    exact ⟨rfl, Or.inr (notBetter hm)⟩
  rw [if_neg hm]
  obtain ⟨hf, hg⟩ := not_or.1 hm
  obtain ⟨rfl, rfl⟩ := Places.two_of k3 hg
  have facesOf : ∀ k, Borders st.faces k e → ∃ ns, st.faces.facesNodes[k]? = some ns := by
    rintro k ⟨es, h1, _⟩
    have hlt := (List.getElem?_eq_some_iff.1 h1).1
    rw [← h.linked.lengths] at hlt
    exact ⟨_, List.getElem?_eq_getElem hlt⟩
  obtain ⟨nf, hnf⟩ := facesOf f ((k5 f).1 (by simp))
  obtain ⟨ng, hng⟩ := facesOf g ((k5 g).1 (by simp))
  simp only []
  rw [vget_eq_ok.2 hnf, Res.ok_bind, vget_eq_ok.2 hng, Res.ok_bind]
  by_cases h3 : nf.length ≠ 3 ∨ ng.length ≠ 3
  · right; right; left
    rw [if_pos h3]
    rcases h3 with h3 | h3
    · exact ⟨rfl, nf, f, g, k2, Or.inl hnf, h3⟩
    · exact ⟨rfl, ng, f, g, k2, Or.inr hng, h3⟩
  rw [if_neg h3]
  have lf : nf.length = 3 := by omega
  have lg : ng.length = 3 := by omega
  obtain ⟨hfg, ef, eg, l, r, al, bl, ar, br, hef, heg, t1, t2⟩ := h.linked.quad hedge k2 hg hnf hng lf lg
  have va := validNode_lt' (h.corners f nf hnf a (t1.nodes.mem_iff.2 (by simp)))
  have vb := validNode_lt' (h.corners f nf hnf b (t1.nodes.mem_iff.2 (by simp)))
  have vl := validNode_lt' (h.corners f nf hnf l (t1.nodes.mem_iff.2 (by simp)))
  have vr := validNode_lt' (h.corners g ng hng r (t2.nodes.mem_iff.2 (by simp)))
  -- the other corners are determined
  have unique : BetterAt (wanted types) st.mesh st.faces e →
      Cross.Meet (position st.mesh.nodes a) (position st.mesh.nodes b) (position st.mesh.nodes l) (position st.mesh.nodes r) ∧
      Cross.Apart (position st.mesh.nodes a) (position st.mesh.nodes b) (position st.mesh.nodes l) (position st.mesh.nodes r) ∧
      energy (wanted types) st.mesh.nodes.length (st.mesh.edges.set e (l, r)) < energy (wanted types) st.mesh.nodes.length st.mesh.edges := by
    rintro ⟨a', b', l', r', f', g', nf', ng', b1, b2, b3, b4, b5, b6, b7, b8, b9⟩
    rw [hedge] at b1
    obtain ⟨rfl, rfl⟩ := Prod.mk.inj (Option.some.inj b1)
    rw [k2] at b2
    obtain ⟨rfl, rfl⟩ := Prod.mk.inj (Option.some.inj b2)
    rw [hnf] at b3
    obtain rfl := Option.some.inj b3
    rw [hng] at b4
    obtain rfl := Option.some.inj b4
    have e1 : l' = l := by
      have := (b5.symm.trans t1.nodes).sum_eq
      simp at this
      omega
    have e2 : r' = r := by
      have := (b6.symm.trans t2.nodes).sum_eq
      simp at this
      omega
    subst e1 e2
    exact ⟨b7, b8, b9⟩
  have hself : ∀ x y z : Pt, Cross.crossing x y z z = false := by
    intro x y z
    rw [Bool.eq_false_iff]
    intro hc
    obtain ⟨_, h2⟩ := (Cross.crossing_iff _ _ _ _).1 hc
    unfold Cross.Apart at h2
    have hd : Cross.det x y z z = 0 := by unfold Cross.det; ring
    rw [hd, abs_zero] at h2
    have : 0 < Cross.eps x y z z := Cross.eps_pos _ _ _ _
    exact absurd h2 (not_le.2 this)
  by_cases hlr : l = r
  · right; left
    subst hlr
    refine ⟨?_, Or.inr fun hb => ?_⟩
    · have hfun : ∃ v, functional st.mesh st.faces types e = .ok (v, l, l) := by
        have hfit := h.nodesFit
        have hmis : missing < 2 ^ 32 := by decide
        unfold functional
        rw [vget_eq_ok.2 k1, Res.ok_bind, if_neg (by omega), vget_eq_ok.2 hedge, Res.ok_bind, vget_eq_ok.2 k2, Res.ok_bind,
          vget_eq_ok.2 hnf, Res.ok_bind, vget_eq_ok.2 hng, Res.ok_bind, if_neg (by omega)]
        simp only []
        rw [apex_eq t1.nodes (by omega), Res.ok_bind, apex_eq t2.nodes (by omega), Res.ok_bind, if_neg (by omega),
          if_neg (not_not.2 (t1.nodes.mem_iff.2 (by simp))), if_neg (not_not.2 (t2.nodes.mem_iff.2 (by simp))),
          excess_eq h ht va, Res.ok_bind, excess_eq h ht vb, Res.ok_bind, excess_eq h ht vl, Res.ok_bind, Res.ok_bind]
        exact ⟨_, rfl⟩
      obtain ⟨v, hv⟩ := hfun
      rw [hv, Res.ok_bind]
      split
      · rfl
      · unfold flipIfCrossing
        rw [vget_eq_ok.2 hedge, Res.ok_bind, pointAt_ok va, Res.ok_bind, pointAt_ok vb, Res.ok_bind, pointAt_ok vl, Res.ok_bind, Res.ok_bind,
          hself]
        rfl
    · have hx := (Cross.crossing_iff _ _ _ _).2 ⟨(unique hb).1, (unique hb).2.1⟩
      rw [hself] at hx
      exact absurd hx (by decide)
  rw [functional_eq h ht hedge k2 hg hnf hng t1 t2 hlr, Res.ok_bind]
  simp only []
  by_cases hv : energy (wanted types) st.mesh.nodes.length (st.mesh.edges.set e (l, r)) - energy (wanted types) st.mesh.nodes.length st.mesh.edges ≥ 0
  · right; left
    rw [if_pos hv]
    refine ⟨rfl, Or.inr fun hb => ?_⟩
    have := (unique hb).2.2
    omega
  rw [if_neg hv]
  unfold flipIfCrossing
  rw [vget_eq_ok.2 hedge, Res.ok_bind, pointAt_ok va, Res.ok_bind, pointAt_ok vb, Res.ok_bind, pointAt_ok vl, Res.ok_bind, pointAt_ok vr,
    Res.ok_bind]
  rcases Bool.eq_false_or_eq_true (Cross.crossing (position st.mesh.nodes a) (position st.mesh.nodes b) (position st.mesh.nodes l)
    (position st.mesh.nodes r)) with hx | hx
  · rw [if_pos hx]
    obtain ⟨x1, x2⟩ := (Cross.crossing_iff _ _ _ _).1 hx
    have hq : Quad st.mesh.edges st.faces e a b l r f g al bl ar br nf ef ng eg := ⟨hedge, k2, hnf, hef, hng, heg, hfg, t1, t2, hlr⟩
    rcases flipEdge_spec perm (types := types) h hq x1 x2 (by omega) with hs | hs
    · exact Or.inl hs
    · exact Or.inr (Or.inr (Or.inr hs))
  · rw [if_neg (by rw [hx]; decide)]
    right; left
    refine ⟨rfl, Or.inr fun hb => ?_⟩
    rw [(Cross.crossing_iff _ _ _ _).2 ⟨(unique hb).1, (unique hb).2.1⟩] at hx
    exact absurd hx (by decide)

end Verif.Flip
