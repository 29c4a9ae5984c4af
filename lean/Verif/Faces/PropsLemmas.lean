import Verif.Faces.AdminLemmas
import Verif.Faces.OrderLemmas
import Verif.Faces.TightLemmas
import Verif.Mesh.PropsLemmas
/-!
# Lemmas for the theorems about faces
-/
namespace Verif.Faces
open Verif.Mesh Verif.Polygons

/-- The sides of a proper polygon join valid nodes. -/
theorem proper_valid {P : Type} {nodes : List (Option P)} {edges : List Edge}
    (hv : ∀ (e : Nat) p, edges[e]? = some p → p = noEdge ∨ (validNode nodes p.1 = true ∧ validNode nodes p.2 = true))
    {ns es : List Nat} (hp : Proper edges ns es) : ∀ n ∈ ns, validNode nodes n = true := by
  intro n hn
  obtain ⟨i, hi, rfl⟩ := List.getElem_of_mem hn
  obtain ⟨a, b, e, p, h1, h2, _, h4, h5⟩ := hp.sides i hi
  rw [List.getElem?_eq_getElem hi] at h1
  obtain rfl := Option.some.inj h1
  rcases hv e p h4 with h | h
  · exfalso
    have hne : ns[i] ≠ b := by
      have h3 := hp.atLeast
      have hlt : (i + 1) % ns.length < ns.length := Nat.mod_lt _ (by omega)
      rw [List.getElem?_eq_getElem hlt] at h2
      obtain rfl := Option.some.inj h2
      intro hc
      have := (List.Nodup.getElem_inj_iff hp.nodesDistinct).1 hc
      by_cases hl : i + 1 = ns.length
      · rw [hl, Nat.mod_self] at this; omega
      · rw [Nat.mod_eq_of_lt (by omega)] at this; omega
    rcases h5 with h5 | h5 <;> rw [h, noEdge, Prod.mk.injEq] at h5 <;> exact hne (by rw [← h5.1, ← h5.2])
  · rcases h5 with h5 | h5 <;> rw [h5] at h
    · exact h.1
    · exact h.2

theorem validNode_lt {P : Type} {nodes : List (Option P)} {n : Nat} (h : validNode nodes n = true) : n < nodes.length := by
  unfold validNode at h
  by_contra hc
  rw [List.getElem?_eq_none (by omega)] at h
  simp at h

theorem facesFrom_invalid {edges : List Edge} {adj : List (List Nat)} {cw : List Nat → Bool} {v : Nat → Bool} {N : Nat} (s : State)
    (h : ∀ n, n < N → v n = false) : findFaces edges adj cw v N s = .ok s := by
  have inner : ∀ k (s : State), forRange 0 N (facesFrom edges adj cw v k) s = .ok s := by
    intro k s
    obtain ⟨s', h1, h2⟩ := forRange_inv (f := facesFrom edges adj cw v k) (fun _ t => t = s) (Nat.zero_le N) (s := s) rfl (by
      intro i t _ hi ht
      refine ⟨t, ?_, ht⟩
      unfold facesFrom
      rw [h i hi]; rfl)
    rw [h1, h2]
  obtain ⟨s', h1, h2⟩ := forRange_inv (f := fun k => forRange 0 N (facesFrom edges adj cw v k)) (fun _ t => t = s) (by omega : 3 ≤ 7) (s := s) rfl (by
    intro i t _ _ ht
    exact ⟨t, inner i t, ht⟩)
  unfold findFaces
  rw [h1, h2]

/-- The search for faces always succeeds. -/
theorem doAdministration_ok {P : Type} {order : Nat → List Nat → List Nat} (hperm : ∀ n l, (order n l).Perm l)
    (cw : List (Option P) → List Nat → Bool) {m : Mesh P} (hn : m.nodes.length ≤ missing) (hb : inBounds m = true) :
    ∃ m1 s, administrate order m = .ok m1 ∧ doAdministration order cw m = .ok (m1, s) ∧ Consistent m1.edges (cw m1.nodes) s ∧
      (∀ (f : Nat) ns, s.facesNodes[f]? = some ns → ∀ n ∈ ns, validNode m1.nodes n = true) ∧
      findFaces m1.edges m1.nodesEdges (cw m1.nodes) (validNode m1.nodes) m1.nodes.length (initial m1.edges.length) = .ok s := by
  obtain ⟨m1, a1, a2, _, a3, a4⟩ := administrate_listed hperm hn hb
  have run : ∃ s, findFaces m1.edges m1.nodesEdges (cw m1.nodes) (validNode m1.nodes) m1.nodes.length (initial m1.edges.length) = .ok s ∧
      Consistent m1.edges (cw m1.nodes) s := by
    rcases a4 with h | h | h
    · refine ⟨initial m1.edges.length, facesFrom_invalid _ ?_, initial_consistent _ _⟩
      intro n hlt; rw [h] at hlt; simp at hlt
    · exact ⟨initial m1.edges.length, facesFrom_invalid _ (fun n _ => h.2 n), initial_consistent _ _⟩
    · obtain ⟨s, h1, h2, _⟩ := findFaces_ok h.1 (by rw [a2]; exact hn) (validNode m1.nodes) (initial_consistent m1.edges (cw m1.nodes))
      exact ⟨s, h1, h2⟩
  obtain ⟨s, h1, h2⟩ := run
  refine ⟨m1, s, a1, ?_, h2, ?_, h1⟩
  · unfold doAdministration
    rw [a1]
    show (findFaces _ _ _ _ _ _ >>= _) = _
    rw [h1]; rfl
  · intro f ns hf
    have hlt : f < s.facesNodes.length := (List.getElem?_eq_some_iff.1 hf).1
    have hlt' : f < s.facesEdges.length := by rw [← h2.lengths]; exact hlt
    obtain ⟨hp, _⟩ := h2.proper f ns _ hf (List.getElem?_eq_getElem hlt')
    exact proper_valid a3 hp

theorem gatherNodes_map {nodes : List Pt} : ∀ {ns : List Nat}, (∀ n ∈ ns, n < nodes.length) →
    gatherNodes nodes ns = .ok (ns.map (fun n => nodes.getD n ⟨-999, -999⟩))
  | [], _ => rfl
  | n :: ns, h => by
    have hn : n < nodes.length := h n (by simp)
    have e : vget nodes n = .ok (nodes.getD n ⟨-999, -999⟩) := by
      unfold vget
      rw [List.getElem?_eq_getElem hn]
      simp [hn]
    have ih := gatherNodes_map (nodes := nodes) (ns := ns) (fun k hk => h k (by simp [hk]))
    show (vget nodes n >>= _) = _
    rw [e]
    show (gatherNodes nodes ns >>= _) = _
    rw [ih]; rfl

theorem clockwise_iff {nodes : List (Option Pt)} {ns : List Nat} (h3 : 3 ≤ ns.length) (hv : ∀ n ∈ ns, n < nodes.length) :
    clockwise nodes ns = false ↔ 0 < shoelace (ns.map (position nodes)) := by
  have hg := gatherNodes_map (nodes := nodes.map (fun p => p.getD ⟨-999, -999⟩)) (ns := ns) (by simpa using hv)
  have hm : ns.map (fun n => (nodes.map (fun p => p.getD ⟨-999, -999⟩)).getD n ⟨-999, -999⟩) = ns.map (position nodes) := by
    apply List.map_congr_left
    intro n hn
    unfold position
    have hlt := hv n hn
    simp [List.getElem?_eq_getElem hlt]
  rw [hm] at hg
  have e : faceAreaIndexed (nodes.map (fun p => p.getD ⟨-999, -999⟩)) ns false =
      .ok (areaFinish (referencePoint (ns.map (position nodes))) (areaSums (referencePoint (ns.map (position nodes))) (ns.map (position nodes)))) := by
    unfold faceAreaIndexed
    rw [if_neg (by omega), hg]; rfl
  unfold clockwise
  rw [e]
  show ((areaFinish _ _).2.2 == Direction.clockwise) = false ↔ _
  unfold areaFinish
  rw [areaSums_area]
  by_cases h : 0 < shoelace (ns.map (position nodes)) <;> simp [h]

theorem phi_along {m : Mesh Pt} {n e : Nat} (ht : touches (edgeAt m e) n)
    (hl : minimumDelta ≤ |(along m n e).x| ∨ minimumDelta ≤ |(along m n e).y|) :
    phiVector (edgeDelta m.nodes m.edges n e) = ⟨-(along m n e).x, -(along m n e).y⟩ := by
  have h : edgeDelta m.nodes m.edges n e = ⟨-(along m n e).x, -(along m n e).y⟩ := by
    unfold edgeDelta along delta
    have he : m.edges.getD e noEdge = edgeAt m e := by simp [edgeAt]
    simp only [he]
    unfold touches at ht
    unfold otherNode
    by_cases h1 : n = (edgeAt m e).1
    · by_cases h2 : (edgeAt m e).2 = n
      · rw [if_pos h2, if_pos h2, if_pos h1]
        rw [h2, ← h1]; simp
      · rw [if_neg h2, if_neg h2, if_pos h1, ← h1]; simp
    · have h2 : (edgeAt m e).2 = n := by
        rcases ht with h | h
        · exact absurd h.symm h1
        · exact h
      rw [if_pos h2, if_pos h2, if_neg h1]; simp
  rw [h]
  unfold phiVector
  rw [if_neg]
  simp only [abs_neg]
  rintro ⟨h1, h2⟩
  rcases hl with h | h
  · exact absurd h1 (not_lt.2 h)
  · exact absurd h2 (not_lt.2 h)

theorem sector_neg {a b x : Pt} : InSector ⟨-a.x, -a.y⟩ ⟨-b.x, -b.y⟩ ⟨-x.x, -x.y⟩ ↔ InSector a b x := by
  have e : ∀ v w : Pt, cross ⟨-v.x, -v.y⟩ ⟨-w.x, -w.y⟩ = cross v w := by intro v w; unfold cross; ring
  unfold InSector
  rw [e, e, e]

theorem same_neg {a b : Pt} : SameDirection ⟨-a.x, -a.y⟩ ⟨-b.x, -b.y⟩ ↔ SameDirection a b := by
  have e : cross ⟨-a.x, -a.y⟩ ⟨-b.x, -b.y⟩ = cross a b := by unfold cross; ring
  unfold SameDirection
  rw [e]
  simp

/-- A corner is empty if and only if the two sides are neighbours in the list of the node. -/
theorem corner_iff {m1 : Mesh Pt} (w : WF m1) (hL : Listed m1.edges m1.nodesEdges m1.nodes.length)
    (hv : ∀ (e : Nat) p, m1.edges[e]? = some p → p = noEdge ∨ (validNode m1.nodes p.1 = true ∧ validNode m1.nodes p.2 = true))
    (ho : ∀ (n : Nat) l, m1.nodesEdges[n]? = some l → validNode m1.nodes n = true → ∃ l0, l = ccwOrder m1.nodes m1.edges n l0)
    {ns es : List Nat} (hp : Proper m1.edges ns es) (hc : ∀ n ∈ ns, ClearAt m1 n) {i : Nat} (hi : i < ns.length) :
    EmptyCorner m1 ns es i ↔ ∀ (a e e' : Nat) l, ns[(i + 1) % ns.length]? = some a → es[i]? = some e → es[(i + 1) % ns.length]? = some e' →
      m1.nodesEdges[a]? = some l → Before l e' e := by
  have h3 := hp.atLeast
  have hval := proper_valid hv hp
  have listed : ∀ (i a b e : Nat), ns[i]? = some a → ns[(i + 1) % ns.length]? = some b → es[i]? = some e →
      (e ∈ listAt m1 a ∧ touches (edgeAt m1 e) a) ∧ (e ∈ listAt m1 b ∧ touches (edgeAt m1 e) b) := by
    intro i a b e ha hb he
    have hi : i < ns.length := (List.getElem?_eq_some_iff.1 ha).1
    obtain ⟨a', b', e', p, q1, q2, q3, q4, q5⟩ := hp.sides i hi
    rw [ha] at q1; rw [hb] at q2; rw [he] at q3
    obtain rfl := Option.some.inj q1
    obtain rfl := Option.some.inj q2
    obtain rfl := Option.some.inj q3
    have hpe : edgeAt m1 e = p := by simp [edgeAt, q4]
    have t1 : touches (edgeAt m1 e) a := by rw [hpe]; rcases q5 with h | h <;> rw [h] <;> simp [touches]
    have t2 : touches (edgeAt m1 e) b := by rw [hpe]; rcases q5 with h | h <;> rw [h] <;> simp [touches]
    have hne : edgeAt m1 e ≠ noEdge := by
      intro hc
      have hlt := validNode_lt (hval a (List.mem_of_getElem? ha))
      have := w.nodesFit
      unfold touches at t1
      rw [hc, noEdge] at t1
      simp only at t1
      omega
    exact ⟨⟨w.complete e a hne t1, t1⟩, ⟨w.complete e b hne t2, t2⟩⟩
  have toList : ∀ (a : Nat) (l : List Nat), m1.nodesEdges[a]? = some l → listAt m1 a = l := by
    intro a l hl; simp [listAt, hl]
  have hj : (i + 1) % ns.length < ns.length := Nat.mod_lt _ (by omega)
  have key : ∀ (a e e' : Nat), ns[(i + 1) % ns.length]? = some a → es[i]? = some e → es[(i + 1) % ns.length]? = some e' →
      ∃ l0, m1.nodesEdges[a]? = some (ccwOrder m1.nodes m1.edges a l0) ∧ l0.Nodup ∧
        (∀ x, x ∈ l0 ↔ touches (edgeAt m1 x) a) ∧
        (∀ x ∈ l0, phiVector (edgeDelta m1.nodes m1.edges a x) = ⟨-(along m1 a x).x, -(along m1 a x).y⟩) ∧
        (∀ x ∈ l0, ∀ y ∈ l0, x ≠ y → ¬ SameDirection (phiVector (edgeDelta m1.nodes m1.edges a x)) (phiVector (edgeDelta m1.nodes m1.edges a y))) ∧
        e ∈ l0 ∧ e' ∈ l0 ∧ e' ≠ e := by
    intro a e e' ha he he'
    have hmem : a ∈ ns := List.mem_of_getElem? ha
    have hlt := validNode_lt (hval a hmem)
    have hla : a < m1.nodesEdges.length := by rw [hL.len]; exact hlt
    have hl := List.getElem?_eq_getElem hla
    obtain ⟨l0, hl0⟩ := ho a _ hl (hval a hmem)
    rw [hl0] at hl
    have hperm := ccwOrder_perm m1.nodes m1.edges a l0
    have l1 := (listed i _ a e (List.getElem?_eq_getElem hi) ha he).2
    have l2 := (listed _ a _ e' ha (List.getElem?_eq_getElem (Nat.mod_lt _ (by omega))) he').1
    rw [toList a _ hl, hperm.mem_iff] at l1 l2
    have hnd : l0.Nodup := hperm.nodup_iff.1 (hL.nodup a _ hl)
    have tch : ∀ x, x ∈ l0 ↔ touches (edgeAt m1 x) a := by
      intro x
      constructor
      · intro hx
        obtain ⟨p, p1, _, _, p4, _⟩ := hL.ends a _ hl x (hperm.mem_iff.2 hx)
        have : edgeAt m1 x = p := by simp [edgeAt, p1]
        rw [this]; exact p4
      · intro hx
        have hne : edgeAt m1 x ≠ noEdge := by
          intro hc
          have := w.nodesFit
          unfold touches at hx
          rw [hc, noEdge] at hx
          simp only at hx
          omega
        have := w.complete x a hne hx
        rw [toList a _ hl, hperm.mem_iff] at this
        exact this
    have hphi : ∀ x ∈ l0, phiVector (edgeDelta m1.nodes m1.edges a x) = ⟨-(along m1 a x).x, -(along m1 a x).y⟩ := fun x hx =>
      phi_along ((tch x).1 hx) ((hc a hmem).long x ((tch x).1 hx))
    refine ⟨l0, hl, hnd, tch, hphi, ?_, l1.1, l2.1, ?_⟩
    · intro x hx y hy hxy
      rw [hphi x hx, hphi y hy, same_neg]
      exact (hc a hmem).apart x y ((tch x).1 hx) ((tch y).1 hy) hxy
    · rintro rfl
      have i1 : i < es.length := by rw [hp.len]; exact hi
      have := (List.getElem?_inj i1 hp.edgesDistinct).1 (he.trans he'.symm)
      rcases Nat.lt_or_ge (i + 1) ns.length with hx | hx
      · rw [Nat.mod_eq_of_lt hx] at this; omega
      · have h5 : i + 1 = ns.length := by omega
        rw [h5, Nat.mod_self] at this; omega
  constructor
  · intro h a e e' l ha he he' hl
    obtain ⟨l0, k1, k2, k3, k4, k5, k6, k7, k8⟩ := key a e e' ha he he'
    rw [hl] at k1
    obtain rfl := Option.some.inj k1
    refine ccwOrder_before k2 k5 k7 k6 k8 ?_
    intro x hx hx1 hx2
    rw [k4 x hx, k4 e k6, k4 e' k7, sector_neg]
    exact h a e e' ha he he' x ((k3 x).1 hx) hx2 hx1
  · intro h a e e' ha he he' x hx hx1 hx2
    obtain ⟨l0, k1, k2, k3, k4, k5, k6, k7, k8⟩ := key a e e' ha he he'
    have hb := h a e e' _ ha he he' k1
    have := not_sector_of_before k2 k5 hb ((k3 x).2 hx) hx2 hx1
    rwa [k4 x ((k3 x).2 hx), k4 e k6, k4 e' k7, sector_neg] at this

/-- The outline of a cell turns as sharply as possible at each corner. -/
theorem outline_round {m1 : Mesh Pt} (w : WF m1) (hL : Listed m1.edges m1.nodesEdges m1.nodes.length)
    (hv : ∀ (e : Nat) p, m1.edges[e]? = some p → p = noEdge ∨ (validNode m1.nodes p.1 = true ∧ validNode m1.nodes p.2 = true))
    (ho : ∀ (n : Nat) l, m1.nodesEdges[n]? = some l → validNode m1.nodes n = true → ∃ l0, l = ccwOrder m1.nodes m1.edges n l0)
    {ns es : List Nat} (h : Outline m1 ns es) (hc : ∀ n ∈ ns, ClearAt m1 n) : Round m1.edges m1.nodesEdges ns es := by
  have hp := h.proper
  have h3 := hp.atLeast
  have hval := proper_valid hv hp
  refine ⟨⟨hp, ?_, ?_⟩, ?_⟩
  · intro a e l ha he hl
    obtain ⟨a', b', e', p, q1, q2, q3, q4, q5⟩ := hp.sides 0 (by omega)
    rw [ha] at q1; rw [he] at q3
    obtain rfl := Option.some.inj q1
    obtain rfl := Option.some.inj q3
    have hpe : edgeAt m1 e = p := by simp [edgeAt, q4]
    have t1 : touches (edgeAt m1 e) a := by rw [hpe]; rcases q5 with h | h <;> rw [h] <;> simp [touches]
    have hne : edgeAt m1 e ≠ noEdge := by
      intro hc
      have hlt := validNode_lt (hval a (List.mem_of_getElem? ha))
      have := w.nodesFit
      unfold touches at t1
      rw [hc, noEdge] at t1
      simp only at t1
      omega
    have := w.complete e a hne t1
    rwa [listAt, hl] at this
  · intro i a e e' l hi ha he he' hl
    have hmod : (i + 1) % ns.length = i + 1 := Nat.mod_eq_of_lt hi
    exact (corner_iff w hL hv ho hp hc (by omega)).1 (h.empty i (by omega)) a e e' l (by rw [hmod]; exact ha) he (by rw [hmod]; exact he') hl
  · intro a e e' l ha he he' hl
    have hmod : (ns.length - 1 + 1) % ns.length = 0 := by
      have : ns.length - 1 + 1 = ns.length := by omega
      rw [this, Nat.mod_self]
    exact (corner_iff w hL hv ho hp hc (i := ns.length - 1) (by omega)).1 (h.empty _ (by omega)) a e e' l (by rw [hmod]; exact ha) he
      (by rw [hmod]; exact he') hl

/-- A tight polygon is an outline except for the first corner. -/
theorem tight_openOutline {m1 : Mesh Pt} (w : WF m1) (hL : Listed m1.edges m1.nodesEdges m1.nodes.length)
    (hv : ∀ (e : Nat) p, m1.edges[e]? = some p → p = noEdge ∨ (validNode m1.nodes p.1 = true ∧ validNode m1.nodes p.2 = true))
    (ho : ∀ (n : Nat) l, m1.nodesEdges[n]? = some l → validNode m1.nodes n = true → ∃ l0, l = ccwOrder m1.nodes m1.edges n l0)
    {ns es : List Nat} (h : Tight m1.edges m1.nodesEdges ns es) (hcw : 0 < shoelace (ns.map (position m1.nodes)))
    (hc : ∀ n ∈ ns, ClearAt m1 n) : OpenOutline m1 ns es := by
  refine ⟨h.proper, hcw, ?_⟩
  intro i hi
  have hmod : (i + 1) % ns.length = i + 1 := Nat.mod_eq_of_lt hi
  rw [corner_iff w hL hv ho h.proper hc (by omega)]
  intro a e e' l ha he he' hl
  rw [hmod] at ha he'
  exact h.turns i a e e' l hi ha he he' hl

/-- A round polygon that is not clockwise is a face of the result, unless a face is not round or has two of its edges. -/
theorem round_found {edges : List Edge} {adj : List (List Nat)} {N : Nat} {cw : List Nat → Bool}
    (hL : Listed edges adj N) (hN : N ≤ missing) (v : Nat → Bool) {t : State}
    (hrun : findFaces edges adj cw v N (initial edges.length) = .ok t) {ns es : List Nat} (hr : Round edges adj ns es)
    (hv : ∀ n ∈ ns, n < N ∧ v n = true) (hcw : cw ns = false) (hb : ∀ (e : Nat) p, edges[e]? = some p → p = noEdge ∨ (p.1 < N ∧ p.2 < N)) :
    (∃ (f : Nat) (es' : List Nat), t.facesEdges[f]? = some es' ∧ ∀ e, e ∈ es' ↔ e ∈ es) ∨
    (∃ (f : Nat) (ns' es' : List Nat), t.facesNodes[f]? = some ns' ∧ t.facesEdges[f]? = some es' ∧ ¬ Round edges adj ns' es') ∨
    (∃ f e e', e ∈ es ∧ e' ∈ es ∧ e ≠ e' ∧ Borders t f e ∧ Borders t f e') := by
  obtain ⟨t', a1, a2, _⟩ := findFaces_ok hL hN v (initial_consistent edges cw)
  rw [hrun] at a1
  obtain rfl := Res.ok.inj a1
  by_cases hfound : ∃ (f : Nat) (es' : List Nat), t.facesEdges[f]? = some es' ∧ ∀ e, e ∈ es' ↔ e ∈ es
  · exact Or.inl hfound
  rcases tight_found hL hN v (initial_consistent edges cw) hrun hr.tight hv hcw with h | ⟨e, f, g, he, hfg, ⟨es1, f1, f2⟩, ⟨es2, g1, g2⟩⟩ | h
  · exact Or.inl h
  · right; left
    have nodesOf : ∀ (f : Nat) es1, t.facesEdges[f]? = some es1 → ∃ ns1, t.facesNodes[f]? = some ns1 := by
      intro f es1 h
      have : f < t.facesNodes.length := by rw [a2.lengths]; exact (List.getElem?_eq_some_iff.1 h).1
      exact ⟨_, List.getElem?_eq_getElem this⟩
    obtain ⟨ns1, n1⟩ := nodesOf f es1 f1
    obtain ⟨ns2, n2⟩ := nodesOf g es2 g1
    have t1 := findFaces_tight hL hN v hrun f ns1 es1 n1 f1
    have t2 := findFaces_tight hL hN v hrun g ns2 es2 n2 g1
    -- the directions in which the edge is passed
    obtain ⟨i, hi, rfl⟩ := List.mem_iff_getElem.1 he
    have hil : i < ns.length := by rw [← hr.tight.proper.len]; exact hi
    obtain ⟨a, b, e, p, q1, q2, q3, q4, q5⟩ := hr.tight.proper.sides i hil
    rw [List.getElem?_eq_getElem hi] at q3
    obtain rfl := Option.some.inj q3
    have from_ : ∀ (f : Nat) ns1 es1, t.facesEdges[f]? = some es1 → Tight edges adj ns1 es1 → es[i] ∈ es1 →
        ∃ (j : Nat), es1[j]? = some es[i] ∧ ns1[j]? = some b := by
      intro f ns1 es1 h1 h2 h3
      obtain ⟨j, hj, hje⟩ := List.mem_iff_getElem.1 h3
      have hjl : j < ns1.length := by rw [← h2.proper.len]; exact hj
      obtain ⟨c, d, e', p', r1, r2, r3, r4, r5⟩ := h2.proper.sides j hjl
      rw [List.getElem?_eq_getElem hj, hje] at r3
      have r3' := Option.some.inj r3
      rw [← r3', q4] at r4
      obtain rfl := Option.some.inj r4
      refine ⟨j, by rw [List.getElem?_eq_getElem hj, hje], ?_⟩
      have hcab : c = a ∨ c = b := by
        rcases q5 with h | h <;> rcases r5 with h' | h' <;> rw [h] at h' <;> simp only [Prod.mk.injEq] at h' <;> omega
      rcases hcab with rfl | rfl
      · exfalso
        refine hfound ⟨f, es1, h1, same_way_same_edges hL hr (fun n hn => (hv n hn).1) h2 ⟨i, j, c, es[i], q1, List.getElem?_eq_getElem hi, r1, ?_⟩⟩
        rw [List.getElem?_eq_getElem hj, hje]
      · exact r1
    obtain ⟨j1, j2, j3⟩ := from_ f ns1 es1 f1 t1 f2
    obtain ⟨k1, k2, k3⟩ := from_ g ns2 es2 g1 t2 g2
    refine ⟨f, ns1, es1, n1, f1, ?_⟩
    intro hround
    have hv1 : ∀ n ∈ ns1, n < N := by
      intro n hn
      obtain ⟨j, hj, rfl⟩ := List.mem_iff_getElem.1 hn
      obtain ⟨c, d, e', p', r1, r2, r3, r4, r5⟩ := t1.proper.sides j hj
      rw [List.getElem?_eq_getElem hj] at r1
      obtain rfl := Option.some.inj r1
      rcases hb e' p' r4 with h | h
      · exfalso
        have hne : ns1[j] ≠ d := by
          intro hc
          have h3 := t1.proper.atLeast
          have := (List.getElem?_inj hj t1.proper.nodesDistinct).1 ((List.getElem?_eq_getElem hj).trans ((congrArg some hc).trans r2.symm))
          rcases Nat.lt_or_ge (j + 1) ns1.length with hx | hx
          · rw [Nat.mod_eq_of_lt hx] at this; omega
          · have h5 : j + 1 = ns1.length := by omega
            rw [h5, Nat.mod_self] at this; omega
        rcases r5 with h5 | h5 <;> rw [h, noEdge, Prod.mk.injEq] at h5 <;> exact hne (by rw [← h5.1, ← h5.2])
      · rcases r5 with h5 | h5 <;> rw [h5] at h
        · exact h.1
        · exact h.2
    have := same_way_same_edges hL hround hv1 t2 ⟨j1, k1, b, es[i], j3, j2, k3, k2⟩
    exact a2.once f g es1 es2 hfg f1 g1 (fun e => (this e).symm)
  · exact Or.inr (Or.inr h)

end Verif.Faces
