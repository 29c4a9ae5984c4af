import Verif.Flip.StartLemmas
import Mathlib.Tactic.FieldSimp
import Mathlib.Tactic.LinearCombination
/-!
# Lemmas: the wanted numbers, the region, the triangulation
-/
namespace Verif.Flip
open Verif.Mesh Verif.Faces
open Verif.Polygons (Pt)

theorem optimalOf_values (t : Int) : optimalOf t = 3 ∨ optimalOf t = 4 ∨ optimalOf t = 6 := by
  unfold optimalOf
  split
  · exact Or.inl rfl
  · split
    · exact Or.inr (Or.inl rfl)
    · exact Or.inr (Or.inr rfl)

theorem rim_eq {m : Mesh Pt} {s : State} (h : Exact m s) {n : Nat} {l : List Nat} (hl : m.nodesEdges[n]? = some l) :
    (Ortho.boundaryOf s.numFaces l).length = rim m.edges s.numFaces n := by
  unfold Ortho.boundaryOf rim
  apply List.Perm.length_eq
  refine (List.perm_ext_iff_of_nodup ((h.nodup n l hl).filter _) (List.nodup_range.filter _)).2 fun e => ?_
  rw [List.mem_filter, List.mem_filter, List.mem_range, h.listed n l hl]
  have hnf := h.linked.numFaces
  constructor
  · rintro ⟨⟨p, k1, k2⟩, k3⟩
    have hlt := (List.getElem?_eq_some_iff.1 k1).1
    refine ⟨hlt, ?_⟩
    have hlt' : e < s.numFaces.length := by omega
    rw [List.getD_eq_getElem?_getD, List.getElem?_eq_getElem hlt'] at k3
    rw [k1, List.getElem?_eq_getElem hlt']
    simp at k3
    simp [k3, k2]
  · rintro ⟨hlt, k3⟩
    have hlt' : e < s.numFaces.length := by omega
    rw [List.getElem?_eq_getElem hlt, List.getElem?_eq_getElem hlt'] at k3
    simp at k3
    refine ⟨⟨m.edges[e], List.getElem?_eq_getElem hlt, k3.2⟩, ?_⟩
    rw [List.getD_eq_getElem?_getD, List.getElem?_eq_getElem hlt']
    simp [k3.1]

theorem wants_of {m : Mesh Pt} {s : State} (h : Exact m s) {types : List Int} {sharp : Nat → Nat → Nat → Bool}
    (ht : Ortho.classify m.edges m.nodesEdges s.numFaces sharp m.nodes.length = .ok types) : Wants m s (wanted types) := by
  refine ⟨fun n => optimalOf_values _, fun hf n hn => ?_⟩
  obtain ⟨types', g1, _, g3⟩ := Ortho.classify_ok h.tables (fun e p hp h1 h2 => by
    have hlt : e < s.numFaces.length := by rw [h.linked.numFaces]; exact (List.getElem?_eq_some_iff.1 hp).1
    have := hf e p hp (by rintro rfl; exact h1 rfl)
    rw [List.getElem?_eq_getElem hlt] at this
    rw [List.getD_eq_getElem?_getD, List.getElem?_eq_getElem hlt]
    simpa using this) sharp
  rw [ht] at g1
  obtain rfl := Res.ok.inj g1
  obtain ⟨l, hl⟩ := h.list hn
  unfold wanted ideal
  rw [g3 n l hl, ← h.degree_eq hl, ← rim_eq h hl]
  unfold Ortho.expectedType optimalOf
  simp only [Option.getD_some]
  by_cases c1 : l.length < 2
  · simp [c1]
  by_cases c2 : (Ortho.boundaryOf s.numFaces l).length = 0
  · simp [c1, c2]
  by_cases c3 : l.length = 2 ∨ 2 < (Ortho.boundaryOf s.numFaces l).length
  · simp only [c1, c2, c3, or_self, if_false, if_true]
  · simp only [c1, c2, c3, or_self, if_false]; rfl

theorem outcome_of {t : Bool} {m m1 : Mesh Pt} {s : State} {as : List (Act Pt)} (hp : prepare t m = .ok (as, m1, s)) (hx : Exact m1 s)
    (hg : Good m as m1) : ∃ want, Wants m1 s want ∧ Outcome want m1 s (compute t m) ∧
      ∀ acts m' left, compute t m = .ok (.done acts m' left) → Good m acts m' := by
  obtain ⟨types, h1, h2, h3⟩ := compute_spec hp hx hg
  refine ⟨wanted types, wants_of hx h1, ?_⟩
  rcases h3 with ⟨g1, p', n, g2, g3, g4⟩ | ⟨acts, m', left, s', g1, g2, g3, g4, g5, m2, g6, g7, g8, g9⟩ | ⟨m', s', g1, g2, g3, g4⟩
  · rw [g1]
    exact ⟨⟨p', n, g2, g3, g4⟩, fun _ _ _ h => absurd h (by simp)⟩
  · rw [g1]
    refine ⟨⟨g2, s', g8 ▸ g6.linked, g4, fun hl e => ?_, g5⟩, ?_⟩
    · rintro ⟨a, b, l, r, f, g, nf, ng, b1, b2, b3, b4, b5, b6, b7, b8, b9⟩
      have he := (List.getElem?_eq_some_iff.1 b1).1
      refine g9 hl e (by rw [g8]; exact he) ⟨a, b, l, r, f, g, nf, ng, by rw [g8]; exact b1, b2, b3, b4, b5, b6, by rw [g7]; exact b7,
        by rw [g7]; exact b8, by rw [g7, g8]; exact b9⟩
    · intro a b c h
      obtain ⟨rfl, rfl, rfl⟩ := Ending.done.inj (Res.ok.inj h)
      exact g3
  · rw [g1]
    exact ⟨⟨g2, ⟨_, g3⟩, g4⟩, fun _ _ _ h => absurd (Res.ok.inj h) (by simp)⟩

/-- Half of the region goes into the new triangles. -/
theorem half_region {a b l r : Pt} {s t : ℚ} (hs0 : 0 ≤ s) (hs1 : s ≤ 1) (ht0 : 0 ≤ t) (ht1 : t ≤ 1)
    (hx : a.x + s * (b.x - a.x) = l.x + t * (r.x - l.x)) (hy : a.y + s * (b.y - a.y) = l.y + t * (r.y - l.y)) {p : Pt}
    (h : InTriangle p a b l) : InTriangle p l r a ∨ InTriangle p l r b := by
  obtain ⟨u, v, w, hu, hv, hw, h1, px, py⟩ := h
  have first : 0 < s → v * (1 - s) ≤ u * s → InTriangle p l r a := by
    intro hs hle
    have hv' : 0 ≤ v / s := div_nonneg hv hs.le
    refine ⟨w + v / s * (1 - t), v / s * t, u - v / s * (1 - s), add_nonneg hw (mul_nonneg hv' (by linarith)), mul_nonneg hv' ht0, ?_, ?_, ?_, ?_⟩
    · rw [sub_nonneg, div_mul_eq_mul_div, div_le_iff₀ hs]; exact hle
    · field_simp
      linear_combination s * h1
    · rw [px]
      field_simp
      linear_combination v * hx
    · rw [py]
      field_simp
      linear_combination v * hy
  have second : 0 < 1 - s → u * s ≤ v * (1 - s) → InTriangle p l r b := by
    intro hs hle
    have hu' : 0 ≤ u / (1 - s) := div_nonneg hu hs.le
    refine ⟨w + u / (1 - s) * (1 - t), u / (1 - s) * t, v - u / (1 - s) * s, add_nonneg hw (mul_nonneg hu' (by linarith)), mul_nonneg hu' ht0, ?_,
      ?_, ?_, ?_⟩
    · rw [sub_nonneg, div_mul_eq_mul_div, div_le_iff₀ hs]; exact hle
    · field_simp
      linear_combination (1 - s) * h1
    · rw [px]
      field_simp
      linear_combination u * hx
    · rw [py]
      field_simp
      linear_combination u * hy
  rcases eq_or_lt_of_le hs0 with h0 | h0
  · right
    subst h0
    exact second (by linarith) (by linarith)
  · rcases le_total (v * (1 - s)) (u * s) with hle | hle
    · exact Or.inl (first h0 hle)
    · rcases eq_or_lt_of_le hs1 with h2 | h2
      · left
        subst h2
        exact first h0 (by linarith)
      · exact Or.inr (second (by linarith) hle)

theorem InTriangle.swap {p a b c : Pt} (h : InTriangle p a b c) : InTriangle p b a c := by
  obtain ⟨u, v, w, hu, hv, hw, h1, px, py⟩ := h
  exact ⟨v, u, w, hv, hu, hw, by linarith, by linarith, by linarith⟩

/-- Connecting two nodes of a mesh whose lists are those of a shorter list of edges. -/
theorem connect_ok {m1 : Mesh Pt} {s : State} (h : Exact m1 s) (ds : List Edge) {a b : Nat} (ha : a < m1.nodes.length) (hb : b < m1.nodes.length) :
    ∃ as new, connectNodesU { m1 with edges := m1.edges ++ ds } a b = .ok (as, { m1 with edges := m1.edges ++ (ds ++ new) }) ∧
      (new = [] ∨ new = [(a, b)]) ∧ Joined (m1.edges ++ (ds ++ new)) a b ∧
      Good { m1 with edges := m1.edges ++ ds } as { m1 with edges := m1.edges ++ (ds ++ new) } := by
  have hfit := h.nodesFit
  obtain ⟨l, hl⟩ := h.list ha
  have hc : m1.numEdges[a]? = some l.length := by rw [h.counts, List.getElem?_map, hl]; rfl
  have hloop : ∀ l' : List Nat, (∀ e ∈ l', e ∈ l) → findEdgeLoop (m1.edges ++ ds) a b l' = .ok missing ∨
      ∃ e, findEdgeLoop (m1.edges ++ ds) a b l' = .ok e ∧ Joined (m1.edges ++ ds) a b := by
    intro l'
    induction l' with
    | nil => intro _; exact Or.inl rfl
    | cons e l' ih =>
      intro hs
      obtain ⟨p, k1, k2⟩ := (h.listed a l hl e).1 (hs e List.mem_cons_self)
      have hlt := (List.getElem?_eq_some_iff.1 k1).1
      have hget : (m1.edges ++ ds)[e]? = some p := by rw [List.getElem?_append_left hlt]; exact k1
      rw [findEdgeLoop, vget_eq_ok.2 hget, Res.ok_bind]
      split
      · rename_i ho
        refine Or.inr ⟨e, rfl, e, p, hget, ?_⟩
        unfold otherNode at ho
        rcases k2 with k2 | k2
        · rw [if_pos k2.symm] at ho
          exact Or.inl (Prod.ext k2 ho)
        · split at ho
          · rename_i hp
            exact Or.inl (Prod.ext hp.symm ho)
          · exact Or.inr (Prod.ext ho k2)
      · exact ih fun e he => hs e (List.mem_cons_of_mem _ he)
  have hfind : findEdge ({ m1 with edges := m1.edges ++ ds } : Mesh Pt) a b = findEdgeLoop (m1.edges ++ ds) a b l := by
    unfold findEdge
    rw [if_neg (by omega)]
    simp only []
    rw [vget_eq_ok.2 hc, Res.ok_bind, vget_eq_ok.2 hl, Res.ok_bind, if_neg (by omega), List.take_length]
  have hnew : Joined (m1.edges ++ (ds ++ [(a, b)])) a b :=
    ⟨(m1.edges ++ ds).length, (a, b), by rw [← List.append_assoc]; simp, Or.inl rfl⟩
  have hadd : ∀ f, findEdgeLoop (m1.edges ++ ds) a b l = .ok f → f = missing →
      connectNodesU ({ m1 with edges := m1.edges ++ ds } : Mesh Pt) a b =
        .ok ([.addEdge (m1.edges ++ ds).length (a, b)], { m1 with edges := m1.edges ++ (ds ++ [(a, b)]) }) := by
    intro f hf hm
    unfold connectNodesU
    rw [hfind, hf, Res.ok_bind, if_neg (not_not.2 hm)]
    simp only [List.append_assoc]
  rcases hloop l (fun _ h => h) with hk | ⟨e, hk, hj⟩
  · exact ⟨_, [(a, b)], hadd _ hk rfl, Or.inr rfl, hnew, connectNodesU_good (hadd _ hk rfl)⟩
  · by_cases hm : e = missing
    · exact ⟨_, [(a, b)], hadd _ hk hm, Or.inr rfl, hnew, connectNodesU_good (hadd _ hk hm)⟩
    · have hz : connectNodesU ({ m1 with edges := m1.edges ++ ds } : Mesh Pt) a b = .ok ([], { m1 with edges := m1.edges ++ (ds ++ []) }) := by
        unfold connectNodesU
        rw [hfind, hk, Res.ok_bind, if_pos hm, List.append_nil]
      exact ⟨_, [], hz, Or.inl rfl, by rw [List.append_nil]; exact hj, connectNodesU_good hz⟩

theorem Joined.append {es ds : List Edge} {a b : Nat} (h : Joined es a b) : Joined (es ++ ds) a b := by
  obtain ⟨e, p, h1, h2⟩ := h
  exact ⟨e, p, by rw [List.getElem?_append_left (List.getElem?_eq_some_iff.1 h1).1]; exact h1, h2⟩

theorem fan_ok {m1 : Mesh Pt} {s : State} (h : Exact m1 s) {first : Nat} (hf : first < m1.nodes.length) (ns : List Nat) :
    ∀ ds, (∀ n ∈ ns, n < m1.nodes.length) →
    ∃ as new, fan first ns { m1 with edges := m1.edges ++ ds } = .ok (as, { m1 with edges := m1.edges ++ (ds ++ new) }) ∧
      (∀ d ∈ new, ∃ n ∈ ns.dropLast, d = (first, n)) ∧ (∀ n ∈ ns.dropLast, Joined (m1.edges ++ (ds ++ new)) first n) ∧
      Good { m1 with edges := m1.edges ++ ds } as { m1 with edges := m1.edges ++ (ds ++ new) } := by
  match ns with
  | [] => intro ds _; exact ⟨[], [], by rw [List.append_nil]; rfl, by simp, by simp, by rw [List.append_nil]; exact Good.refl _⟩
  | [_] => intro ds _; exact ⟨[], [], by rw [List.append_nil]; rfl, by simp, by simp, by rw [List.append_nil]; exact Good.refl _⟩
  | n :: n' :: ns =>
    intro ds hn
    obtain ⟨as, new, a1, a2, a3, a4⟩ := connect_ok h ds hf (hn n List.mem_cons_self)
    obtain ⟨bs, new', b1, b2, b3, b4⟩ := fan_ok h hf (n' :: ns) (ds ++ new) (fun x hx => hn x (List.mem_cons_of_mem _ hx))
    refine ⟨as ++ bs, new ++ new', ?_, ?_, ?_, ?_⟩
    · simp only [fan]
      rw [a1, Res.ok_bind]
      simp only []
      rw [b1, Res.ok_bind, List.append_assoc]
    · intro d hd
      rw [List.dropLast_cons_cons]
      rcases List.mem_append.1 hd with hd | hd
      · rcases a2 with rfl | rfl
        · cases hd
        · simp only [List.mem_cons, List.not_mem_nil, or_false] at hd
          exact ⟨n, List.mem_cons_self, hd⟩
      · obtain ⟨x, hx, rfl⟩ := b2 d hd
        exact ⟨x, List.mem_cons_of_mem _ hx, rfl⟩
    · intro x hx
      rw [List.dropLast_cons_cons] at hx
      rcases List.mem_cons.1 hx with rfl | hx
      · have := a3.append (ds := new')
        simpa [List.append_assoc] using this
      · have := b3 x hx
        simpa [List.append_assoc] using this
    · have := a4.trans b4
      simpa [List.append_assoc] using this

theorem triangulateFaces_ok {m1 : Mesh Pt} {s : State} (h : Exact m1 s) (fs : List (List Nat)) :
    ∀ ds, (∀ ns ∈ fs, ns ≠ [] ∧ ∀ n ∈ ns, n < m1.nodes.length) →
    ∃ as new, triangulateFaces fs { m1 with edges := m1.edges ++ ds } = .ok (as, { m1 with edges := m1.edges ++ (ds ++ new) }) ∧
      (∀ d ∈ new, ∃ ns ∈ fs, 4 ≤ ns.length ∧ ∃ j, 2 ≤ j ∧ j + 1 < ns.length ∧ ns[0]? = some d.1 ∧ ns[j]? = some d.2) ∧
      (∀ ns ∈ fs, ∀ j a b, 2 ≤ j → j + 1 < ns.length → ns[0]? = some a → ns[j]? = some b → Joined (m1.edges ++ (ds ++ new)) a b) ∧
      Good { m1 with edges := m1.edges ++ ds } as { m1 with edges := m1.edges ++ (ds ++ new) } := by
  induction fs with
  | nil => intro ds _; exact ⟨[], [], by rw [List.append_nil]; rfl, by simp, by simp, by rw [List.append_nil]; exact Good.refl _⟩
  | cons ns fs ih =>
    intro ds hb
    obtain ⟨hne, hlt⟩ := hb ns List.mem_cons_self
    obtain ⟨x, rest, rfl⟩ := List.exists_cons_of_ne_nil hne
    have one : ∃ as new, (if (x :: rest).length < 4 then .ok ([], { m1 with edges := m1.edges ++ ds })
          else fan ((x :: rest).headD 0) ((x :: rest).drop 2) { m1 with edges := m1.edges ++ ds }) =
          Res.ok (as, { m1 with edges := m1.edges ++ (ds ++ new) }) ∧
        (∀ d ∈ new, 4 ≤ (x :: rest).length ∧ ∃ j, 2 ≤ j ∧ j + 1 < (x :: rest).length ∧ (x :: rest)[0]? = some d.1 ∧ (x :: rest)[j]? = some d.2) ∧
        (∀ j a b, 2 ≤ j → j + 1 < (x :: rest).length → (x :: rest)[0]? = some a → (x :: rest)[j]? = some b → Joined (m1.edges ++ (ds ++ new)) a b) ∧
        Good { m1 with edges := m1.edges ++ ds } as { m1 with edges := m1.edges ++ (ds ++ new) } := by
      by_cases h4 : (x :: rest).length < 4
      · rw [if_pos h4]
        exact ⟨[], [], by rw [List.append_nil], by simp, fun j a b h1 h2 => by omega, by rw [List.append_nil]; exact Good.refl _⟩
      · rw [if_neg h4]
        obtain ⟨as, new, a1, a2, a3, a4⟩ := fan_ok h (first := x) (hlt x List.mem_cons_self) ((x :: rest).drop 2) ds
          (fun n hn => hlt n (List.mem_of_mem_drop hn))
        have hin : ∀ n, n ∈ ((x :: rest).drop 2).dropLast ↔ ∃ j, 2 ≤ j ∧ j + 1 < (x :: rest).length ∧ (x :: rest)[j]? = some n := by
          intro n
          rw [List.mem_iff_getElem?]
          constructor
          · rintro ⟨i, hi⟩
            rw [List.getElem?_dropLast] at hi
            split at hi
            · rename_i hlt
              rw [List.getElem?_drop] at hi
              rw [List.length_drop] at hlt
              exact ⟨2 + i, by omega, by omega, hi⟩
            · exact absurd hi (by simp)
          · rintro ⟨j, h1, h2, h3⟩
            refine ⟨j - 2, ?_⟩
            rw [List.getElem?_dropLast, if_pos (by rw [List.length_drop]; omega), List.getElem?_drop, ← h3]
            congr 1
            omega
        refine ⟨as, new, a1, ?_, ?_, a4⟩
        · intro d hd
          obtain ⟨n, hn, rfl⟩ := a2 d hd
          obtain ⟨j, j1, j2, j3⟩ := (hin n).1 hn
          exact ⟨by omega, j, j1, j2, rfl, j3⟩
        · intro j a b j1 j2 h0 hj
          have : x = a := by simpa using h0
          subst this
          exact a3 b ((hin b).2 ⟨j, j1, j2, hj⟩)
    obtain ⟨as, new, a1, a2, a3, a4⟩ := one
    obtain ⟨bs, new', b1, b2, b3, b4⟩ := ih (ds ++ new) (fun n hn => hb n (List.mem_cons_of_mem _ hn))
    refine ⟨as ++ bs, new ++ new', ?_, ?_, ?_, ?_⟩
    · simp only [triangulateFaces]
      rw [a1, Res.ok_bind]
      simp only []
      rw [b1, Res.ok_bind, List.append_assoc]
    · intro d hd
      rcases List.mem_append.1 hd with hd | hd
      · obtain ⟨q1, q2⟩ := a2 d hd
        exact ⟨_, List.mem_cons_self, q1, q2⟩
      · obtain ⟨x, hx, q⟩ := b2 d hd
        exact ⟨x, List.mem_cons_of_mem _ hx, q⟩
    · intro ns hns j a b j1 j2 h0 hj
      rcases List.mem_cons.1 hns with rfl | hns
      · have := (a3 j a b j1 j2 h0 hj).append (ds := new')
        simpa [List.append_assoc] using this
      · have := b3 ns hns j a b j1 j2 h0 hj
        simpa [List.append_assoc] using this
    · have := a4.trans b4
      simpa [List.append_assoc] using this

theorem faces_fit {m : Mesh Pt} {s : State} (h : Exact m s) : ∀ ns ∈ s.facesNodes, ns ≠ [] ∧ ∀ n ∈ ns, n < m.nodes.length := by
  intro ns hns
  obtain ⟨f, hf⟩ := List.mem_iff_getElem?.1 hns
  refine ⟨?_, fun n hn => validNode_lt (h.corners f ns hf n hn)⟩
  have hlt := (List.getElem?_eq_some_iff.1 hf).1
  have := h.linked.lengths
  have hp := h.linked.proper f ns _ hf (List.getElem?_eq_getElem (by omega : f < s.facesEdges.length))
  rintro rfl
  exact absurd hp.atLeast (by simp)

theorem prepare_true {m m1 mt : Mesh Pt} {s : State} {ts : List (Act Pt)} (hm : Manageable m) (hn : m.nodes ≠ [])
    (he : m.edges ≠ []) (h0 : doAdministrationCartesian m = .ok (m1, s)) (ht : triangulateFaces s.facesNodes m1 = .ok (ts, mt))
    (hmt : Manageable mt) :
    ∃ as m2 s2, prepare true m = .ok (as, m2, s2) ∧ doAdministrationCartesian mt = .ok (m2, s2) ∧ Exact m2 s2 ∧ Good m as m2 := by
  obtain ⟨as, m1', s', h1, h2, h3, h4, h5, h6⟩ := administrateAll_ok hm hn he
  rw [h0] at h2
  obtain ⟨rfl, rfl⟩ := Prod.mk.inj (Res.ok.inj h2)
  obtain ⟨ts', new, t1, _, _, t4⟩ := triangulateFaces_ok h3 s.facesNodes [] (faces_fit h3)
  simp only [List.append_nil, List.nil_append] at t1 t4
  have t1' : triangulateFaces s.facesNodes m1 = .ok (ts', { m1 with edges := m1.edges ++ new }) := t1
  rw [ht] at t1'
  obtain ⟨rfl, rfl⟩ := Prod.mk.inj (Res.ok.inj t1')
  obtain ⟨bs, m2, s2, g1, g2, g3, g4, _⟩ := administrateAll_ok hmt
    (by intro h; rw [show m1.nodes = [] from h] at h6; exact hn (List.length_eq_zero_iff.1 h6.symm))
    (by intro h; rw [show m1.edges = [] from (List.append_eq_nil_iff.1 h).1] at h5; exact he (List.length_eq_zero_iff.1 h5.symm))
  refine ⟨as ++ ts ++ bs, m2, s2, ?_, g2, g3, (h4.trans t4).trans g4⟩
  unfold prepare
  rw [h1, Res.ok_bind]
  simp only [Bool.not_true]
  rw [if_neg Bool.false_ne_true, ht, Res.ok_bind, g1, Res.ok_bind]

theorem energy_ge {want : Nat → Int} {N : Nat} {edges : List Edge} {n : Nat} (h : n < N) :
    ((degree edges n : Int) - want n) ^ 2 ≤ energy want N edges :=
  Finset.single_le_sum (f := fun n => ((degree edges n : Int) - want n) ^ 2) (fun _ _ => sq_nonneg _) (Finset.mem_range.2 h)

end Verif.Flip
