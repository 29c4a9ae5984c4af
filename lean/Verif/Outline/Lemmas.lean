import Verif.Outline.Model
import Verif.Outline.EvenLemmas
/-!
# Lemmas on the walk along the boundary
-/
namespace Verif.Outline
open Verif.Mesh Verif.Faces
variable {P : Type}

/-- What the walk uses of an administrated mesh: `B` are the boundary edges with both ends inside; no boundary edge has one end
inside and one end outside. -/
structure Net (inside : P → Bool) (m : Mesh P) (nf : List Nat) (B : List Nat) : Prop where
  nodup : B.Nodup
  len : nf.length = m.edges.length
  sound : ∀ e ∈ B, nf[e]? = some 1
  ends : ∀ e : Nat, nf[e]? = some 1 → ∃ a b x y, m.edges[e]? = some (a, b) ∧ a ≠ b ∧ m.nodes[a]? = some (some x) ∧ m.nodes[b]? = some (some y) ∧
    inside x = inside y ∧ (e ∈ B ↔ inside x = true)
  rows : ∀ (n : Nat) x, m.nodes[n]? = some (some x) → ∃ l, listedEdges m n = .ok l ∧ (∀ e ∈ l, e < m.edges.length) ∧
    ∀ e : Nat, nf[e]? = some 1 → (e ∈ l ↔ endsAt m.edges n e = true)
  even : ∀ n, B.countP (endsAt m.edges n) % 2 = 0
  single : ∀ (e e' a b : Nat) p p', e ≠ e' → nf[e]? = some 1 → m.edges[e]? = some p → m.edges[e']? = some p' → Joins p a b → ¬ Joins p' a b

/-- The visited edges are `D`, without repetition, among `B`. -/
structure Visited (m : Mesh P) (B D : List Nat) (v : List Bool) : Prop where
  len : v.length = m.edges.length
  mem : ∀ e, e < m.edges.length → v[e]? = some (decide (e ∈ D))
  nodup : D.Nodup
  sub : ∀ e ∈ D, e ∈ B

/-- At the nodes other than the two ends of the walk an even number of edges has been visited. -/
def Parity (edges : List Edge) (D : List Nat) (s v : Nat) : Prop :=
  ∀ n, (D.countP (endsAt edges n) + (if n = s then 1 else 0) + if n = v then 1 else 0) % 2 = 0

variable {inside : P → Bool} {m : Mesh P} {nf B D : List Nat} {v : List Bool}

theorem scan_ok {l : List Nat} (hlen : nf.length = m.edges.length) (hv : Visited m B D v) (hl : ∀ e ∈ l, e < m.edges.length) :
    (∃ e, scan nf v l = .ok (some e) ∧ e ∈ l ∧ e ∉ D ∧ nf[e]? = some 1) ∨ (scan nf v l = .ok none ∧ ∀ e ∈ l, nf[e]? = some 1 → e ∈ D) := by
  induction l with
  | nil => exact Or.inr ⟨rfl, by simp⟩
  | cons e es ih =>
    have he := hl e (by simp)
    have ih := ih (fun e h => hl e (by simp [h]))
    unfold scan
    rw [vget_eq_ok.2 (hv.mem e he), Res.ok_bind]
    by_cases hD : e ∈ D
    · rw [if_pos (by simpa using hD)]
      rcases ih with ⟨e', h1, h2, h3⟩ | ⟨h1, h2⟩
      · exact Or.inl ⟨e', h1, by simp [h2], h3⟩
      · refine Or.inr ⟨h1, ?_⟩
        intro e' he'
        rcases List.mem_cons.1 he' with rfl | he'
        · exact fun _ => hD
        · exact h2 e' he'
    · rw [if_neg (by simpa using hD), vget_ok (by rw [hlen]; exact he), Res.ok_bind]
      by_cases h1 : nf[e]'(by rw [hlen]; exact he) = 1
      · rw [if_neg (by simpa using h1)]
        exact Or.inl ⟨e, rfl, by simp, hD, by rw [List.getElem?_eq_getElem (by rw [hlen]; exact he), h1]⟩
      · rw [if_pos h1]
        rcases ih with ⟨e', h1, h2, h3⟩ | ⟨h3, h2⟩
        · exact Or.inl ⟨e', h1, by simp [h2], h3⟩
        · refine Or.inr ⟨h3, ?_⟩
          intro e' he' hn
          rcases List.mem_cons.1 he' with rfl | he'
          · rw [List.getElem?_eq_getElem (by rw [hlen]; exact he)] at hn
            exact absurd (Option.some.inj hn) h1
          · exact h2 e' he' hn

theorem Visited.add (hv : Visited m B D v) {e : Nat} (he : e < m.edges.length) (hB : e ∈ B) (hD : e ∉ D) :
    vset v e true = .ok (v.set e true) ∧ Visited m B (D ++ [e]) (v.set e true) := by
  refine ⟨vset_ok _ (by rw [hv.len]; exact he), by rw [List.length_set]; exact hv.len, ?_, ?_, ?_⟩
  · intro e' he'
    rw [List.getElem?_set]
    split
    · next h0 =>
      subst h0
      rw [if_pos (by rw [hv.len]; exact he)]
      simp
    · next h0 =>
      rw [hv.mem e' he']
      have : e' ≠ e := fun h => h0 h.symm
      simp [this]
  · rw [List.nodup_append]
    exact ⟨hv.nodup, by simp, by
      intro a ha b hb h
      rw [List.mem_singleton.1 hb] at h
      exact hD (h ▸ ha)⟩
  · intro e' he'
    rcases List.mem_append.1 he' with h | h
    · exact hv.sub e' h
    · rw [List.mem_singleton.1 h]; exact hB

/-- The other end of a boundary edge. -/
theorem other_end {a b n : Nat} {e : Nat} (he : m.edges[e]? = some (a, b)) (h : endsAt m.edges n e = true) :
    Joins (a, b) n (otherNode (a, b) n) := by
  rw [endsAt_iff he] at h
  unfold otherNode Joins
  rcases h with h | h
  · change a = n at h; subst h; simp
  · change b = n at h; subst h
    by_cases h1 : b = a
    · subst h1; simp
    · rw [if_neg h1]; simp

theorem Parity.step {edges : List Edge} {D : List Nat} {s a b e : Nat} {p : Edge} (h : Parity edges D s a) (he : edges[e]? = some p)
    (hj : Joins p a b) (hab : a ≠ b) : Parity edges (D ++ [e]) s b := by
  intro n
  have h0 := h n
  rw [List.countP_append, List.countP_singleton]
  have h1 : endsAt edges n e = true ↔ a = n ∨ b = n := endsAt_joins he hj
  by_cases ha : n = a
  · have hb : ¬ n = b := fun hb => hab (ha.symm.trans hb)
    rw [if_pos (h1.2 (Or.inl ha.symm)), if_neg hb]
    rw [if_pos ha] at h0
    omega
  · rw [if_neg ha] at h0
    by_cases hb : n = b
    · rw [if_pos (h1.2 (Or.inr hb.symm)), if_pos hb]; omega
    · rw [if_neg hb, if_neg (by rw [h1]; rintro (h | h); exacts [ha h.symm, hb h.symm])]; omega

theorem length_le_of_sub {D B : List Nat} (hD : D.Nodup) (h : ∀ e ∈ D, e ∈ B) : D.length ≤ B.length :=
  (List.subperm_of_subset hD h).length_le

/-- The walk, from a node inside: it leads along edges of `B` not visited before, to a node where all of them have been visited. -/
theorem walkFrom_ok (hN : Net inside m nf B) (s : Nat) : ∀ (d : Nat) (D : List Nat) (v : List Bool) (n : Nat) (x : P) (pts : List (Option P)),
    Visited m B D v → Parity m.edges D s n → m.nodes[n]? = some (some x) → inside x = true → B.length < d + D.length →
    ∃ es ns v' u, (∀ k, d ≤ k → walkFrom inside m nf k ⟨v, n, pts⟩ = .ok (some ⟨v', u, pts ++ ns.map fun i => (m.nodes[i]?).join⟩)) ∧
      Path m.edges (n :: ns) es ∧ (n :: ns).getLast? = some u ∧ Visited m B (D ++ es) v' ∧ Parity m.edges (D ++ es) s u ∧
      ∀ e ∈ B, endsAt m.edges u e = true → e ∈ D ++ es := by
  intro d
  induction d with
  | zero =>
    intro D v n x pts hv _ _ _ hk
    have := length_le_of_sub hv.nodup hv.sub
    omega
  | succ d ih =>
    intro D v n x pts hv hp hx hi hk
    obtain ⟨l, r1, r2, r3⟩ := hN.rows n x hx
    have stop : (∀ e ∈ l, nf[e]? = some 1 → e ∈ D) → (∀ k, walkFrom inside m nf (k + 1) ⟨v, n, pts⟩ = .ok (some ⟨v, n, pts⟩)) →
        ∃ es ns v' u, (∀ k, d + 1 ≤ k → walkFrom inside m nf k ⟨v, n, pts⟩ = .ok (some ⟨v', u, pts ++ ns.map fun i => (m.nodes[i]?).join⟩)) ∧
          Path m.edges (n :: ns) es ∧ (n :: ns).getLast? = some u ∧ Visited m B (D ++ es) v' ∧ Parity m.edges (D ++ es) s u ∧
          ∀ e ∈ B, endsAt m.edges u e = true → e ∈ D ++ es := by
      intro h1 h2
      refine ⟨[], [], v, n, fun k hk => by obtain ⟨k, rfl⟩ : ∃ k', k = k' + 1 := ⟨k - 1, by omega⟩; simpa using h2 k, trivial, rfl, by simpa using hv, by simpa using hp, ?_⟩
      intro e he h3
      rw [List.append_nil]
      exact h1 e ((r3 e (hN.sound e he)).2 h3) (hN.sound e he)
    match l, r1, r2, r3, stop with
    | [], r1, _, _, stop =>
      refine stop (by simp) fun k => ?_
      unfold walkFrom
      rw [r1, Res.ok_bind]
    | e0 :: es0, r1, r2, r3, stop =>
      have hrun : ∀ k, walkFrom inside m nf (k + 1) ⟨v, n, pts⟩ = (do
          let found ← scan nf v (e0 :: es0)
          match found with
          | none => .ok (some ⟨v, n, pts⟩)
          | some e' => do
            let w' ← step m e' ⟨v, n, pts⟩
            walkFrom inside m nf k w') := by
        intro k
        rw [walkFrom, r1, Res.ok_bind]
        simp only []
        rw [vget_eq_ok.2 hx, Res.ok_bind, contains, Res.ok_bind, hi]
        rfl
      rcases scan_ok hN.len hv r2 with ⟨e, h1, h2, h3, h4⟩ | ⟨h1, h2⟩
      · obtain ⟨a, b, xa, xb, q1, q2, q3, q4, q5, q6⟩ := hN.ends e h4
        have he : e < m.edges.length := r2 e h2
        have hj := other_end q1 ((r3 e h4).1 h2)
        have hne : n ≠ otherNode (a, b) n := by
          rcases hj with hj | hj
          · injection hj with j1 j2
            rw [← j2, ← j1]; exact q2
          · injection hj with j1 j2
            rw [← j1, ← j2]; exact fun h => q2 h.symm
        have hend : ∃ y, m.nodes[otherNode (a, b) n]? = some (some y) ∧ inside y = true ∧ e ∈ B := by
          rcases hj with hj | hj
          · injection hj with j1 j2
            have : inside xa = true := by
              rw [j1, hx] at q3
              rw [← Option.some.inj (Option.some.inj q3)]; exact hi
            exact ⟨xb, by rw [← j2]; exact q4, by rw [← q5]; exact this, q6.2 this⟩
          · injection hj with j1 j2
            have : inside xb = true := by
              rw [j2, hx] at q4
              rw [← Option.some.inj (Option.some.inj q4)]; exact hi
            exact ⟨xa, by rw [← j1]; exact q3, by rw [q5]; exact this, q6.2 (by rw [q5]; exact this)⟩
        obtain ⟨y, y1, y2, y3⟩ := hend
        obtain ⟨s1, s2⟩ := hv.add he y3 h3
        obtain ⟨es, ns, v', u, i1, i2, i3, i4, i5, i6⟩ := ih (D ++ [e]) (v.set e true) (otherNode (a, b) n) y (pts ++ [some y]) s2
          (hp.step q1 hj hne) y1 y2 (by rw [List.length_append, List.length_singleton]; omega)
        have hs : step m e ⟨v, n, pts⟩ = .ok ⟨v.set e true, otherNode (a, b) n, pts ++ [some y]⟩ := by
          unfold step
          rw [vget_eq_ok.2 q1, Res.ok_bind, vget_eq_ok.2 y1, Res.ok_bind]
          simp only [s1, Res.ok_bind]
        refine ⟨e :: es, otherNode (a, b) n :: ns, v', u, ?_, ⟨⟨_, q1, hj⟩, i2⟩, by rw [List.getLast?_cons_cons]; exact i3, ?_, ?_, ?_⟩
        · intro k hk
          obtain ⟨k, rfl⟩ : ∃ k', k = k' + 1 := ⟨k - 1, by omega⟩
          rw [hrun, h1, Res.ok_bind]
          simp only []
          rw [hs, Res.ok_bind, i1 k (by omega), List.map_cons, y1, List.append_assoc]
          rfl
        · rw [List.append_cons]; exact i4
        · rw [List.append_cons]; exact i5
        · rw [List.append_cons]; exact i6
      · refine stop h2 fun k => ?_
        rw [hrun, h1, Res.ok_bind]

/-- The walk ends where it started. -/
theorem back_home (hN : Net inside m nf B) {D : List Nat} {v : List Bool} {s u : Nat} (hv : Visited m B D v) (hp : Parity m.edges D s u)
    (hall : ∀ e ∈ B, endsAt m.edges u e = true → e ∈ D) : u = s := by
  by_contra hne
  have h1 := hp u
  rw [if_neg hne, if_pos rfl] at h1
  have h2 := hN.even u
  have : D.countP (endsAt m.edges u) = B.countP (endsAt m.edges u) := by
    rw [List.countP_eq_length_filter, List.countP_eq_length_filter]
    refine (List.perm_of_nodup_nodup_toFinset_eq (hv.nodup.filter _) (hN.nodup.filter _) ?_).length_eq
    ext e
    simp only [List.mem_toFinset, List.mem_filter]
    exact ⟨fun h => ⟨hv.sub e h.1, h.2⟩, fun h => ⟨hall e h.1 h.2, h.2⟩⟩
  omega

/-! ## One polygon -/

/-- What is left of a list of rings after the polygons have been drawn. -/
theorem drawn_snoc (m : Mesh P) (rings : List (List Nat × List Nat)) (r : List Nat × List Nat) (h : ∀ r ∈ rings, r.1 ≠ []) :
    drawn m (rings ++ [r]) = separated (drawn m rings) ++ r.1.map fun n => (m.nodes[n]?).join := by
  have gen : ∀ (ls : List (List (Option P))) (l : List (Option P)), (∀ l ∈ ls, l ≠ []) →
      List.intercalate [none] (ls ++ [l]) = separated (List.intercalate [none] ls) ++ l ∧ (ls ≠ [] → List.intercalate [none] ls ≠ []) := by
    intro ls
    induction ls with
    | nil => intro l _; simp [separated]
    | cons a ls ih =>
      intro l hl
      have ha := hl a (by simp)
      obtain ⟨i1, i2⟩ := ih l (fun l h => hl l (by simp [h]))
      cases ls with
      | nil =>
        have : separated a = a ++ [none] := by
          unfold separated
          rw [if_neg (by simpa using ha)]
        refine ⟨?_, fun _ => by simpa using ha⟩
        simp [this]
      | cons b ls =>
        have hne := i2 (by simp)
        have e1 : List.intercalate [none] (a :: b :: ls) = a ++ [none] ++ List.intercalate [none] (b :: ls) := by
          rw [List.intercalate_cons_of_ne_nil (by simp)]
        have e2 : List.intercalate [none] (a :: b :: ls ++ [l]) = a ++ [none] ++ List.intercalate [none] (b :: ls ++ [l]) := by
          rw [List.cons_append, List.intercalate_cons_of_ne_nil (by simp)]
        refine ⟨?_, fun _ => by rw [e1]; simp⟩
        rw [e2, e1, i1]
        have s1 : ∀ t : List (Option P), t ≠ [] → separated t = t ++ [none] := by
          intro t ht
          unfold separated
          rw [if_neg (by simpa using ht)]
        rw [s1 _ hne, s1 _ (by simp)]
        simp only [List.append_assoc]
  unfold drawn
  rw [List.map_append, List.map_singleton]
  refine (gen _ _ ?_).1
  intro l hl
  obtain ⟨r', h1, rfl⟩ := List.mem_map.1 hl
  simpa using h r' h1

/-- What holds between two rounds of the loop over the edges. -/
structure Between (m : Mesh P) (B : List Nat) (s : List Bool × List (Option P)) (rings : List (List Nat × List Nat)) : Prop where
  closed : ∀ r ∈ rings, Closed m.edges r.1 r.2
  visited : Visited m B (rings.flatMap (·.2)) s.1
  even : ∀ n, (rings.flatMap (·.2)).countP (endsAt m.edges n) % 2 = 0
  points : s.2 = drawn m rings

theorem Closed.ne_nil {edges : List Edge} {ns es : List Nat} (h : Closed edges ns es) : ns ≠ [] := by
  rintro rfl
  have := h.path
  cases es <;> simp [Path] at this

/-- A closed path along different edges has at least three sides. -/
theorem three_sides (hN : Net inside m nf B) {e a b : Nat} {es ns : List Nat} (hp : Path m.edges (b :: ns) es) (hlast : (b :: ns).getLast? = some a)
    (he : m.edges[e]? = some (a, b)) (hab : a ≠ b) (h1 : nf[e]? = some 1) (hn : (e :: es).Nodup) : 3 ≤ (e :: es).length := by
  match ns, es, hp, hlast with
  | [], [], _, hlast =>
    exact absurd (by simpa using hlast.symm) hab
  | [c], [e'], hp, hlast =>
    obtain ⟨⟨p, q1, q2⟩, _⟩ := hp
    have : c = a := by simpa using hlast
    subst this
    refine absurd q2 (hN.single e e' b c _ _ ?_ h1 he q1 (Or.inr rfl))
    rintro rfl
    simp at hn
  | _ :: _ :: _, _ :: _ :: _, _, _ => simp
  | [], _ :: _, hp, _ => exact hp.elim
  | _ :: _, [], hp, _ => exact hp.elim
  | [c], _ :: _ :: _, _, _ => simp
  | _ :: _ :: _, [e'], hp, _ => exact hp.2.elim

theorem polyline_ok (hN : Net inside m nf B) {e a b : Nat} {x y : P} {s : List Bool × List (Option P)} {rings : List (List Nat × List Nat)}
    (hs : Between m B s rings) (he : m.edges[e]? = some (a, b)) (hab : a ≠ b) (hx : m.nodes[a]? = some (some x))
    (hy : m.nodes[b]? = some (some y)) (hi : inside y = true) (hB : e ∈ B) (hD : e ∉ rings.flatMap (·.2)) :
    ∃ s' r, (∀ k, B.length < k → polyline inside m nf k e (a, b) (some x) (some y) s = .ok (some s')) ∧ Between m B s' (rings ++ [r]) ∧ e ∈ r.2 := by
  obtain ⟨v1, v2⟩ := hs.visited.add (List.getElem?_eq_some_iff.1 he).1 hB hD
  have p0 : Parity m.edges (rings.flatMap (·.2)) a a := by
    intro n
    have := hs.even n
    split <;> omega
  obtain ⟨es, ns, v', u, w1, w2, w3, w4, w5, w6⟩ := walkFrom_ok hN a (B.length + 1) _ _ b y (separated s.2 ++ [some x, some y]) v2 (p0.step he (Or.inl rfl) hab) hy hi
    (by omega)
  obtain rfl := back_home hN w4 w5 w6
  have hflat : (rings ++ [(u :: b :: ns, e :: es)]).flatMap (·.2) = rings.flatMap (·.2) ++ [e] ++ es := by
    simp
  have hnd : (e :: es).Nodup := by
    have := w4.nodup
    rw [List.append_assoc] at this
    exact (List.nodup_append.1 this).2.1
  refine ⟨(v', separated s.2 ++ (u :: b :: ns).map fun i => (m.nodes[i]?).join), (u :: b :: ns, e :: es), ?_, ⟨?_, ?_, ?_, ?_⟩, by simp⟩
  · intro k hk
    unfold polyline
    rw [v1, Res.ok_bind, w1 k hk, Res.ok_bind]
    simp only [secondTail, ne_eq, not_true_eq_false, if_false, Res.ok_bind, reverseTail, gt_iff_lt, lt_irrefl]
    simp [hx, hy]
  · intro r hr
    rcases List.mem_append.1 hr with hr | hr
    · exact hs.closed r hr
    · rw [List.mem_singleton.1 hr]
      refine ⟨⟨⟨_, he, Or.inl rfl⟩, w2⟩, ?_, three_sides hN w2 w3 he hab (hN.sound e hB) hnd⟩
      show some u = _
      rw [List.getLast?_cons_cons, w3]
  · rw [hflat]; exact w4
  · intro n
    rw [hflat]
    have := w5 n
    split at this <;> omega
  · show _ = drawn m _
    rw [drawn_snoc m rings _ (fun r hr => (hs.closed r hr).ne_nil), hs.points]

theorem round_ok (hN : Net inside m nf B) {e : Nat} {s : List Bool × List (Option P)} {rings : List (List Nat × List Nat)}
    (hs : Between m B s rings) (he : e < m.edges.length) :
    ∃ s' rs, (∀ k, B.length < k → round inside m nf k e s = .ok (some s')) ∧ Between m B s' (rings ++ rs) ∧ (e ∈ B → e ∈ (rings ++ rs).flatMap (·.2)) := by
  have hv := vget_eq_ok.2 (hs.visited.mem e he)
  by_cases hD : e ∈ rings.flatMap (·.2)
  · refine ⟨s, [], fun k _ => ?_, by simpa using hs, fun _ => by simpa using hD⟩
    unfold round
    rw [hv, Res.ok_bind, if_pos (by simpa using hD)]
  · have hlt : e < nf.length := by rw [hN.len]; exact he
    have hrun : ∀ k, round inside m nf k e s = if nf[e] ≠ 1 then .ok (some s) else fromEdge inside m nf k e s := by
      intro k
      unfold round
      rw [hv, Res.ok_bind, if_neg (by simpa using hD), vget_ok hlt, Res.ok_bind]
    by_cases h1 : nf[e] = 1
    · have hn : nf[e]? = some 1 := by rw [List.getElem?_eq_getElem hlt, h1]
      obtain ⟨a, b, x, y, q1, q2, q3, q4, q5, q6⟩ := hN.ends e hn
      have hrun' : ∀ k, round inside m nf k e s = if !(inside x) && !(inside x) then .ok (some s) else
          polyline inside m nf k e (a, b) (some x) (some y) s := by
        intro k
        rw [hrun, if_neg (by simpa using h1)]
        unfold fromEdge
        rw [vget_eq_ok.2 q1, Res.ok_bind]
        simp only []
        rw [vget_eq_ok.2 q3, Res.ok_bind, vget_eq_ok.2 q4, Res.ok_bind, contains, Res.ok_bind, contains, Res.ok_bind, ← q5]
      by_cases hi : inside x = true
      · obtain ⟨s', r, r1, r2, r3⟩ := polyline_ok hN hs q1 q2 q3 q4 (by rw [← q5]; exact hi) (q6.2 hi) hD
        refine ⟨s', [r], fun k hk => ?_, r2, fun _ => by simp [r3]⟩
        rw [hrun', if_neg (by simp [hi])]
        exact r1 k hk
      · refine ⟨s, [], fun k _ => ?_, by simpa using hs, fun h => absurd (q6.1 h) hi⟩
        rw [hrun', if_pos (by simpa using hi)]
    · refine ⟨s, [], fun k _ => by rw [hrun, if_pos h1], by simpa using hs, fun h => ?_⟩
      have := hN.sound e h
      rw [List.getElem?_eq_getElem hlt] at this
      exact absurd (Option.some.inj this) h1

theorem rounds_ok (hN : Net inside m nf B) (es : List Nat) (s : List Bool × List (Option P))
    (rings : List (List Nat × List Nat)) (hs : Between m B s rings) (he : ∀ e ∈ es, e < m.edges.length) :
    ∃ s' rs, (∀ k, B.length < k → rounds inside m nf k es s = .ok (some s')) ∧ Between m B s' (rings ++ rs) ∧ ∀ e ∈ es, e ∈ B → e ∈ (rings ++ rs).flatMap (·.2) := by
  induction es generalizing s rings with
  | nil => exact ⟨s, [], fun _ _ => rfl, by simpa using hs, by simp⟩
  | cons e es ih =>
    obtain ⟨s1, r1, a1, a2, a3⟩ := round_ok hN hs (he e (by simp))
    obtain ⟨s2, r2, b1, b2, b3⟩ := ih s1 (rings ++ r1) a2 (fun e h => he e (by simp [h]))
    refine ⟨s2, r1 ++ r2, ?_, by rw [← List.append_assoc]; exact b2, ?_⟩
    · intro k hk
      rw [rounds, a1 k hk, Res.ok_bind]
      exact b1 k hk
    · intro e' he' hB
      rw [← List.append_assoc]
      rcases List.mem_cons.1 he' with rfl | he'
      · rw [List.flatMap_append]
        exact List.mem_append_left _ (a3 hB)
      · exact b3 e' he' hB

/-- All the polygons. -/
theorem polylines_ok (hN : Net inside m nf B) :
    ∃ rings, (∀ k, B.length < k → polylines inside m nf k = .ok (some (drawn m rings))) ∧ Outlines m (· ∈ B) rings := by
  have h0 : Between m B (List.replicate m.edges.length false, []) [] := by
    refine ⟨by simp, ⟨by simp, ?_, by simp, by simp⟩, by simp, rfl⟩
    intro e he
    simp [he]
  have hlt : ∀ e ∈ B, e < m.edges.length := by
    intro e he
    rw [← hN.len]
    exact (List.getElem?_eq_some_iff.1 (hN.sound e he)).1
  obtain ⟨s, rs, a1, a2, a3⟩ := rounds_ok hN (List.range m.edges.length) _ [] h0 (fun e he => List.mem_range.1 he)
  refine ⟨rs, ?_, a2.closed, a2.visited.nodup, ?_⟩
  · intro k hk
    unfold polylines
    rw [a1 k hk, Res.ok_bind]
    simp only []
    rw [a2.points]; rfl
  · intro e
    exact ⟨fun h => a2.visited.sub e h, fun h => a3 e (List.mem_range.2 (hlt e h)) h⟩

end Verif.Outline
