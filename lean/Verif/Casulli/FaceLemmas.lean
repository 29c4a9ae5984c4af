import Verif.Casulli.Spec
/-!
# Faces of a mesh that is refined: corners, sides and directions
-/
namespace Verif.Casulli
open Verif.Mesh Verif.Faces
variable {P : Type} {m : Mesh P} {t : Tables P}

theorem edgeAt_some {e : Nat} {p : Edge} (h : m.edges[e]? = some p) : edgeAt m e = p := by simp [edgeAt, h]

theorem edges_some {e : Nat} (h : e < m.edges.length) : m.edges[e]? = some (edgeAt m e) := by
  simp [edgeAt, h]

theorem vget_edge {e : Nat} (h : e < m.edges.length) : vget m.edges e = .ok (edgeAt m e) := vget_eq_ok.2 (edges_some h)

theorem getEdge_ok {e : Nat} (h : e < m.edges.length) : getEdge m e = .ok (edgeAt m e) := by
  unfold getEdge; rw [edges_some h]

theorem used_lt {e : Nat} (h : edgeAt m e ≠ noEdge) : e < m.edges.length := by
  by_contra hlt
  apply h
  have : m.edges[e]? = none := List.getElem?_eq_none (by omega)
  simp [edgeAt, this]

/-- A face of the mesh. -/
structure FaceOf (m : Mesh P) (s : State) (f : Nat) (ns es : List Nat) : Prop where
  nodes : s.facesNodes[f]? = some ns
  edges : s.facesEdges[f]? = some es
  proper : Proper m.edges ns es

theorem Net.face (h : Net m t) {f : Nat} (hf : f < t.faces.facesNodes.length) : ∃ ns es, FaceOf m t.faces f ns es := by
  obtain ⟨cw, hc⟩ := h.faces
  have h2 : f < t.faces.facesEdges.length := by rw [← hc.lengths]; exact hf
  exact ⟨_, _, List.getElem?_eq_getElem hf, List.getElem?_eq_getElem h2, (hc.proper f _ _ (List.getElem?_eq_getElem hf) (List.getElem?_eq_getElem h2)).1⟩

theorem Net.face_nodes (h : Net m t) {f : Nat} {ns : List Nat} (hf : t.faces.facesNodes[f]? = some ns) : ∃ es, FaceOf m t.faces f ns es := by
  obtain ⟨ns', es, h1⟩ := h.face (List.getElem?_eq_some_iff.1 hf).1
  have := h1.nodes
  rw [hf] at this
  obtain rfl := Option.some.inj this
  exact ⟨es, h1⟩

theorem Net.face_borders (h : Net m t) {f e : Nat} (hb : Borders t.faces f e) : ∃ ns es, FaceOf m t.faces f ns es ∧ e ∈ es := by
  obtain ⟨es, h1, h2⟩ := hb
  obtain ⟨cw, hc⟩ := h.faces
  obtain ⟨ns, es', h3⟩ := h.face (f := f) (by rw [hc.lengths]; exact (List.getElem?_eq_some_iff.1 h1).1)
  have := h3.edges
  rw [h1] at this
  obtain rfl := Option.some.inj this
  exact ⟨ns, _, h3, h2⟩

theorem FaceOf.borders {s : State} {f : Nat} {ns es : List Nat} (h : FaceOf m s f ns es) {e : Nat} (he : e ∈ es) : Borders s f e := ⟨es, h.edges, he⟩

/-- Side `i` of a face. -/
theorem FaceOf.side {s : State} {f : Nat} {ns es : List Nat} (h : FaceOf m s f ns es) {i : Nat} (hi : i < ns.length) :
    ∃ a b e, ns[i]? = some a ∧ ns[(i + 1) % ns.length]? = some b ∧ es[i]? = some e ∧ e < m.edges.length ∧ joins (edgeAt m e) a b ∧ a ≠ b ∧
      edgeAt m e ≠ noEdge := by
  obtain ⟨a, b, e, p, h1, h2, h3, h4, h5⟩ := h.proper.sides i hi
  have hp := edgeAt_some h4
  have h3' := h.proper.atLeast
  have hab : a ≠ b := by
    intro hab
    subst hab
    have := (List.getElem?_inj hi h.proper.nodesDistinct).1 (h1.trans h2.symm)
    rcases Nat.lt_or_ge (i + 1) ns.length with q | q
    · rw [Nat.mod_eq_of_lt q] at this; omega
    · have q' : i + 1 = ns.length := by omega
      rw [q', Nat.mod_self] at this; omega
  refine ⟨a, b, e, h1, h2, h3, (List.getElem?_eq_some_iff.1 h4).1, by rw [hp]; exact h5, hab, ?_⟩
  intro hno
  rw [hp] at hno
  rcases h5 with h5 | h5
  · rw [h5] at hno
    have := Prod.mk.inj hno
    exact hab (this.1.trans this.2.symm)
  · rw [h5] at hno
    have := Prod.mk.inj hno
    exact hab (this.2.trans this.1.symm)

theorem joins_touches {p : Edge} {a b v : Nat} (h : joins p a b) : touches p v ↔ v = a ∨ v = b := by
  rcases h with rfl | rfl
  · constructor
    · rintro (h | h)
      · exact Or.inl h.symm
      · exact Or.inr h.symm
    · rintro (h | h)
      · exact Or.inl h.symm
      · exact Or.inr h.symm
  · constructor
    · rintro (h | h)
      · exact Or.inr h.symm
      · exact Or.inl h.symm
    · rintro (h | h)
      · exact Or.inr h.symm
      · exact Or.inl h.symm

/-- The place before, cyclically. -/
def before (k i : Nat) : Nat := if i = 0 then k - 1 else i - 1

theorem before_lt {k i : Nat} (h : i < k) : before k i < k := by unfold before; split <;> omega

theorem before_next {k i : Nat} (h : i < k) : (before k i + 1) % k = i := by
  unfold before
  split
  · rename_i h0
    have : k - 1 + 1 = k := by omega
    rw [this, Nat.mod_self, h0]
  · rw [Nat.mod_eq_of_lt (by omega)]; omega

theorem next_eq {k i j : Nat} (_ : i < k) (hj : j < k) (h : (j + 1) % k = i) : j = before k i := by
  unfold before
  rcases Nat.lt_or_ge (j + 1) k with q | q
  · rw [Nat.mod_eq_of_lt q] at h
    split <;> omega
  · have : j + 1 = k := by omega
    rw [this, Nat.mod_self] at h
    split <;> omega

theorem before_ne {k i : Nat} (_ : i < k) (hk : 2 ≤ k) : before k i ≠ i := by unfold before; split <;> omega

/-- The sides of a face that end in one of its corners are the one from there and the one before. -/
theorem FaceOf.touching {s : State} {f : Nat} {ns es : List Nat} (h : FaceOf m s f ns es) {i j v e : Nat} (hv : ns[i]? = some v) (he : es[j]? = some e) :
    touches (edgeAt m e) v ↔ j = i ∨ j = before ns.length i := by
  have hi : i < ns.length := (List.getElem?_eq_some_iff.1 hv).1
  have hj : j < ns.length := by rw [← h.proper.len]; exact (List.getElem?_eq_some_iff.1 he).1
  obtain ⟨a, b, e', h1, h2, h3, h4, h5, h6, h7⟩ := h.side hj
  rw [he] at h3
  obtain rfl := Option.some.inj h3
  rw [joins_touches h5]
  constructor
  · rintro (rfl | rfl)
    · exact Or.inl ((List.getElem?_inj hj h.proper.nodesDistinct).1 (h1.trans hv.symm))
    · have := (List.getElem?_inj (Nat.mod_lt _ (by omega)) h.proper.nodesDistinct).1 (h2.trans hv.symm)
      exact Or.inr (next_eq hi hj this)
  · rintro (rfl | rfl)
    · rw [h1] at hv; exact Or.inl (Option.some.inj hv).symm
    · rw [before_next hi] at h2
      rw [h2] at hv; exact Or.inr (Option.some.inj hv).symm

/-- An end of a side of a face is a corner of the face. -/
theorem FaceOf.corner {s : State} {f : Nat} {ns es : List Nat} (h : FaceOf m s f ns es) {e v : Nat} (he : e ∈ es) (hv : touches (edgeAt m e) v) :
    v ∈ ns := by
  obtain ⟨j, hj, rfl⟩ := List.mem_iff_getElem.1 he
  obtain ⟨a, b, e', h1, h2, h3, h4, h5, h6, h7⟩ := h.side (i := j) (by rw [← h.proper.len]; exact hj)
  rw [List.getElem?_eq_getElem hj] at h3
  obtain rfl := Option.some.inj h3
  rcases (joins_touches h5).1 hv with rfl | rfl
  · exact List.mem_of_getElem? h1
  · exact List.mem_of_getElem? h2

theorem FaceOf.used {s : State} {f : Nat} {ns es : List Nat} (h : FaceOf m s f ns es) {e : Nat} (he : e ∈ es) : edgeAt m e ≠ noEdge := by
  obtain ⟨j, hj, rfl⟩ := List.mem_iff_getElem.1 he
  obtain ⟨a, b, e', h1, h2, h3, h4, h5, h6, h7⟩ := h.side (i := j) (by rw [← h.proper.len]; exact hj)
  rw [List.getElem?_eq_getElem hj] at h3
  obtain rfl := Option.some.inj h3
  exact h7

/-- Two different sides of a face end in each of its corners, and no others. -/
theorem FaceOf.two {s : State} {f : Nat} {ns es : List Nat} (h : FaceOf m s f ns es) {v : Nat} (hv : v ∈ ns) :
    ∃ e1 e2, e1 ≠ e2 ∧ e1 ∈ es ∧ e2 ∈ es ∧ touches (edgeAt m e1) v ∧ touches (edgeAt m e2) v ∧
      ∀ e ∈ es, touches (edgeAt m e) v → e = e1 ∨ e = e2 := by
  obtain ⟨i, hi, rfl⟩ := List.mem_iff_getElem.1 hv
  have hv' : ns[i]? = some ns[i] := List.getElem?_eq_getElem hi
  have hl := h.proper.len
  have hi' : i < es.length := by omega
  have hb' : before ns.length i < es.length := by rw [hl]; exact before_lt hi
  have h3 := h.proper.atLeast
  refine ⟨es[i], es[before ns.length i], ?_, List.getElem_mem _, List.getElem_mem _, (h.touching hv' (List.getElem?_eq_getElem hi')).2 (Or.inl rfl),
    (h.touching hv' (List.getElem?_eq_getElem hb')).2 (Or.inr rfl), ?_⟩
  · intro hc
    have := (List.getElem?_inj (j := before ns.length i) hi' h.proper.edgesDistinct).1
      (by rw [List.getElem?_eq_getElem hi', List.getElem?_eq_getElem hb', hc])
    exact before_ne hi (by omega) this.symm
  · intro e he ht
    obtain ⟨j, hj, rfl⟩ := List.mem_iff_getElem.1 he
    rcases (h.touching hv' (List.getElem?_eq_getElem hj)).1 ht with rfl | rfl
    · exact Or.inl rfl
    · exact Or.inr rfl

/-- The edges of a face at one of its corners, as the code finds them. -/
theorem edgesAt_filter (v : Nat) (es : List Nat) (h : ∀ e ∈ es, e < m.edges.length) :
    ∃ l, edgesAt m v es = .ok l ∧ (∀ e, e ∈ l ↔ e ∈ es ∧ touches (edgeAt m e) v) ∧ (es.Nodup → l.Nodup) := by
  induction es with
  | nil => exact ⟨[], rfl, by simp, fun _ => List.nodup_nil⟩
  | cons e es ih =>
    obtain ⟨l, h1, h2, h3⟩ := ih (fun x hx => h x (List.mem_cons_of_mem _ hx))
    rw [edgesAt, getEdge_ok (h e (List.mem_cons_self ..)), Res.ok_bind, h1, Res.ok_bind]
    refine ⟨_, rfl, ?_, ?_⟩
    · intro x
      by_cases hc : (edgeAt m e).1 = v ∨ (edgeAt m e).2 = v
      · rw [if_pos hc, List.mem_cons, List.mem_cons, h2]
        constructor
        · rintro (rfl | ⟨a, b⟩)
          · exact ⟨Or.inl rfl, hc⟩
          · exact ⟨Or.inr a, b⟩
        · rintro ⟨rfl | a, b⟩
          · exact Or.inl rfl
          · exact Or.inr ⟨a, b⟩
      · rw [if_neg hc, h2, List.mem_cons]
        constructor
        · rintro ⟨a, b⟩; exact ⟨Or.inr a, b⟩
        · rintro ⟨rfl | a, b⟩
          · exact absurd b hc
          · exact ⟨a, b⟩
    · intro hn
      rw [List.nodup_cons] at hn
      split
      · exact List.nodup_cons.2 ⟨fun hc => hn.1 ((h2 e).1 hc).1, h3 hn.2⟩
      · exact h3 hn.2

theorem FaceOf.edgesAt {s : State} {f : Nat} {ns es : List Nat} (h : FaceOf m s f ns es) {v : Nat} (hv : v ∈ ns) :
    ∃ e1 e2, Casulli.edgesAt m v es = .ok [e1, e2] ∧ e1 ≠ e2 ∧ e1 ∈ es ∧ e2 ∈ es ∧ touches (edgeAt m e1) v ∧ touches (edgeAt m e2) v ∧
      ∀ e ∈ es, touches (edgeAt m e) v → e = e1 ∨ e = e2 := by
  obtain ⟨l, h1, h2, h3⟩ := edgesAt_filter v es (fun e he => used_lt (h.used he))
  obtain ⟨a, b, hab, ha, hb, hta, htb, hall⟩ := h.two hv
  have hnd := h3 h.proper.edgesDistinct
  have hal := (h2 a).2 ⟨ha, hta⟩
  have hbl := (h2 b).2 ⟨hb, htb⟩
  match l, h1, h2, hnd, hal, hbl with
  | [], _, _, _, hal, _ => exact absurd hal (List.not_mem_nil)
  | [x], _, _, _, hal, hbl =>
    rw [List.mem_singleton] at hal hbl
    exact absurd (hal.trans hbl.symm) hab
  | [x, y], h1, h2, hnd, _, _ =>
    have hx := (h2 x).1 (by simp)
    have hy := (h2 y).1 (by simp)
    refine ⟨x, y, h1, ?_, hx.1, hy.1, hx.2, hy.2, ?_⟩
    · intro hc
      rw [hc] at hnd
      simp at hnd
    · intro e he ht
      have := (h2 e).2 ⟨he, ht⟩
      simpa using this
  | x :: y :: z :: l, _, h2, hnd, _, _ =>
    exfalso
    have hx := (h2 x).1 (by simp)
    have hy := (h2 y).1 (by simp)
    have hz := (h2 z).1 (by simp)
    simp only [List.nodup_cons, List.mem_cons, not_or] at hnd
    rcases hall x hx.1 hx.2 with rfl | rfl <;> rcases hall y hy.1 hy.2 with rfl | rfl <;> rcases hall z hz.1 hz.2 with rfl | rfl <;>
      simp_all

end Verif.Casulli
