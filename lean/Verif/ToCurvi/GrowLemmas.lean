import Verif.ToCurvi.RoundLemmas
/-!
# Lemmas: growing to the end
-/
namespace Verif.ToCurvi
open Verif.Mesh Verif.Faces Verif.Refine Verif.Curvi
variable {P : Type} {m : Mesh P} {s : State} {f0 : Nat} {t : Front}

/-- Direction `d` leads over the side from `a` to `b`. -/
def Dir (place : Nat → Option (Int × Int)) (ns : List Nat) (loc : Int → Int → Option Nat) (d a b : Nat) : Prop :=
  loc (nodeFrom d).1 (nodeFrom d).2 = some a ∧ loc (nodeTo d).1 (nodeTo d).2 = some b ∧
  ∃ (c c' : Nat) (p q r r' : Int × Int), Around ns a b c c' ∧ place a = some p ∧ place b = some q ∧ place c = some r' ∧ place c' = some r ∧
    Cell p q r' r ∧ (p.1 + (delta d).1 = 2 * p.1 - r.1 ∧ p.2 + (delta d).2 = 2 * p.2 - r.2) ∧
    (q.1 + (delta d).1 = 2 * q.1 - r'.1 ∧ q.2 + (delta d).2 = 2 * q.2 - r'.2)

theorem Dir.mono {a b : Nat → Option (Int × Int)} (h : Extends a b) {ns : List Nat} {loc : Int → Int → Option Nat} {d x y : Nat}
    (hd : Dir a ns loc d x y) : Dir b ns loc d x y := by
  obtain ⟨h1, h2, c, c', p, q, r, r', h3, h4, h5, h6, h7, h8, h9, h10⟩ := hd
  exact ⟨h1, h2, c, c', p, q, r, r', h3, h _ _ h4, h _ _ h5, h _ _ h6, h _ _ h7, h8, h9, h10⟩

theorem around_turn {n0 n1 n2 n3 a b c d : Nat} (h : Around [n1, n2, n3, n0] a b c d) : Around [n0, n1, n2, n3] a b c d := by
  rcases h with q | q | q | q | q | q | q | q <;> simp only [List.cons.injEq, and_true] at q <;> obtain ⟨rfl, rfl, rfl, rfl⟩ := q
  · exact Or.inr (Or.inr (Or.inr (Or.inl rfl)))
  · exact Or.inl rfl
  · exact Or.inr (Or.inl rfl)
  · exact Or.inr (Or.inr (Or.inl rfl))
  · exact Or.inr (Or.inr (Or.inr (Or.inr (Or.inr (Or.inr (Or.inr rfl))))))
  · exact Or.inr (Or.inr (Or.inr (Or.inr (Or.inl rfl))))
  · exact Or.inr (Or.inr (Or.inr (Or.inr (Or.inr (Or.inl rfl)))))
  · exact Or.inr (Or.inr (Or.inr (Or.inr (Or.inr (Or.inr (Or.inl rfl))))))

theorem around_back {n0 n1 n2 n3 a b c d : Nat} (h : Around [n3, n2, n1, n0] a b c d) : Around [n0, n1, n2, n3] a b c d := by
  rcases h with q | q | q | q | q | q | q | q <;> simp only [List.cons.injEq, and_true] at q <;> obtain ⟨rfl, rfl, rfl, rfl⟩ := q
  · exact Or.inr (Or.inr (Or.inr (Or.inr (Or.inl rfl))))
  · exact Or.inr (Or.inr (Or.inr (Or.inr (Or.inr (Or.inr (Or.inr rfl))))))
  · exact Or.inr (Or.inr (Or.inr (Or.inr (Or.inr (Or.inr (Or.inl rfl))))))
  · exact Or.inr (Or.inr (Or.inr (Or.inr (Or.inr (Or.inl rfl)))))
  · exact Or.inl rfl
  · exact Or.inr (Or.inr (Or.inr (Or.inl rfl)))
  · exact Or.inr (Or.inr (Or.inl rfl))
  · exact Or.inr (Or.inl rfl)

theorem around_same {ns : List Nat} {n0 n1 n2 n3 a b c d : Nat} (h : Around ns n0 n1 n2 n3) (h' : Around ns a b c d) : Around [n0, n1, n2, n3] a b c d := by
  rcases h with q | q | q | q | q | q | q | q <;> rw [q] at h'
  · exact h'
  · exact around_turn h'
  · exact around_turn (around_turn h')
  · exact around_turn (around_turn (around_turn h'))
  · exact around_back h'
  · exact around_turn (around_turn (around_turn (around_back h')))
  · exact around_turn (around_turn (around_back h'))
  · exact around_turn (around_back h')

/-- Each direction leads over a side, and over each side leads a direction. -/
theorem directions {ns : List Nat} (h : OnCell t.place ns) : ∃ loc, localMapping t ns = .ok loc ∧ (∀ d < 4, ∃ a b, Dir t.place ns loc d a b) ∧
    (∀ a b c c', Around ns a b c c' → ∃ d < 4, Dir t.place ns loc d a b ∨ Dir t.place ns loc d b a) := by
  obtain ⟨loc, n00, n10, n11, n01, p, h1, h2, l00, l10, l11, l01, p00, p10, p11, p01⟩ := localMapping_eq h
  have hc : Cell p (p.1 + 1, p.2) (p.1 + 1, p.2 + 1) (p.1, p.2 + 1) := ⟨1, 1, Or.inl rfl, Or.inl rfl, Or.inl ⟨rfl, rfl, rfl⟩⟩
  have D0 : Dir t.place ns loc 0 n00 n01 := by
    refine ⟨l00, l01, n11, n10, _, _, _, _, h2.flip.rot, p00, p01, p11, p10, hc.flip.rot, ?_, ?_⟩ <;> simp only [delta] <;> omega
  have D1 : Dir t.place ns loc 1 n00 n10 := by
    refine ⟨l00, l10, n11, n01, _, _, _, _, h2, p00, p10, p11, p01, hc, ?_, ?_⟩ <;> simp only [delta] <;> omega
  have D2 : Dir t.place ns loc 2 n10 n11 := by
    refine ⟨l10, l11, n01, n00, _, _, _, _, h2.rot, p10, p11, p01, p00, hc.rot, ?_, ?_⟩ <;> simp only [delta] <;> omega
  have D3 : Dir t.place ns loc 3 n11 n01 := by
    refine ⟨l11, l01, n00, n10, _, _, _, _, h2.rot.rot, p11, p01, p00, p10, hc.rot.rot, ?_, ?_⟩ <;> simp only [delta] <;> omega
  refine ⟨loc, h1, ?_, ?_⟩
  · intro d hd
    have : d = 0 ∨ d = 1 ∨ d = 2 ∨ d = 3 := by omega
    rcases this with rfl | rfl | rfl | rfl
    · exact ⟨_, _, D0⟩
    · exact ⟨_, _, D1⟩
    · exact ⟨_, _, D2⟩
    · exact ⟨_, _, D3⟩
  · intro a b c c' hA
    have := around_same h2 hA
    rcases this with q | q | q | q | q | q | q | q <;> simp only [List.cons.injEq, and_true] at q <;> obtain ⟨rfl, rfl, rfl, rfl⟩ := q
    · exact ⟨1, by omega, Or.inl D1⟩
    · exact ⟨0, by omega, Or.inr D0⟩
    · exact ⟨3, by omega, Or.inl D3⟩
    · exact ⟨2, by omega, Or.inl D2⟩
    · exact ⟨3, by omega, Or.inr D3⟩
    · exact ⟨2, by omega, Or.inr D2⟩
    · exact ⟨1, by omega, Or.inr D1⟩
    · exact ⟨0, by omega, Or.inl D0⟩

theorem spread_eq (hf : Facts m s) (hb : Bordered m s f0) (ht : NoTwin m s f0) {w : Work} (h : Inv m s f0 w.2) (hl : ¬ Long w.2.place) {f d : Nat}
    {ns : List Nat} {vis : List Bool} (hv : vis.length = s.facesNodes.length) {loc : Int → Int → Option Nat} (hr : Reached s w.2.place f0 f)
    (hq : Quad s f ns) {a b : Nat} (hd : Dir w.2.place ns loc d a b) :
    ∃ w', spread m s f loc vis d w = .ok w' ∧ Inv m s f0 w'.2 ∧ Extends w.2.place w'.2.place ∧
      (∃ new, w'.1 = w.1 ++ new ∧ new.length ≤ 1 ∧ ∀ g ∈ new, Placed s f0 w'.2.place g) ∧
      ∀ e, joins (edgeAt m e) a b → ∀ g ns', Next s e f g ns ns' → vis[g]? = some true ∨ g ∈ w'.1 ∨ Blocked m s w'.2.place e ns ns' := by
  obtain ⟨l1, l2, c, c', p, q, r, r', k1, k2, k3, k4, k5, k6, k7, k8⟩ := hd
  obtain ⟨e0, _, _, _, hS, _⟩ := hf.around hq k1
  obtain ⟨k, t', g1, g2, g3, g4, g5⟩ := neighbour_eq hf hb ht h hl hv hr hq hS.b0 k1 hS.j0 k2 k3 k4 k5 k6 k7 k8 l1 l2
  unfold spread
  rw [g1, Res.ok_bind]
  refine ⟨_, rfl, g2, g3, ?_, ?_⟩
  · by_cases hk : k = missing
    · exact ⟨[], by simp [hk], by simp, by simp⟩
    · exact ⟨[k], by simp [hk], by simp, by simpa using g4 hk⟩
  · intro e he g ns' hn
    obtain rfl : e = e0 := hf.edge_unique (hf.node_ne hq k1.mem.1) he hS.j0
    rcases g5 g ns' hn with hh | ⟨hh, rfl⟩ | hh
    · exact Or.inl hh
    · exact Or.inr (Or.inl (by simp [hh]))
    · exact Or.inr (Or.inr hh)

/-- What is known after `n` directions. -/
structure Half (m : Mesh P) (s : State) (f0 f : Nat) (ns : List Nat) (vis : List Bool) (loc : Int → Int → Option Nat) (q : List Nat) (t : Front)
    (n : Nat) (w : Work) : Prop where
  inv : Inv m s f0 w.2
  ext : Extends t.place w.2.place
  new : ∃ new, w.1 = q ++ new ∧ new.length ≤ n ∧ ∀ g ∈ new, Placed s f0 w.2.place g
  served : ∀ d < n, ∀ a b, Dir t.place ns loc d a b → ∀ e, joins (edgeAt m e) a b → ∀ g ns', Next s e f g ns ns' →
    vis[g]? = some true ∨ g ∈ w.1 ∨ Blocked m s w.2.place e ns ns'

theorem Half.next (hf : Facts m s) (hb : Bordered m s f0) (ht : NoTwin m s f0) {f : Nat} {ns : List Nat} {vis : List Bool}
    {loc : Int → Int → Option Nat} {q : List Nat} {n : Nat} {w : Work} (h : Half m s f0 f ns vis loc q t n w) (hl : ¬ Long w.2.place)
    (hv : vis.length = s.facesNodes.length) (hr : Reached s t.place f0 f) (hq : Quad s f ns) (hd : ∃ a b, Dir t.place ns loc n a b) :
    ∃ w', spread m s f loc vis n w = .ok w' ∧ Half m s f0 f ns vis loc q t (n + 1) w' := by
  obtain ⟨a, b, hd⟩ := hd
  obtain ⟨w', h1, h2, h3, ⟨new', h4, h5, h6⟩, h7⟩ := spread_eq hf hb ht h.inv hl hv (hr.mono h.ext) hq (hd.mono h.ext)
  obtain ⟨new, g1, g2, g3⟩ := h.new
  refine ⟨w', h1, h2, h.ext.trans h3, ⟨new ++ new', ?_, ?_, ?_⟩, ?_⟩
  · rw [h4, g1, List.append_assoc]
  · rw [List.length_append]; omega
  · intro g hg
    rcases List.mem_append.1 hg with hg | hg
    · exact (g3 g hg).mono h3
    · exact h6 g hg
  · intro d hd' a' b' hD e he g ns' hn
    by_cases hdn : d = n
    · subst hdn
      have e1 := hD.1; rw [hd.1] at e1; obtain rfl := Option.some.inj e1
      have e2 := hD.2.1; rw [hd.2.1] at e2; obtain rfl := Option.some.inj e2
      exact h7 e he g ns' hn
    · rcases h.served d (by omega) a' b' hD e he g ns' hn with hh | hh | hh
      · exact Or.inl hh
      · exact Or.inr (Or.inl (by rw [h4]; exact List.mem_append_left _ hh))
      · exact Or.inr (Or.inr (hh.mono h3))

theorem visit_eq (hf : Facts m s) (hb : Bordered m s f0) (ht : NoTwin m s f0) (h : Inv m s f0 t) {f : Nat} {vis : List Bool} {q : List Nat}
    (hv : vis.length = s.facesNodes.length) (hp : Placed s f0 t.place f)
    (safe : ∀ t1, Inv m s f0 t1 → (∀ w, visit m s f vis q t = .ok w → Extends t1.place w.2.place) → ¬ Long t1.place) :
    ∃ w, visit m s f vis q t = .ok w ∧ Inv m s f0 w.2 ∧ Extends t.place w.2.place ∧
      (∃ new, w.1 = q ++ new ∧ new.length ≤ 4 ∧ ∀ g ∈ new, Placed s f0 w.2.place g) ∧
      ∀ e ns g ns', Next s e f g ns ns' → vis[g]? = some true ∨ g ∈ w.1 ∨ Blocked m s w.2.place e ns ns' := by
  obtain ⟨ns, hq, hc, hr⟩ := hp
  obtain ⟨loc, h1, h2, h3⟩ := directions hc
  have hV : visit m s f vis q t = (do
      let w1 ← spread m s f loc vis 0 (q, t)
      let w2 ← spread m s f loc vis 1 w1
      let w3 ← spread m s f loc vis 2 w2
      spread m s f loc vis 3 w3) := by
    unfold visit
    rw [vget_eq_ok.2 hq.1, Res.ok_bind, if_neg (by rw [hq.2]; simp), h1, Res.ok_bind, four]
  have H0 : Half m s f0 f ns vis loc q t 0 (q, t) := ⟨h, Extends.refl _, ⟨[], by simp, by simp, by simp⟩, by intro d hd; omega⟩
  rw [hV] at safe ⊢
  have room : ∀ {t : Front}, Inv m s f0 t → t.i.length = m.nodes.length ∧ t.j.length = m.nodes.length := fun hh => ⟨hh.leni, hh.lenj⟩
  obtain ⟨w1, a1, H1⟩ := H0.next hf hb ht (safe t h (by
    intro w hw
    obtain ⟨w1, e1, hw⟩ := Res.bind_eq_ok.1 hw
    obtain ⟨w2, e2, hw⟩ := Res.bind_eq_ok.1 hw
    obtain ⟨w3, e3, hw⟩ := Res.bind_eq_ok.1 hw
    have k1 := spread_kept (w := (q, t)) hf (room h) e1
    have k2 := spread_kept hf k1.room e2
    have k3 := spread_kept hf k2.room e3
    exact (k1.trans (k2.trans (k3.trans (spread_kept hf k3.room hw)))).ext)) hv hr hq (h2 0 (by omega))
  rw [a1, Res.ok_bind] at safe ⊢
  obtain ⟨w2, a2, H2⟩ := H1.next hf hb ht (safe w1.2 H1.inv (by
    intro w hw
    obtain ⟨w2, e2, hw⟩ := Res.bind_eq_ok.1 hw
    obtain ⟨w3, e3, hw⟩ := Res.bind_eq_ok.1 hw
    have k2 := spread_kept hf (room H1.inv) e2
    have k3 := spread_kept hf k2.room e3
    exact (k2.trans (k3.trans (spread_kept hf k3.room hw))).ext)) hv hr hq (h2 1 (by omega))
  rw [a2, Res.ok_bind] at safe ⊢
  obtain ⟨w3, a3, H3⟩ := H2.next hf hb ht (safe w2.2 H2.inv (by
    intro w hw
    obtain ⟨w3, e3, hw⟩ := Res.bind_eq_ok.1 hw
    have k3 := spread_kept hf (room H2.inv) e3
    exact (k3.trans (spread_kept hf k3.room hw)).ext)) hv hr hq (h2 2 (by omega))
  rw [a3, Res.ok_bind] at safe ⊢
  obtain ⟨w4, a4, H4⟩ := H3.next hf hb ht (safe w3.2 H3.inv (fun w hw => (spread_kept hf (room H3.inv) hw).ext)) hv hr hq (h2 3 (by omega))
  refine ⟨w4, a4, H4.inv, H4.ext, H4.new, ?_⟩
  intro e ns2 g ns' hn
  obtain rfl : ns2 = ns := by have := hn.left.1; rw [hq.1] at this; exact (Option.some.inj this).symm
  obtain ⟨a, b, y, x, k1, k2, _⟩ := tryFace_eq hf hn.left hn.leftSide
  obtain ⟨d, hd, hD | hD⟩ := h3 a b y x k1
  · exact H4.served d hd a b hD e k2 g ns' hn
  · exact H4.served d hd b a hD e (joins_comm.1 k2) g ns' hn

/-! ## The loop -/

/-- The number of faces not visited yet. -/
def left (vis : List Bool) : Nat := vis.count false

theorem left_set {vis : List Bool} {f : Nat} (h : vis[f]? = some false) : left (vis.set f true) + 1 = left vis := by
  unfold left
  obtain ⟨hf, hv⟩ := List.getElem?_eq_some_iff.1 h
  rw [List.count_set hf]
  have : 0 < vis.count false := by
    rw [List.count_pos_iff, ← hv]; exact List.getElem_mem hf
  simp [hv]
  omega

/-- What is known about the faces while the front grows. -/
structure Going (m : Mesh P) (s : State) (f0 : Nat) (q : List Nat) (vis : List Bool) (t : Front) : Prop where
  inv : Inv m s f0 t
  len : vis.length = s.facesNodes.length
  queue : ∀ f ∈ q, Placed s f0 t.place f
  seen : ∀ f, vis[f]? = some true → Placed s f0 t.place f
  served : ∀ f, vis[f]? = some true → ∀ e ns g ns', Next s e f g ns ns' → vis[g]? = some true ∨ g ∈ q ∨ Blocked m s t.place e ns ns'
  start : f0 ∈ q ∨ vis[f0]? = some true

theorem rounds_eq (hf : Facts m s) (hb : Bordered m s f0) (ht : NoTwin m s f0) : ∀ (k : Nat) (q : List Nat) (vis : List Bool) (t : Front),
    Going m s f0 q vis t → q.length + 4 * left vis ≤ k →
    (∀ t1, Inv m s f0 t1 → (∀ t2, rounds m s k q vis t = .ok t2 → Extends t1.place t2.place) → ¬ Long t1.place) →
    ∃ t' vis', rounds m s k q vis t = .ok t' ∧ Going m s f0 [] vis' t'
  | 0, [], vis, t, h, _, _ => ⟨t, vis, by simp only [rounds], h⟩
  | k + 1, [], vis, t, h, _, _ => ⟨t, vis, by simp only [rounds], h⟩
  | 0, _ :: _, _, _, _, hk, _ => by simp at hk
  | k + 1, f :: q, vis, t, h, hk, safe => by
    have hp := h.queue f (by simp)
    have hlt : f < vis.length := by
      rw [h.len]
      obtain ⟨ns, hq, _⟩ := hp
      exact (List.getElem?_eq_some_iff.1 hq.1).1
    simp only [List.length_cons] at hk
    cases hv : vis[f] with
    | true =>
      have hvis : vis[f]? = some true := by rw [List.getElem?_eq_getElem hlt, hv]
      have heq : rounds m s (k + 1) (f :: q) vis t = rounds m s k q vis t := by
        simp only [rounds]; rw [vget_ok hlt, Res.ok_bind, hv]; rfl
      rw [heq] at safe ⊢
      refine rounds_eq hf hb ht k q vis t ⟨h.inv, h.len, fun g hg => h.queue g (List.mem_cons_of_mem _ hg), h.seen, ?_, ?_⟩ (by omega) safe
      · intro g hg e ns g' ns' hn
        rcases h.served g hg e ns g' ns' hn with hh | hh | hh
        · exact Or.inl hh
        · rcases List.mem_cons.1 hh with rfl | hh
          · exact Or.inl hvis
          · exact Or.inr (Or.inl hh)
        · exact Or.inr (Or.inr hh)
      · rcases h.start with hh | hh
        · rcases List.mem_cons.1 hh with rfl | hh
          · exact Or.inr hvis
          · exact Or.inl hh
        · exact Or.inr hh
    | false =>
      have hvis : vis[f]? = some false := by rw [List.getElem?_eq_getElem hlt, hv]
      have heq : rounds m s (k + 1) (f :: q) vis t = (do
          let w ← visit m s f (vis.set f true) q t
          rounds m s k w.1 (vis.set f true) w.2) := by
        simp only [rounds]; rw [vget_ok hlt, Res.ok_bind, hv]; rfl
      have hset : ∀ g, (vis.set f true)[g]? = some true ↔ g = f ∨ vis[g]? = some true := by
        intro g
        rw [List.getElem?_set]
        by_cases hg : f = g
        · subst hg; simp [hlt]
        · rw [if_neg hg]; constructor
          · exact Or.inr
          · rintro (rfl | hh)
            · exact absurd rfl hg
            · exact hh
      obtain ⟨w, a1, a2, a3, ⟨new, a4, a5, a6⟩, a7⟩ := visit_eq hf hb ht h.inv (vis := vis.set f true) (q := q) (by simpa using h.len) hp (by
        intro t1 h1 h2
        refine safe t1 h1 ?_
        intro t2 h3
        rw [heq] at h3
        obtain ⟨w, k1, k2⟩ := Res.bind_eq_ok.1 h3
        have kr := visit_kept hf ⟨h.inv.leni, h.inv.lenj⟩ k1
        exact (h2 w k1).trans (rounds_kept hf _ _ _ _ _ kr.room k2).ext)
      rw [heq, a1, Res.ok_bind] at safe ⊢
      have hls := left_set hvis
      refine rounds_eq hf hb ht k w.1 (vis.set f true) w.2 ⟨a2, by simpa using h.len, ?_, ?_, ?_, ?_⟩ (by rw [a4, List.length_append]; omega) safe
      · intro g hg
        rw [a4] at hg
        rcases List.mem_append.1 hg with hg | hg
        · exact (h.queue g (List.mem_cons_of_mem _ hg)).mono a3
        · exact a6 g hg
      · intro g hg
        rcases (hset g).1 hg with rfl | hg
        · exact hp.mono a3
        · exact (h.seen g hg).mono a3
      · intro g hg e ns g' ns' hn
        rcases (hset g).1 hg with rfl | hg
        · exact a7 e ns g' ns' hn
        · rcases h.served g hg e ns g' ns' hn with hh | hh | hh
          · exact Or.inl ((hset g').2 (Or.inr hh))
          · rcases List.mem_cons.1 hh with rfl | hh
            · exact Or.inl ((hset g').2 (Or.inl rfl))
            · exact Or.inr (Or.inl (by rw [a4]; exact List.mem_append_left _ hh))
          · exact Or.inr (Or.inr (hh.mono a3))
      · rcases h.start with hh | hh
        · rcases List.mem_cons.1 hh with rfl | hh
          · exact Or.inr ((hset _).2 (Or.inl rfl))
          · exact Or.inl (by rw [a4]; exact List.mem_append_left _ hh)
        · exact Or.inr ((hset f0).2 (Or.inr hh))

end Verif.ToCurvi
