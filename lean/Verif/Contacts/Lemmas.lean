import Verif.Contacts.Model
import Mathlib.Tactic.Linarith
/-!
# Lemmas about the contact computations
-/
namespace Verif.Contacts

/-- The vectors that hold a list of pairs. -/
def Lists.of (l : List (Nat × Nat)) : Lists := ⟨l.map Prod.fst, l.map Prod.snd⟩

/-- The contacts: the two vectors read side by side. -/
def Lists.contacts (c : Lists) : List (Nat × Nat) := c.mesh1.zip c.mesh2

theorem contacts_of (l : List (Nat × Nat)) : (Lists.of l).contacts = l := by
  induction l with
  | nil => rfl
  | cons a l ih => simp only [Lists.of, Lists.contacts, List.map_cons, List.zip_cons_cons] at *; rw [ih]

theorem of_length (l : List (Nat × Nat)) : (Lists.of l).mesh1.length = (Lists.of l).mesh2.length := by
  simp [Lists.of]

theorem of_push (l : List (Nat × Nat)) (n f : Nat) : (Lists.of l).push n f = Lists.of (l ++ [(n, f)]) := by
  simp [Lists.of, Lists.push]

theorem of_nil : (⟨[], []⟩ : Lists) = Lists.of [] := rfl

theorem checks_ok {M : Meshes} {mask : List Bool} (h : checks M mask = .ok ()) :
    mask.length = M.numNodes1 ∧ 0 < M.numNodes1 := by
  unfold checks at h
  split at h; · cases h
  split at h; · cases h
  split at h; · cases h
  omega

theorem checks_not_ub (M : Meshes) (mask : List Bool) : checks M mask ≠ .ub := by
  unfold checks
  repeat' split
  all_goals simp

theorem maskedOut_ok {mask : List Bool} {n : Nat} {b : Bool} (hm : mask ≠ []) (h : maskedOut mask n = .ok b) :
    mask[n]? = some (!b) := by
  unfold maskedOut at h
  rw [if_neg (by simpa using hm)] at h
  obtain ⟨a, ha, h⟩ := Res.bind_eq_ok.1 h
  rw [vget_eq_ok.1 ha, ← Res.ok.inj h]
  simp

theorem maskedOut_lt {mask : List Bool} {n : Nat} (h : n < mask.length) :
    maskedOut mask n = .ok (!mask[n]) := by
  unfold maskedOut
  split
  · rename_i he
    simp only [List.isEmpty_iff] at he
    subst he
    simp at h
  · simp [vget_ok h]

theorem nodeCheck_ok {N n : Nat} {u : Unit} (h : nodeCheck N n = .ok u) : n < N := by
  unfold nodeCheck at h
  split at h
  · cases h
  · omega

theorem nodeCheck_lt {N n : Nat} (h : n < N) : nodeCheck N n = .ok () := by
  unfold nodeCheck
  rw [if_neg (by omega)]

theorem faceRead_lt {M : Meshes} {f : Nat} (h : f < M.numFaces) : faceRead M f = .ok () := by
  unfold faceRead
  rw [if_pos h]

/-! ## Single -/

theorem intersectsMesh1_false {M : Meshes} {G : SingleGeo} {node face : Nat} {es : List (Nat × Nat)}
    (h : intersectsMesh1 M G node face es = .ok false) : ∀ e ∈ es, G.crossesEdge node face e.1 e.2 = false := by
  induction es with
  | nil => simp
  | cons e es ih =>
    simp only [intersectsMesh1] at h
    obtain ⟨_, _, h⟩ := Res.bind_eq_ok.1 h
    obtain ⟨_, _, h⟩ := Res.bind_eq_ok.1 h
    obtain ⟨_, _, h⟩ := Res.bind_eq_ok.1 h
    obtain ⟨_, _, h⟩ := Res.bind_eq_ok.1 h
    split at h
    · simp at h
    · rename_i hc
      intro x hx
      rcases List.mem_cons.1 hx with rfl | hx
      · simpa using hc
      · exact ih h x hx

theorem intersectsContact_false {M : Meshes} {G : SingleGeo} {node face : Nat} {l : List (Nat × Nat)} {fuel i : Nat}
    (hl : i + fuel = l.length) (h : intersectsContact M G node face (Lists.of l) fuel i = .ok false) :
    ∀ p ∈ l.drop i, G.crossesContact node face p.1 p.2 = false := by
  induction fuel generalizing i with
  | zero =>
    have : l.drop i = [] := by simp; omega
    simp [this]
  | succ k ih =>
    simp only [intersectsContact] at h
    obtain ⟨_, _, h⟩ := Res.bind_eq_ok.1 h
    obtain ⟨_, _, h⟩ := Res.bind_eq_ok.1 h
    obtain ⟨n, hn, h⟩ := Res.bind_eq_ok.1 h
    obtain ⟨_, _, h⟩ := Res.bind_eq_ok.1 h
    obtain ⟨f, hf, h⟩ := Res.bind_eq_ok.1 h
    obtain ⟨_, _, h⟩ := Res.bind_eq_ok.1 h
    have hi : i < l.length := by omega
    have hn' := vget_eq_ok.1 hn
    have hf' := vget_eq_ok.1 hf
    simp only [Lists.of, List.getElem?_map, List.getElem?_eq_getElem hi, Option.map_some, Option.some.injEq] at hn' hf'
    split at h
    · simp at h
    · rename_i hc
      rw [List.drop_eq_getElem_cons hi]
      intro p hp
      rcases List.mem_cons.1 hp with rfl | hp
      · rw [hn', hf']; simpa using hc
      · exact ih (by omega) h p hp

theorem connectCrossing_ok {M : Meshes} {G : SingleGeo} {node : Nat} {right : Bool} {l : List (Nat × Nat)} {c : Lists}
    (h : connectCrossing M G node right (Lists.of l) = .ok c) :
    c = Lists.of l ∨ c = Lists.of (l ++ [(node, (G.hit node right).1)]) ∧ (G.hit node right).1 ≠ missing ∧
      (∀ e ∈ M.edges1, G.crossesEdge node (G.hit node right).1 e.1 e.2 = false) ∧
      ∀ p ∈ l, G.crossesContact node (G.hit node right).1 p.1 p.2 = false := by
  unfold connectCrossing at h
  split at h; · cases h
  simp only [] at h
  split at h
  · rename_i hh
    obtain ⟨b1, hb1, h⟩ := Res.bind_eq_ok.1 h
    split at h
    · exact Or.inl (Res.ok.inj h).symm
    · rename_i hn
      obtain rfl : b1 = false := by simpa using hn
      obtain ⟨b2, hb2, h⟩ := Res.bind_eq_ok.1 h
      split at h
      · exact Or.inl (Res.ok.inj h).symm
      · rename_i hn2
        obtain rfl : b2 = false := by simpa using hn2
        right
        rw [of_push] at h
        refine ⟨(Res.ok.inj h).symm, hh.1, intersectsMesh1_false hb1, ?_⟩
        have := intersectsContact_false (i := 0) (l := l) (by simp [Lists.of]) hb2
        simpa using this
  · exact Or.inl (Res.ok.inj h).symm

theorem intersectsMesh1_true {M : Meshes} {G : SingleGeo} {node face : Nat} {es : List (Nat × Nat)}
    (h : intersectsMesh1 M G node face es = .ok true) : ∃ e ∈ es, G.crossesEdge node face e.1 e.2 = true := by
  induction es with
  | nil => simp [intersectsMesh1] at h
  | cons e es ih =>
    simp only [intersectsMesh1] at h
    obtain ⟨_, _, h⟩ := Res.bind_eq_ok.1 h
    obtain ⟨_, _, h⟩ := Res.bind_eq_ok.1 h
    obtain ⟨_, _, h⟩ := Res.bind_eq_ok.1 h
    obtain ⟨_, _, h⟩ := Res.bind_eq_ok.1 h
    split at h
    · rename_i hc
      exact ⟨e, List.mem_cons_self, hc⟩
    · obtain ⟨x, hx, hc⟩ := ih h
      exact ⟨x, List.mem_cons_of_mem _ hx, hc⟩

theorem intersectsContact_true {M : Meshes} {G : SingleGeo} {node face : Nat} {l : List (Nat × Nat)} {fuel i : Nat}
    (hl : i + fuel = l.length) (h : intersectsContact M G node face (Lists.of l) fuel i = .ok true) :
    ∃ p ∈ l, G.crossesContact node face p.1 p.2 = true := by
  induction fuel generalizing i with
  | zero => simp [intersectsContact] at h
  | succ k ih =>
    simp only [intersectsContact] at h
    obtain ⟨_, _, h⟩ := Res.bind_eq_ok.1 h
    obtain ⟨_, _, h⟩ := Res.bind_eq_ok.1 h
    obtain ⟨n, hn, h⟩ := Res.bind_eq_ok.1 h
    obtain ⟨_, _, h⟩ := Res.bind_eq_ok.1 h
    obtain ⟨f, hf, h⟩ := Res.bind_eq_ok.1 h
    obtain ⟨_, _, h⟩ := Res.bind_eq_ok.1 h
    have hi : i < l.length := by omega
    have hn' := vget_eq_ok.1 hn
    have hf' := vget_eq_ok.1 hf
    simp only [Lists.of, List.getElem?_map, List.getElem?_eq_getElem hi, Option.map_some, Option.some.injEq] at hn' hf'
    split at h
    · rename_i hc
      exact ⟨l[i], List.getElem_mem hi, by rw [hn', hf']; exact hc⟩
    · exact ih (by omega) h

/-- A side that finds a face gives a contact, unless that would cross a 1D edge or an earlier contact. -/
def Tried (M : Meshes) (G : SingleGeo) (node : Nat) (right : Bool) (l : List (Nat × Nat)) : Prop :=
  (G.hit node right).1 ≠ missing → (G.hit node right).2 ≠ missing →
    (node, (G.hit node right).1) ∈ l ∨ (∃ e ∈ M.edges1, G.crossesEdge node (G.hit node right).1 e.1 e.2 = true) ∨
      ∃ p ∈ l, G.crossesContact node (G.hit node right).1 p.1 p.2 = true

theorem Tried.mono {M : Meshes} {G : SingleGeo} {node : Nat} {right : Bool} {l l' : List (Nat × Nat)}
    (h : Tried M G node right l) (hs : ∀ p ∈ l, p ∈ l') : Tried M G node right l' := by
  intro h1 h2
  rcases h h1 h2 with h | h | ⟨p, hp, h⟩
  · exact Or.inl (hs _ h)
  · exact Or.inr (Or.inl h)
  · exact Or.inr (Or.inr ⟨p, hs _ hp, h⟩)

theorem connectCrossing_tried {M : Meshes} {G : SingleGeo} {node : Nat} {right : Bool} {l : List (Nat × Nat)} {c : Lists}
    (h : connectCrossing M G node right (Lists.of l) = .ok c) :
    ∃ l', c = Lists.of l' ∧ (∀ p ∈ l, p ∈ l') ∧ Tried M G node right l' := by
  unfold connectCrossing at h
  split at h; · cases h
  simp only [] at h
  split at h
  · obtain ⟨b1, hb1, h⟩ := Res.bind_eq_ok.1 h
    split at h
    · rename_i hb
      rw [hb] at hb1
      exact ⟨l, (Res.ok.inj h).symm, fun _ h => h, fun _ _ => Or.inr (Or.inl (intersectsMesh1_true hb1))⟩
    · obtain ⟨b2, hb2, h⟩ := Res.bind_eq_ok.1 h
      split at h
      · rename_i hb
        rw [hb] at hb2
        exact ⟨l, (Res.ok.inj h).symm, fun _ h => h, fun _ _ =>
          Or.inr (Or.inr (intersectsContact_true (i := 0) (by simp [Lists.of]) hb2))⟩
      · rw [of_push] at h
        exact ⟨_, (Res.ok.inj h).symm, fun p hp => by simp [hp], fun _ _ => Or.inl (by simp)⟩
  · rename_i hh
    exact ⟨l, (Res.ok.inj h).symm, fun _ h => h, fun h1 h2 => absurd ⟨h1, h2⟩ hh⟩

theorem singleStep_tried {M : Meshes} {G : SingleGeo} {mask : List Bool} (hm : mask ≠ []) {l : List (Nat × Nat)} {n : Nat}
    {c : Lists} (h : singleStep M G mask (Lists.of l) n = .ok c) :
    ∃ l', c = Lists.of l' ∧ (∀ p ∈ l, p ∈ l') ∧
      (G.inPolygon n = true → mask[n]? = some true → G.faceOf n = missing → ∀ right, Tried M G n right l') := by
  unfold singleStep at h
  split at h
  · rename_i hin
    exact ⟨l, (Res.ok.inj h).symm, fun _ h => h, fun h1 => by simp [h1] at hin⟩
  · obtain ⟨out, ho, h⟩ := Res.bind_eq_ok.1 h
    have ho' := maskedOut_ok hm ho
    split at h
    · rename_i hout
      refine ⟨l, (Res.ok.inj h).symm, fun _ h => h, fun _ h2 => ?_⟩
      rw [ho', hout] at h2
      simp at h2
    · split at h
      · rename_i hf
        rw [of_push] at h
        exact ⟨_, (Res.ok.inj h).symm, fun p hp => by simp [hp], fun _ _ h3 => absurd h3 hf⟩
      · obtain ⟨c1, hc1, h⟩ := Res.bind_eq_ok.1 h
        obtain ⟨l1, rfl, s1, t1⟩ := connectCrossing_tried hc1
        obtain ⟨l2, rfl, s2, t2⟩ := connectCrossing_tried h
        refine ⟨l2, rfl, fun p hp => s2 p (s1 p hp), fun _ _ _ right => ?_⟩
        cases right
        · exact t2
        · exact t1.mono s2

theorem singleLoop_tried {M : Meshes} {G : SingleGeo} {mask : List Bool} (hm : mask ≠ []) {ns : List Nat}
    {l : List (Nat × Nat)} {c : Lists} (h : loop (singleStep M G mask) ns (Lists.of l) = .ok c) :
    ∃ l', c = Lists.of l' ∧ (∀ p ∈ l, p ∈ l') ∧ ∀ n ∈ ns,
      G.inPolygon n = true → mask[n]? = some true → G.faceOf n = missing → ∀ right, Tried M G n right l' := by
  induction ns generalizing l with
  | nil => exact ⟨l, (Res.ok.inj h).symm, fun _ h => h, by simp⟩
  | cons n ns ih =>
    simp only [loop] at h
    obtain ⟨c1, hc1, h⟩ := Res.bind_eq_ok.1 h
    obtain ⟨l1, rfl, s1, t1⟩ := singleStep_tried hm hc1
    obtain ⟨l2, rfl, s2, t2⟩ := ih h
    refine ⟨l2, rfl, fun p hp => s2 p (s1 p hp), ?_⟩
    intro k hk h1 h2 h3 right
    rcases List.mem_cons.1 hk with rfl | hk
    · exact (t1 h1 h2 h3 right).mono s2
    · exact t2 k hk h1 h2 h3 right

/-- Where a contact of the single method comes from. -/
structure SingleReason (M : Meshes) (G : SingleGeo) (mask : List Bool) (p : Nat × Nat) : Prop where
  inPolygon : G.inPolygon p.1 = true
  unmasked : mask[p.1]? = some true
  face : (p.2 = G.faceOf p.1 ∧ G.faceOf p.1 ≠ missing) ∨
    (G.faceOf p.1 = missing ∧ p.2 ≠ missing ∧ (∃ right, p.2 = (G.hit p.1 right).1) ∧
      ∀ e ∈ M.edges1, G.crossesEdge p.1 p.2 e.1 e.2 = false)

/-- `q` is stored after `p`: it does not cross it, unless it joins a node with the face that contains the node. -/
def NotCrossing (G : SingleGeo) (p q : Nat × Nat) : Prop :=
  G.faceOf q.1 = missing → G.crossesContact q.1 q.2 p.1 p.2 = false

theorem pairwise_snoc {G : SingleGeo} {l : List (Nat × Nat)} {q : Nat × Nat}
    (h : l.Pairwise (NotCrossing G)) (hq : ∀ p ∈ l, NotCrossing G p q) : (l ++ [q]).Pairwise (NotCrossing G) := by
  rw [List.pairwise_append]
  exact ⟨h, List.pairwise_singleton _ _, fun a ha b hb => by
    rw [List.mem_singleton.1 hb]; exact hq a ha⟩

theorem singleStep_ok {M : Meshes} {G : SingleGeo} {mask : List Bool} (hm : mask ≠ []) {l : List (Nat × Nat)} {n : Nat}
    {c : Lists} (hp : l.Pairwise (NotCrossing G)) (h : singleStep M G mask (Lists.of l) n = .ok c) :
    ∃ l', c = Lists.of (l ++ l') ∧ (∀ p ∈ l', p.1 = n ∧ SingleReason M G mask p) ∧ l'.length ≤ 2 ∧
      (G.inPolygon n = true → mask[n]? = some true → G.faceOf n ≠ missing → l' = [(n, G.faceOf n)]) ∧
      (l ++ l').Pairwise (NotCrossing G) := by
  unfold singleStep at h
  split at h
  · rename_i hin
    refine ⟨[], by rw [List.append_nil, Res.ok.inj h], by simp, by simp, fun h1 => ?_, by simpa using hp⟩
    simp [h1] at hin
  · rename_i hin
    have hin' : G.inPolygon n = true := by simpa using hin
    obtain ⟨out, ho, h⟩ := Res.bind_eq_ok.1 h
    have ho' := maskedOut_ok hm ho
    split at h
    · rename_i hout
      subst hout
      refine ⟨[], by rw [List.append_nil, Res.ok.inj h], by simp, by simp, fun _ h2 => ?_, by simpa using hp⟩
      rw [ho'] at h2
      simp at h2
    · rename_i hout
      have hmask : mask[n]? = some true := by rw [ho']; simpa using hout
      split at h
      · rename_i hf
        rw [of_push] at h
        refine ⟨[(n, G.faceOf n)], (Res.ok.inj h).symm, ?_, by simp, fun _ _ _ => rfl, ?_⟩
        · intro p hpm
          rw [List.mem_singleton.1 hpm]
          exact ⟨rfl, hin', hmask, Or.inl ⟨rfl, hf⟩⟩
        · exact pairwise_snoc hp (fun p _ hmis => absurd hmis hf)
      · rename_i hf
        have hf' : G.faceOf n = missing := by simpa using hf
        obtain ⟨c1, hc1, h⟩ := Res.bind_eq_ok.1 h
        have reason : ∀ right, (G.hit n right).1 ≠ missing →
            (∀ e ∈ M.edges1, G.crossesEdge n (G.hit n right).1 e.1 e.2 = false) →
            SingleReason M G mask (n, (G.hit n right).1) := fun right h1 h2 =>
          ⟨hin', hmask, Or.inr ⟨hf', h1, ⟨right, rfl⟩, h2⟩⟩
        rcases connectCrossing_ok hc1 with rfl | ⟨rfl, a1, a2, a3⟩
        · rcases connectCrossing_ok h with rfl | ⟨rfl, b1, b2, b3⟩
          · exact ⟨[], by simp, by simp, by simp, fun _ _ h3 => absurd hf' h3, by simpa using hp⟩
          · refine ⟨[(n, (G.hit n false).1)], rfl, ?_, by simp, fun _ _ h3 => absurd hf' h3,
              pairwise_snoc hp (fun p hpm _ => b3 p hpm)⟩
            intro p hpm
            rw [List.mem_singleton.1 hpm]
            exact ⟨rfl, reason _ b1 b2⟩
        · have hp1 := pairwise_snoc (q := (n, (G.hit n true).1)) hp (fun p hpm _ => a3 p hpm)
          rcases connectCrossing_ok h with rfl | ⟨rfl, b1, b2, b3⟩
          · refine ⟨[(n, (G.hit n true).1)], rfl, ?_, by simp, fun _ _ h3 => absurd hf' h3, hp1⟩
            intro p hpm
            rw [List.mem_singleton.1 hpm]
            exact ⟨rfl, reason _ a1 a2⟩
          · refine ⟨[(n, (G.hit n true).1), (n, (G.hit n false).1)], by simp, ?_, by simp,
              fun _ _ h3 => absurd hf' h3, ?_⟩
            · intro p hpm
              rcases List.mem_cons.1 hpm with rfl | hpm
              · exact ⟨rfl, reason _ a1 a2⟩
              · rw [List.mem_singleton.1 hpm]
                exact ⟨rfl, reason _ b1 b2⟩
            · have := pairwise_snoc (q := (n, (G.hit n false).1)) hp1 (fun p hpm _ => b3 p hpm)
              simpa using this

theorem singleLoop_ok {M : Meshes} {G : SingleGeo} {mask : List Bool} (hm : mask ≠ []) {ns : List Nat}
    (hnd : ns.Nodup) {l : List (Nat × Nat)} {c : Lists} (hp : l.Pairwise (NotCrossing G))
    (h : loop (singleStep M G mask) ns (Lists.of l) = .ok c) :
    ∃ l', c = Lists.of (l ++ l') ∧ (∀ p ∈ l', p.1 ∈ ns ∧ SingleReason M G mask p) ∧
      (∀ n ∈ ns, (l'.filter (fun p => p.1 == n)).length ≤ 2) ∧
      (∀ n ∈ ns, G.inPolygon n = true → mask[n]? = some true → G.faceOf n ≠ missing →
        l'.filter (fun p => p.1 == n) = [(n, G.faceOf n)]) ∧
      (l ++ l').Pairwise (NotCrossing G) := by
  induction ns generalizing l with
  | nil =>
    simp only [loop] at h
    exact ⟨[], by rw [← Res.ok.inj h]; simp, by simp, by simp, by simp, by simpa using hp⟩
  | cons n ns ih =>
    simp only [loop] at h
    obtain ⟨c1, hc1, h⟩ := Res.bind_eq_ok.1 h
    obtain ⟨l1, rfl, hl1, hlen, hex, hp1⟩ := singleStep_ok hm hp hc1
    obtain ⟨hnn, hnd'⟩ := List.nodup_cons.1 hnd
    obtain ⟨l2, rfl, hl2, hlen2, hex2, hp2⟩ := ih hnd' hp1 h
    have f1 : l2.filter (fun p => p.1 == n) = [] := by
      rw [List.filter_eq_nil_iff]
      intro p hpm hpn
      have := (hl2 p hpm).1
      rw [beq_iff_eq.1 hpn] at this
      exact hnn this
    have f2 : ∀ k ∈ ns, l1.filter (fun p => p.1 == k) = [] := by
      intro k hk
      rw [List.filter_eq_nil_iff]
      intro p hpm hpn
      have h1 := (hl1 p hpm).1
      rw [beq_iff_eq.1 hpn] at h1
      subst h1
      exact hnn hk
    have f3 : l1.filter (fun p => p.1 == n) = l1 := by
      rw [List.filter_eq_self]
      intro p hpm
      simp [(hl1 p hpm).1]
    refine ⟨l1 ++ l2, by rw [List.append_assoc], ?_, ?_, ?_, by rwa [← List.append_assoc]⟩
    · intro p hpm
      rcases List.mem_append.1 hpm with hpm | hpm
      · exact ⟨by rw [(hl1 p hpm).1]; exact List.mem_cons_self, (hl1 p hpm).2⟩
      · exact ⟨List.mem_cons_of_mem _ (hl2 p hpm).1, (hl2 p hpm).2⟩
    · intro k hk
      rw [List.filter_append]
      rcases List.mem_cons.1 hk with rfl | hk
      · rw [f1, f3]; simpa using hlen
      · rw [f2 k hk]; simpa using hlen2 k hk
    · intro k hk h1 h2 h3
      rw [List.filter_append]
      rcases List.mem_cons.1 hk with rfl | hk
      · rw [f1, f3, hex h1 h2 h3]; rfl
      · rw [f2 k hk, hex2 k hk h1 h2 h3]; rfl

/-! ### No undefined behaviour -/

theorem bind_ne_ub {α β : Type} {r : Res α} {f : α → Res β} (h1 : r ≠ .ub) (h2 : ∀ a, r = .ok a → f a ≠ .ub) :
    (r >>= f) ≠ .ub := by
  cases r with
  | ok a => exact h2 a rfl
  | throw => simp
  | ub => exact absurd rfl h1

theorem nodeCheck_ne_ub (N n : Nat) : nodeCheck N n ≠ .ub := by
  unfold nodeCheck; split <;> simp

theorem faceRead_ne_ub {M : Meshes} {f : Nat} (h : f < M.numFaces) : faceRead M f ≠ .ub := by
  rw [faceRead_lt h]; simp

theorem vget_ne_ub {α : Type} {l : List α} {i : Nat} (h : i < l.length) : vget l i ≠ .ub := by
  rw [vget_ok h]; simp

theorem maskedOut_ne_ub {mask : List Bool} {n : Nat} (h : n < mask.length) : maskedOut mask n ≠ .ub := by
  rw [maskedOut_lt h]; simp

theorem intersectsMesh1_ne_ub {M : Meshes} {G : SingleGeo} {node face : Nat} (hf : face < M.numFaces)
    (es : List (Nat × Nat)) : intersectsMesh1 M G node face es ≠ .ub := by
  induction es with
  | nil => simp [intersectsMesh1]
  | cons e es ih =>
    simp only [intersectsMesh1]
    refine bind_ne_ub (nodeCheck_ne_ub _ _) fun _ _ => bind_ne_ub (faceRead_ne_ub hf) fun _ _ =>
      bind_ne_ub (nodeCheck_ne_ub _ _) fun _ _ => bind_ne_ub (nodeCheck_ne_ub _ _) fun _ _ => ?_
    split
    · simp
    · exact ih

theorem intersectsContact_ne_ub {M : Meshes} {G : SingleGeo} {node face : Nat} (hf : face < M.numFaces)
    {l : List (Nat × Nat)} (hl : ∀ p ∈ l, p.2 < M.numFaces) (fuel i : Nat) (hi : i + fuel = l.length) :
    intersectsContact M G node face (Lists.of l) fuel i ≠ .ub := by
  induction fuel generalizing i with
  | zero => simp [intersectsContact]
  | succ k ih =>
    simp only [intersectsContact]
    have hi' : i < l.length := by omega
    refine bind_ne_ub (nodeCheck_ne_ub _ _) fun _ _ => bind_ne_ub (faceRead_ne_ub hf) fun _ _ =>
      bind_ne_ub (vget_ne_ub (by simpa [Lists.of] using hi')) fun _ _ => bind_ne_ub (nodeCheck_ne_ub _ _) fun _ _ =>
      bind_ne_ub (vget_ne_ub (by simpa [Lists.of] using hi')) fun f hf' => bind_ne_ub ?_ fun _ _ => ?_
    · have := vget_eq_ok.1 hf'
      simp only [Lists.of, List.getElem?_map, List.getElem?_eq_getElem hi', Option.map_some, Option.some.injEq] at this
      exact faceRead_ne_ub (this ▸ hl _ (List.getElem_mem hi'))
    · split
      · simp
      · exact ih _ (by omega)

theorem connectCrossing_ne_ub {M : Meshes} {G : SingleGeo} {node : Nat} {right : Bool} {l : List (Nat × Nat)}
    (hh : (G.hit node right).1 = missing ∨ (G.hit node right).1 < M.numFaces) (hl : ∀ p ∈ l, p.2 < M.numFaces) :
    connectCrossing M G node right (Lists.of l) ≠ .ub := by
  unfold connectCrossing
  split; · simp
  simp only []
  split
  · rename_i h
    have hf : (G.hit node right).1 < M.numFaces := hh.resolve_left h.1
    refine bind_ne_ub (intersectsMesh1_ne_ub hf _) fun b1 _ => ?_
    split
    · simp
    · refine bind_ne_ub (intersectsContact_ne_ub hf hl _ _ (by simp [Lists.of])) fun b2 _ => ?_
      split <;> simp
  · simp

end Verif.Contacts
