import Verif.Refine.Lemmas
/-!
# Lemmas: the masks of edges and faces
-/
namespace Verif.Refine
open Verif.Mesh Verif.Faces Verif.Circular
variable {P : Type}

theorem vset_get {α : Type} {l l' : List α} {i j : Nat} {a : α} (h : vset l i a = .ok l') : l'[j]? = if j = i then some a else l[j]? := by
  obtain ⟨h1, rfl⟩ := vset_eq_ok.1 h
  by_cases hj : j = i
  · subst hj; rw [if_pos rfl, List.getElem?_set_self h1]
  · rw [if_neg hj, List.getElem?_set_ne (Ne.symm hj)]

theorem vset_len {α : Type} {l l' : List α} {i : Nat} {a : α} (h : vset l i a = .ok l') : l'.length = l.length := by
  obtain ⟨h1, rfl⟩ := vset_eq_ok.1 h
  simp

/-! ## Brother edges -/

theorem brothers_sound {middle : Option P → Option P → Option P → Bool} {m : Mesh P} {s : State} {bro : List Nat}
    (h : findBrotherEdges middle m s = .ok bro) :
    bro.length = m.edges.length ∧ ∀ (e f : Nat), bro[e]? = some f → f = missing ∨ ∃ n, BrotherAt middle m n e f := by
  refine forRange_of_ok (fun _ b => b.length = m.edges.length ∧ ∀ (e f : Nat), b[e]? = some f → f = missing ∨ ∃ n, BrotherAt middle m n e f)
    (Nat.zero_le _) h ⟨by simp, fun e f hf => ?_⟩ ?_
  · left
    rw [List.getElem?_replicate] at hf
    split at hf
    · exact (Option.some.inj hf).symm
    · cases hf
  · intro n u v _ _ hu hv
    simp only [Res.bind_eq_ok] at hv
    obtain ⟨l, hl, hv⟩ := hv
    rw [vget_eq_ok] at hl
    refine forRange_of_ok (fun _ b => b.length = m.edges.length ∧ ∀ (e f : Nat), b[e]? = some f → f = missing ∨ ∃ n, BrotherAt middle m n e f)
      (Nat.zero_le _) hv hu ?_
    intro j a b _ _ ha hb
    simp only [brotherStep, Res.bind_eq_ok] at hb
    obtain ⟨first, h1, c1, _, ee, _, second, h2, c2, _, p, _, q, _, hb⟩ := hb
    rw [vget_eq_ok] at h1 h2
    split at hb
    · simp only [Res.ok.injEq] at hb; exact hb ▸ ha
    split at hb
    · simp only [Res.ok.injEq] at hb; exact hb ▸ ha
    simp only [joinBrothers, Res.bind_eq_ok] at hb
    obtain ⟨ea, g1, eb, g2, x, g3, y, g4, z, g5, hb⟩ := hb
    rw [vget_eq_ok] at g1 g2 g3 g4 g5
    split at hb
    · rename_i hmid
      simp only [Res.bind_eq_ok] at hb
      obtain ⟨b1, k1, k2⟩ := hb
      refine ⟨by rw [vset_len k2, vset_len k1, ha.1], ?_⟩
      intro e f hef
      rw [vset_get k2] at hef
      split at hef
      · rename_i he
        subst he
        obtain rfl := Option.some.inj hef
        right
        exact ⟨n, l, hl, List.mem_of_getElem? h2, List.mem_of_getElem? h1, eb, ea, y, x, z, g2, g1, g4, g3, g5, Or.inr hmid⟩
      · rw [vset_get k1] at hef
        split at hef
        · rename_i he
          subst he
          obtain rfl := Option.some.inj hef
          right
          exact ⟨n, l, hl, List.mem_of_getElem? h1, List.mem_of_getElem? h2, ea, eb, x, y, z, g1, g2, g3, g4, g5, Or.inl hmid⟩
        · exact ha.2 e f hef
    · simp only [Res.ok.injEq] at hb; exact hb ▸ ha

/-! ## Marks from the sizes -/

/-- A side of a face that is not short. -/
def LongSide (below : List Bool) (s : State) (f e : Nat) : Prop := (∃ es, s.facesEdges[f]? = some es ∧ e ∈ es) ∧ below[e]? = some false

structure SizeInv (below : List Bool) (s : State) (nE : Nat) (D : Nat → Nat → Prop) (r : List Int × List Int) : Prop where
  lenE : r.1.length = nE
  lenF : r.2.length = s.facesEdges.length
  edgeS : ∀ e k, r.1[e]? = some k → k = 0 ∨ (k = -1 ∧ ∃ f, LongSide below s f e)
  faceS : ∀ f k, r.2[f]? = some k → k = 0 ∨ (k = 1 ∧ ∃ e, LongSide below s f e)
  edgeC : ∀ f e, D f e → LongSide below s f e → r.1[e]? = some (-1) ∧ r.2[f]? = some 1

theorem sizeMask_inv {below : List Bool} {s : State} {nE : Nat} {r : List Int × List Int} (h : sizeMask below s nE = .ok r) :
    SizeInv below s nE (fun f _ => f < s.facesEdges.length) r := by
  refine forRange_of_ok (fun j r => SizeInv below s nE (fun f _ => f < j) r) (Nat.zero_le _) h ?_ ?_
  · refine ⟨by simp, by simp, ?_, ?_, fun f e hf => absurd hf (Nat.not_lt_zero _)⟩
    · intro e k hk
      rw [List.getElem?_replicate] at hk
      split at hk
      · exact Or.inl (Option.some.inj hk).symm
      · cases hk
    · intro e k hk
      rw [List.getElem?_replicate] at hk
      split at hk
      · exact Or.inl (Option.some.inj hk).symm
      · cases hk
  · intro f u v _ hf hu hv
    simp only [Res.bind_eq_ok] at hv
    obtain ⟨es, hes, hv⟩ := hv
    rw [vget_eq_ok] at hes
    have := forRange_of_ok (fun i r => SizeInv below s nE (fun g e => g < f ∨ (g = f ∧ ∃ i' : Nat, i' < i ∧ es[i']? = some e)) r) (Nat.zero_le _) hv
      ⟨hu.lenE, hu.lenF, hu.edgeS, hu.faceS, fun g e hd hl => hd.elim (fun hd => hu.edgeC g e hd hl)
        (fun ⟨_, _, hi', _⟩ => absurd hi' (Nat.not_lt_zero _))⟩ ?_
    · refine { this with edgeC := fun g e hd hl => this.edgeC g e ?_ hl }
      rcases Nat.lt_succ_iff_lt_or_eq.1 hd with hd | rfl
      · exact Or.inl hd
      · right
        obtain ⟨⟨es', he', hm⟩, _⟩ := hl
        rw [hes] at he'
        obtain rfl := Option.some.inj he'
        obtain ⟨i, hi⟩ := List.getElem?_of_mem hm
        exact ⟨rfl, i, (List.getElem?_eq_some_iff.1 hi).1, hi⟩
    · intro i u v _ hi hu hv
      simp only [sizeStep, Res.bind_eq_ok] at hv
      obtain ⟨e, he, b, hb, hv⟩ := hv
      rw [vget_eq_ok] at he hb
      cases b with
      | true =>
        simp only [if_true, Res.ok.injEq] at hv
        subst hv
        refine { hu with edgeC := fun g e' hd hl => hu.edgeC g e' ?_ hl }
        rcases hd with hd | ⟨rfl, i', hi', he'⟩
        · exact Or.inl hd
        · rcases Nat.lt_succ_iff_lt_or_eq.1 hi' with h1 | rfl
          · exact Or.inr ⟨rfl, i', h1, he'⟩
          · rw [he] at he'
            obtain rfl := Option.some.inj he'
            rw [hl.2] at hb
            cases hb
      | false =>
        simp only [Bool.false_eq_true, if_false, Res.bind_eq_ok] at hv
        obtain ⟨em, k1, fm, k2, hv⟩ := hv
        simp only [Res.ok.injEq] at hv
        subst hv
        have long : LongSide below s f e := ⟨⟨es, hes, List.mem_of_getElem? he⟩, hb⟩
        have g1 : ∀ (j : Nat), em[j]? = if j = e then some (-1) else u.1[j]? := fun j => vset_get k1
        have g2 : ∀ (j : Nat), fm[j]? = if j = f then some 1 else u.2[j]? := fun j => vset_get k2
        refine ⟨by rw [vset_len k1, hu.lenE], by rw [vset_len k2, hu.lenF], ?_, ?_, ?_⟩
        · intro j k hk
          rw [g1] at hk
          split at hk
          · rename_i hj
            subst hj
            exact Or.inr ⟨(Option.some.inj hk).symm, f, long⟩
          · exact hu.edgeS j k hk
        · intro j k hk
          rw [g2] at hk
          split at hk
          · rename_i hj
            subst hj
            exact Or.inr ⟨(Option.some.inj hk).symm, e, long⟩
          · exact hu.faceS j k hk
        · intro g e' hd hl
          show em[e']? = _ ∧ fm[g]? = _
          rw [g1, g2]
          by_cases hx : e' = e ∧ g = f
          · rw [if_pos hx.1, if_pos hx.2]; exact ⟨rfl, rfl⟩
          · have hold : (g < f ∨ (g = f ∧ ∃ i' : Nat, i' < i ∧ es[i']? = some e')) := by
              rcases hd with hd | ⟨rfl, i', hi', he'⟩
              · exact Or.inl hd
              · rcases Nat.lt_succ_iff_lt_or_eq.1 hi' with h1 | rfl
                · exact Or.inr ⟨rfl, i', h1, he'⟩
                · rw [he] at he'
                  exact absurd ⟨(Option.some.inj he').symm, rfl⟩ hx
            have := hu.edgeC g e' hold hl
            constructor
            · split
              · rfl
              · exact this.1
            · split
              · rfl
              · exact this.2

/-! ## Faces are deselected by their nodes -/

theorem faceActive_ok {level : Nat} {node : List Int} {ns : List Nat} {b : Bool} (h : faceActive level node ns = .ok b) :
    b = true ↔ Active level node ns := by
  simp only [faceActive] at h
  split at h
  · cases h
  unfold Active
  split at h
  · rename_i h0
    rw [if_pos h0]
    simp only [Res.ok.injEq] at h
    rw [← h]
    simp
  · rename_i h0
    rw [if_neg h0]
    simp only [Res.ok.injEq] at h
    rw [← h]
    simp

theorem maskFaces_ok {level : Nat} {node : List Int} {s : State} {face face' : List Int} (h : maskFaces level node s face = .ok face') :
    face'.length = face.length ∧ ∀ (f : Nat) ns, s.facesNodes[f]? = some ns →
      (Active level node ns → face'[f]? = face[f]?) ∧ (¬ Active level node ns → face'[f]? = some 0) := by
  have := forRange_of_ok (fun k u => (u.length = face.length ∧ (∀ (f : Nat), k ≤ f → u[f]? = face[f]?) ∧ ∀ (f : Nat) ns, f < k → s.facesNodes[f]? = some ns →
    (Active level node ns → u[f]? = face[f]?) ∧ (¬ Active level node ns → u[f]? = some 0))) (Nat.zero_le _) h
    ⟨rfl, fun _ _ => rfl, fun _ _ hf => absurd hf (Nat.not_lt_zero _)⟩ ?_
  · refine ⟨this.1, fun f ns hns => this.2.2 f ns ?_ hns⟩
    exact (List.getElem?_eq_some_iff.1 hns).1
  · rintro k u v _ hk ⟨h1, h2, h3⟩ hv
    simp only [Res.bind_eq_ok] at hv
    obtain ⟨ns, hns, a, ha, hv⟩ := hv
    rw [vget_eq_ok] at hns
    have ha := faceActive_ok ha
    cases a with
    | true =>
      simp only [if_true, Res.ok.injEq] at hv
      subst hv
      refine ⟨h1, fun f hf => h2 f (by omega), fun f ns' hf hns' => ?_⟩
      rcases Nat.lt_succ_iff_lt_or_eq.1 hf with hf | rfl
      · exact h3 f ns' hf hns'
      · rw [hns] at hns'
        obtain rfl := Option.some.inj hns'
        exact ⟨fun _ => h2 _ (Nat.le_refl _), fun hn => absurd (ha.1 rfl) hn⟩
    | false =>
      simp only [Bool.false_eq_true, if_false] at hv
      refine ⟨by rw [vset_len hv, h1], fun f hf => ?_, fun f ns' hf hns' => ?_⟩
      · rw [vset_get hv, if_neg (by omega)]; exact h2 f (by omega)
      · rw [vset_get hv]
        rcases Nat.lt_succ_iff_lt_or_eq.1 hf with hf | rfl
        · rw [if_neg (by omega)]; exact h3 f ns' hf hns'
        · rw [hns] at hns'
          obtain rfl := Option.some.inj hns'
          rw [if_pos rfl]
          exact ⟨fun hact => absurd (ha.2 hact) (by simp), fun _ => rfl⟩

/-! ## Marks of the edges of the faces -/

/-- Marks are only added, at sides of marked faces. -/
structure Adds (face : List Int) (s : State) (a b : List Int) : Prop where
  len : b.length = a.length
  new : ∀ (e : Nat) k, b[e]? = some k → a[e]? = some k ∨ (k = 1 ∧ ∃ (f : Nat) (v : Int), face[f]? = some v ∧ v ≠ 0 ∧ Borders s f e)
  kept : ∀ e : Nat, a[e]? = some 1 → b[e]? = some 1

theorem Adds.refl (face : List Int) (s : State) (a : List Int) : Adds face s a a := ⟨rfl, fun _ _ h => Or.inl h, fun _ h => h⟩

theorem Adds.trans {face : List Int} {s : State} {a b c : List Int} (h1 : Adds face s a b) (h2 : Adds face s b c) : Adds face s a c := by
  refine ⟨h2.len.trans h1.len, fun e k hk => ?_, fun e h => h2.kept e (h1.kept e h)⟩
  rcases h2.new e k hk with h | h
  · exact h1.new e k h
  · exact Or.inr h

theorem Adds.set {face : List Int} {s : State} {a b : List Int} {f e : Nat} {v : Int} (hv : face[f]? = some v) (h0 : v ≠ 0) (hb : Borders s f e)
    (h : vset a e 1 = .ok b) : Adds face s a b := by
  refine ⟨vset_len h, fun i k hk => ?_, fun i hi => ?_⟩
  · rw [vset_get h] at hk
    split at hk
    · rename_i hie
      subst hie
      exact Or.inr ⟨(Option.some.inj hk).symm, f, v, hv, h0, hb⟩
    · exact Or.inl hk
  · rw [vset_get h]
    split
    · rfl
    · exact hi

/-- Side number `i` of the face is not half of an edge with a hanging node. -/
def WholeAt (bro es : List Nat) (i : Nat) : Prop :=
  ∃ e a b x y k, es[i]? = some e ∧ nextBackward i es.length = .ok a ∧ nextForward i es.length = .ok b ∧ es[a]? = some x ∧ es[b]? = some y ∧
    bro[e]? = some k ∧ k ≠ x ∧ k ≠ y

theorem otherFace_ok {face : List Int} {s : State} {bro es : List Nat} {f : Nat} {v : Int} (hes : s.facesEdges[f]? = some es)
    (hv : face[f]? = some v) (h0 : v ≠ 0) {w w' : Sweep} (h : otherFace bro es w = .ok w') :
    Adds face s w.edge w'.edge ∧ w'.again = w.again ∧ ∀ i e, es[i]? = some e → WholeAt bro es i → w'.edge[e]? = some 1 := by
  simp only [otherFace, Res.bind_eq_ok] at h
  obtain ⟨em, h1, h2⟩ := h
  simp only [Res.ok.injEq] at h2
  subst h2
  have := forRange_of_ok (fun k u => Adds face s w.edge u ∧ ∀ (i : Nat) e, i < k → es[i]? = some e → WholeAt bro es i → u[e]? = some 1)
    (Nat.zero_le _) h1 ⟨Adds.refl _ _ _, fun _ _ hi => absurd hi (Nat.not_lt_zero _)⟩ ?_
  · exact ⟨this.1, rfl, fun i e hi hw => this.2 i e (List.getElem?_eq_some_iff.1 hi).1 hi hw⟩
  · rintro k u u' _ hk ⟨i1, i2⟩ hu
    simp only [markAll, Res.bind_eq_ok] at hu
    obtain ⟨edge, he, a, ha, b, hb, x, hx, y, hy, q, hq, hu⟩ := hu
    rw [vget_eq_ok] at he hx hy hq
    split at hu
    · have hadd := Adds.set (s := s) hv h0 ⟨es, hes, List.mem_of_getElem? he⟩ hu
      refine ⟨i1.trans hadd, fun i e hi hie hw => ?_⟩
      rcases Nat.lt_succ_iff_lt_or_eq.1 hi with hi | rfl
      · exact hadd.kept e (i2 i e hi hie hw)
      · rw [he] at hie
        obtain rfl := Option.some.inj hie
        rw [vset_get hu, if_pos rfl]
    · rename_i hcond
      simp only [Res.ok.injEq] at hu
      subst hu
      refine ⟨i1, fun i e hi hie hw => ?_⟩
      rcases Nat.lt_succ_iff_lt_or_eq.1 hi with hi | rfl
      · exact i2 i e hi hie hw
      · exfalso
        obtain ⟨e', a', b', x', y', k', c1, c2, c3, c4, c5, c6, c7, c8⟩ := hw
        rw [he] at c1
        obtain rfl := Option.some.inj c1
        rw [ha] at c2; rw [hb] at c3
        obtain rfl := Res.ok.inj c2
        obtain rfl := Res.ok.inj c3
        rw [hx] at c4; rw [hy] at c5; rw [hq] at c6
        obtain rfl := Option.some.inj c4
        obtain rfl := Option.some.inj c5
        obtain rfl := Option.some.inj c6
        exact hcond ⟨c7, c8⟩

theorem quadFace_adds {face : List Int} {s : State} {bro es : List Nat} {f : Nat} {v : Int} (hes : s.facesEdges[f]? = some es)
    (hv : face[f]? = some v) (h0 : v ≠ 0) {w w' : Sweep} (h : quadFace bro es w = .ok w') : Adds face s w.edge w'.edge := by
  simp only [quadFace, Res.bind_eq_ok] at h
  obtain ⟨q, _, h⟩ := h
  split at h
  · cases h
  simp only [Res.bind_eq_ok] at h
  obtain ⟨em, h1, h2⟩ := h
  simp only [Res.ok.injEq] at h2
  subst h2
  refine forRange_of_ok (fun k u => Adds face s w.edge u) (Nat.zero_le _) h1 (Adds.refl _ _ _) ?_
  intro k u u' _ hk hu hu'
  simp only [markQuad, Res.bind_eq_ok] at hu'
  obtain ⟨edge, he, kk, _, a, _, b, _, x, _, y, _, z, _, hu'⟩ := hu'
  rw [vget_eq_ok] at he
  split at hu'
  · simp only [Res.ok.injEq] at hu'; exact hu' ▸ hu
  split at hu'
  · simp only [Res.ok.injEq] at hu'; exact hu' ▸ hu
  split at hu'
  · exact hu.trans (Adds.set (s := s) hv h0 ⟨es, hes, List.mem_of_getElem? he⟩ hu')
  · simp only [Res.ok.injEq] at hu'; exact hu' ▸ hu

/-- Side number `i` of the face is not half of an edge with a hanging node between it and the next side. -/
def NextWhole (bro es : List Nat) (i : Nat) : Prop :=
  ∀ e b y k, es[i]? = some e → nextForward i es.length = .ok b → es[b]? = some y → bro[e]? = some k → k ≠ y

theorem setIf_ok {α : Type} {c : Bool} {l l' : List α} {i : Nat} {a : α} (h : setIf c l i a = .ok l') : l'.length = l.length := by
  unfold setIf at h
  split at h
  · exact vset_len h
  · rw [← Res.ok.inj h]

theorem numbering {bro es : List Nat} {em : List Int} {q q' : Quad} (h4 : es.length = 4) (hw : ∀ i, i < 4 → NextWhole bro es i) (hn : q.num = 0)
    (h : forRange 0 es.length (numberStep em bro es) q = .ok q') : ∀ i : Nat, i < 4 → q'.numOf[i]? = some i := by
  have := forRange_of_ok (fun k (u : Quad) => u.num = min k 3 ∧ ∀ i : Nat, i < k → u.numOf[i]? = some i) (Nat.zero_le _) h
    ⟨by simpa using hn, fun _ hi => absurd hi (Nat.not_lt_zero _)⟩ ?_
  · intro i hi
    exact this.2 i (by omega)
  · rintro k u v _ hk ⟨h1, h2⟩ hv
    simp only [numberStep, Res.bind_eq_ok] at hv
    obtain ⟨edge, he, no, hno, kk, _, q1, hq1, ee, hee, second, hsec, b, hb, q2, hq2, hv⟩ := hv
    rw [vget_eq_ok] at he hsec hb
    simp only [Res.ok.injEq] at hv
    subst hv
    have hne := hw k (by omega) edge ee second b he hee hsec hb
    constructor
    · show (if k ≠ es.length - 1 ∧ b ≠ second then u.num + 1 else u.num) = _
      rw [h1, h4]
      by_cases hk3 : k = 3
      · subst hk3; simp
      · rw [if_pos ⟨by omega, hne⟩]; omega
    · intro i hi
      show no[i]? = _
      rw [vset_get hno]
      split
      · rename_i hik
        rw [h1, hik]
        congr 1
        omega
      · exact h2 i (by omega)

theorem quadFace_ok {face : List Int} {s : State} {bro es : List Nat} {f : Nat} {v : Int} (hes : s.facesEdges[f]? = some es)
    (hv : face[f]? = some v) (h0 : v ≠ 0) {w w' : Sweep} (h : quadFace bro es w = .ok w') (h4 : es.length = 4)
    (hw : ∀ i, i < 4 → NextWhole bro es i) : ∀ i e : Nat, es[i]? = some e → (w.edge[e]? = some (-1) ∨ w.edge[e]? = some 1) → w'.edge[e]? = some 1 := by
  simp only [quadFace, Res.bind_eq_ok] at h
  obtain ⟨q, hq, h⟩ := h
  have hnum := numbering h4 hw rfl hq
  split at h
  · cases h
  simp only [Res.bind_eq_ok] at h
  obtain ⟨em, h1, h2⟩ := h
  simp only [Res.ok.injEq] at h2
  subst h2
  have := forRange_of_ok (fun k u => Adds face s w.edge u ∧ ∀ i e : Nat, i < k → es[i]? = some e → (w.edge[e]? = some (-1) ∨ w.edge[e]? = some 1) →
    u[e]? = some 1) (Nat.zero_le _) h1 ⟨Adds.refl _ _ _, fun _ _ hi => absurd hi (Nat.not_lt_zero _)⟩ ?_
  · exact fun i e hi hm => this.2 i e (List.getElem?_eq_some_iff.1 hi).1 hi hm
  rintro k u u' _ hk ⟨hu, hold⟩ hu'
  simp only [markQuad, Res.bind_eq_ok] at hu'
  obtain ⟨edge, he, kk, hkk, a, ha, b, hb, x, hx, y, hy, z, hz, hu'⟩ := hu'
  rw [vget_eq_ok] at he hkk hx hy hz
  have hab : a < 4 ∧ a ≠ k ∧ b < 4 ∧ b ≠ k := by
    unfold nextBackward at ha
    unfold nextForward at hb
    rw [if_neg (by omega), if_neg (by omega)] at ha hb
    have h1 := Res.ok.inj ha
    have h2 := Res.ok.inj hb
    rw [h4] at h1 h2
    have h3 : a < 4 ∧ a ≠ k := by rw [← h1]; split <;> omega
    have h5 : b < 4 ∧ b ≠ k := by rw [← h2]; split <;> omega
    exact ⟨h3.1, h3.2, h5.1, h5.2⟩
  rw [hnum k (by omega)] at hx
  rw [hnum a hab.1] at hy
  rw [hnum b hab.2.2.1] at hz
  obtain rfl := Option.some.inj hx
  obtain rfl := Option.some.inj hy
  obtain rfl := Option.some.inj hz
  have hval : ∀ e : Nat, (w.edge[e]? = some (-1) ∨ w.edge[e]? = some 1) → ∀ c, u[e]? = some c → c = -1 ∨ c = 1 := by
    intro e hm c hc
    rcases hu.new e c hc with h | h
    · rcases hm with hm | hm <;> rw [hm] at h <;> have := Option.some.inj h <;> omega
    · exact Or.inr h.1
  split at hu'
  · simp only [Res.ok.injEq] at hu'
    subst hu'
    refine ⟨hu, fun i e hi hie hm => ?_⟩
    rcases Nat.lt_succ_iff_lt_or_eq.1 hi with hi | rfl
    · exact hold i e hi hie hm
    · rw [he] at hie
      obtain rfl := Option.some.inj hie
      rw [hkk]
      rcases hval edge hm kk hkk with h | h
      · omega
      · rw [h]
  split at hu'
  · rename_i hc
    simp only [Res.ok.injEq] at hu'
    subst hu'
    refine ⟨hu, fun i e hi hie hm => ?_⟩
    rcases Nat.lt_succ_iff_lt_or_eq.1 hi with hi | rfl
    · exact hold i e hi hie hm
    · rw [he] at hie
      obtain rfl := Option.some.inj hie
      rcases hval edge hm kk hkk with h | h
      · exact absurd h hc.2
      · rw [hkk, h]
  rw [if_pos ⟨Ne.symm hab.2.1, Ne.symm hab.2.2.2⟩] at hu'
  have hadd := Adds.set (s := s) hv h0 ⟨es, hes, List.mem_of_getElem? he⟩ hu'
  refine ⟨hu.trans hadd, fun i e hi hie hm => ?_⟩
  rcases Nat.lt_succ_iff_lt_or_eq.1 hi with hi | rfl
  · exact hadd.kept e (hold i e hi hie hm)
  · rw [he] at hie
    obtain rfl := Option.some.inj hie
    rw [vset_get hu', if_pos rfl]

/-- The sides of face `f` have got their marks: all of them, when it is not a quadrilateral; else those with -1. -/
def Served (bro : List Nat) (hanging : Nat) (s : State) (a b : List Int) (f : Nat) : Prop :=
  ∀ es, s.facesEdges[f]? = some es →
    (es.length ≠ hanging + 4 → ∀ i e : Nat, es[i]? = some e → WholeAt bro es i → b[e]? = some 1) ∧
    (es.length = 4 → hanging = 0 → (∀ i, i < 4 → NextWhole bro es i) → ∀ i e : Nat, es[i]? = some e → (a[e]? = some (-1) ∨ a[e]? = some 1) → b[e]? = some 1)

theorem edgeMaskStep_ok {face : List Int} {s : State} {bro : List Nat} {hanging f : Nat} {v : Int} {w w' : Sweep}
    (hv : face[f]? = some v) (h : edgeMaskStep bro face hanging s f w = .ok w') :
    Adds face s w.edge w'.edge ∧ (v ≠ 0 → Served bro hanging s w.edge w'.edge f) := by
  simp only [edgeMaskStep, Res.bind_eq_ok] at h
  obtain ⟨k, hk, es, hes, h⟩ := h
  rw [vget_eq_ok] at hk hes
  rw [hv] at hk
  obtain rfl := Option.some.inj hk
  split at h
  · rename_i h0
    simp only [Res.ok.injEq] at h
    subst h
    exact ⟨Adds.refl _ _ _, fun hn => absurd h0 hn⟩
  rename_i h0
  split at h
  · rename_i hq
    refine ⟨quadFace_adds hes hv h0 h, fun _ es' he' => ?_⟩
    rw [hes] at he'
    obtain rfl := Option.some.inj he'
    exact ⟨fun hn => absurd hq hn, fun h4 _ hw => quadFace_ok hes hv h0 h h4 hw⟩
  · rename_i hq
    obtain ⟨a1, a2, a3⟩ := otherFace_ok hes hv h0 h
    refine ⟨a1, fun _ es' he' => ?_⟩
    rw [hes] at he'
    obtain rfl := Option.some.inj he'
    exact ⟨fun _ => a3, fun h4 hh => absurd (by omega) hq⟩

theorem Served.mono {face : List Int} {bro : List Nat} {hanging : Nat} {s : State} {a0 a b c : List Int} {f : Nat} (h : Served bro hanging s a b f)
    (ha : Adds face s a0 a) (hc : Adds face s b c) : Served bro hanging s a0 c f := by
  intro es hes
  obtain ⟨h1, h2⟩ := h es hes
  refine ⟨fun hn i e hi hw => hc.kept e (h1 hn i e hi hw), fun h4 hh hw i e hi hm => hc.kept e (h2 h4 hh hw i e hi ?_)⟩
  rcases hm with hm | hm
  · cases hae : a[e]? with
    | none =>
      have h1 := (List.getElem?_eq_some_iff.1 hm).1
      have h2 := List.getElem?_eq_none_iff.1 hae
      rw [ha.len] at h2
      omega
    | some k =>
      rcases ha.new e k hae with h | h
      · rw [hm] at h; left; rw [h]
      · right; rw [h.1]
  · right; exact ha.kept e hm

theorem sweep_ok {face : List Int} {s : State} {bro : List Nat} {hanging : Nat} {w w' : Sweep} (hl : face.length = s.facesEdges.length)
    (h : forRange 0 s.facesEdges.length (edgeMaskStep bro face hanging s) w = .ok w') :
    Adds face s w.edge w'.edge ∧ ∀ (f : Nat) v, face[f]? = some v → v ≠ 0 → Served bro hanging s w.edge w'.edge f := by
  have := forRange_of_ok (fun k (u : Sweep) => Adds face s w.edge u.edge ∧ ∀ (f : Nat) v, f < k → face[f]? = some v → v ≠ 0 →
    Served bro hanging s w.edge u.edge f) (Nat.zero_le _) h ⟨Adds.refl _ _ _, fun _ _ hf => absurd hf (Nat.not_lt_zero _)⟩ ?_
  · exact ⟨this.1, fun f v hf h0 => this.2 f v (by have := (List.getElem?_eq_some_iff.1 hf).1; omega) hf h0⟩
  rintro k u u' _ hk ⟨h1, h2⟩ hu
  obtain ⟨x, hx⟩ : ∃ x, face[k]? = some x := ⟨_, List.getElem?_eq_getElem (by omega)⟩
  obtain ⟨b1, b2⟩ := edgeMaskStep_ok hx hu
  refine ⟨h1.trans b1, fun f v hf hfv h0 => ?_⟩
  rcases Nat.lt_succ_iff_lt_or_eq.1 hf with hf | rfl
  · exact (h2 f v hf hfv h0).mono (Adds.refl face s _) b1
  · rw [hx] at hfv
    obtain rfl := Option.some.inj hfv
    exact (b2 h0).mono h1 (Adds.refl face s _)

theorem edgeSweeps_adds {face : List Int} {s : State} {bro : List Nat} {hanging : Nat} (hl : face.length = s.facesEdges.length) :
    ∀ {r : Nat} {w w' : Sweep}, edgeSweeps bro face hanging s r w = .ok w' → Adds face s w.edge w'.edge
  | 0, w, w', h => by
    simp only [edgeSweeps, Res.ok.injEq] at h
    exact h ▸ Adds.refl _ _ _
  | r + 1, w, w', h => by
    simp only [edgeSweeps, Res.bind_eq_ok] at h
    obtain ⟨u, h1, h2⟩ := h
    have a := (sweep_ok hl h1).1
    split at h2
    · exact a.trans (edgeSweeps_adds hl h2)
    · simp only [Res.ok.injEq] at h2
      exact h2 ▸ a

theorem edgesRefinementMask_ok {face : List Int} {s : State} {bro : List Nat} {hang : Hang} {em em' : List Int}
    (hl : face.length = s.facesEdges.length) (h : edgesRefinementMask bro face hang s em = .ok em') :
    em'.length = em.length ∧ (∀ (e : Nat) k, em'[e]? = some k → k = 0 ∨ k = 1) ∧
    (∀ e : Nat, em'[e]? = some 1 → em[e]? = some 1 ∨ ∃ (f : Nat) (v : Int), face[f]? = some v ∧ v ≠ 0 ∧ Borders s f e) ∧
    ∀ (f : Nat) v, face[f]? = some v → v ≠ 0 → Served bro (hang.edge.countP id) s em em' f := by
  simp only [edgesRefinementMask, Res.bind_eq_ok] at h
  obtain ⟨w, h1, h2⟩ := h
  split at h2
  · cases h2
  simp only [Res.ok.injEq] at h2
  subst h2
  have a := edgeSweeps_adds hl h1
  have key : ∀ e : Nat, (w.edge.map (fun v => if v = 1 then (1 : Int) else 0))[e]? = some 1 ↔ w.edge[e]? = some 1 := by
    intro e
    rw [List.getElem?_map]
    cases w.edge[e]? with
    | none => simp
    | some k => by_cases hk : k = 1 <;> simp [hk]
  refine ⟨by rw [List.length_map]; exact a.len, ?_, ?_, ?_⟩
  · intro e k hk
    rw [List.getElem?_map] at hk
    obtain ⟨x, _, rfl⟩ := Option.map_eq_some_iff.1 hk
    by_cases hx : x = 1 <;> simp [hx]
  · intro e he
    rw [key] at he
    rcases a.new e 1 he with h | h
    · exact Or.inl h
    · exact Or.inr h.2
  · intro f v hf h0
    simp only [edgeSweeps, Res.bind_eq_ok] at h1
    obtain ⟨u, g1, g2⟩ := h1
    obtain ⟨b1, b2⟩ := sweep_ok hl g1
    have hs := b2 f v hf h0
    have hrest : Adds face s u.edge w.edge := by
      split at g2
      · exact edgeSweeps_adds hl (r := 5) g2
      · simp only [Res.ok.injEq] at g2
        exact g2 ▸ Adds.refl _ _ _
    have hs := hs.mono (Adds.refl face s _) hrest
    intro es hes
    obtain ⟨c1, c2⟩ := hs es hes
    exact ⟨fun hn i e hi hw => (key e).2 (c1 hn i e hi hw), fun h4 hh hw i e hi hm => (key e).2 (c2 h4 hh hw i e hi hm)⟩

/-! ## Faces split because of their neighbours -/

/-- Marks of edges and faces are only added. -/
structure Grows (w w' : Spread) : Prop where
  lenE : w'.edge.length = w.edge.length
  lenF : w'.face.length = w.face.length
  edge : ∀ (e : Nat) k, w.edge[e]? = some k → k ≠ 0 → w'.edge[e]? = some k
  face : ∀ (f : Nat) k, w.face[f]? = some k → k ≠ 0 → ∃ k', w'.face[f]? = some k' ∧ k' ≠ 0
  num : w.num ≤ w'.num
  same : w'.num = w.num → w'.edge = w.edge

theorem Grows.trans {a b c : Spread} (h1 : Grows a b) (h2 : Grows b c) : Grows a c := by
  refine ⟨h2.lenE.trans h1.lenE, h2.lenF.trans h1.lenF, fun e k hk h0 => h2.edge e k (h1.edge e k hk h0) h0, fun f k hk h0 => ?_,
    Nat.le_trans h1.num h2.num, fun h => ?_⟩
  · obtain ⟨k', hk', h0'⟩ := h1.face f k hk h0
    exact h2.face f k' hk' h0'
  · have := h1.num
    have := h2.num
    rw [h2.same (by omega), h1.same (by omega)]

theorem Grows.refl (w : Spread) : Grows w w :=
  ⟨rfl, rfl, fun _ _ h _ => h, fun _ k h h0 => ⟨k, h, h0⟩, Nat.le_refl _, fun _ => rfl⟩

theorem markSides_ok {hang : List Bool} {es : List Nat} {r r' : List Int × Nat} (h : forRange 0 es.length (markSides hang es) r = .ok r') :
    r'.1.length = r.1.length ∧ (∀ (e : Nat) k, r.1[e]? = some k → k ≠ 0 → r'.1[e]? = some k) ∧ r.2 ≤ r'.2 ∧ (r'.2 = r.2 → r'.1 = r.1) ∧
      ∀ i e : Nat, es[i]? = some e → hang[i]? = some false → ∃ k, r'.1[e]? = some k ∧ k ≠ 0 := by
  have := forRange_of_ok (fun j (u : List Int × Nat) => u.1.length = r.1.length ∧ (∀ (e : Nat) k, r.1[e]? = some k → k ≠ 0 → u.1[e]? = some k) ∧ r.2 ≤ u.2 ∧
    (u.2 = r.2 → u.1 = r.1) ∧ ∀ i e : Nat, i < j → es[i]? = some e → hang[i]? = some false → ∃ k, u.1[e]? = some k ∧ k ≠ 0) (Nat.zero_le _) h
    ⟨rfl, fun _ _ h _ => h, Nat.le_refl _, fun _ => rfl, fun _ _ hi => absurd hi (Nat.not_lt_zero _)⟩ ?_
  · obtain ⟨h1, h2, h3, h4, h5⟩ := this
    exact ⟨h1, h2, h3, h4, fun i e hi hh => h5 i e (List.getElem?_eq_some_iff.1 hi).1 hi hh⟩
  rintro j u v _ hj ⟨h1, h2, h3, h4, h5⟩ hv
  simp only [markSides, Res.bind_eq_ok] at hv
  obtain ⟨e, he, b, hb, k, hk, hv⟩ := hv
  rw [vget_eq_ok] at he hb hk
  split at hv
  · rename_i hc
    simp only [Res.bind_eq_ok] at hv
    obtain ⟨em, g1, g2⟩ := hv
    simp only [Res.ok.injEq] at g2
    subst g2
    refine ⟨by rw [vset_len g1, h1], fun e' k' hk' h0 => ?_, by show _ ≤ u.2 + 1; omega, fun hh => ?_, fun i e' hi hie hh => ?_⟩
    · show em[e']? = _
      rw [vset_get g1]
      split
      · rename_i hee
        subst hee
        have := h2 e' k' hk' h0
        rw [hk] at this
        exact absurd (hc.2 ▸ (Option.some.inj this).symm) h0
      · exact h2 e' k' hk' h0
    · have hh : u.2 + 1 = r.2 := hh
      omega
    · show ∃ k, em[e']? = some k ∧ k ≠ 0
      rw [vset_get g1]
      split
      · exact ⟨1, rfl, by decide⟩
      · rename_i hee
        rcases Nat.lt_succ_iff_lt_or_eq.1 hi with hi | rfl
        · exact h5 i e' hi hie hh
        · rw [he] at hie
          exact absurd (Option.some.inj hie).symm hee
  · rename_i hc
    simp only [Res.ok.injEq] at hv
    subst hv
    refine ⟨h1, h2, h3, h4, fun i e' hi hie hh => ?_⟩
    rcases Nat.lt_succ_iff_lt_or_eq.1 hi with hi | rfl
    · exact h5 i e' hi hie hh
    · rw [he] at hie
      obtain rfl := Option.some.inj hie
      rw [hb] at hh
      exact ⟨k, hk, fun h0 => hc ⟨Option.some.inj hh, h0⟩⟩

/-- A face that is not split can take the new nodes at its sides: there are at most six, no side with a hanging node is cut again, and more than one
side remains whole. -/
structure Spared (edges : List Edge) (bro : List Nat) (s : State) (em : List Int) (f : Nat) : Prop where
  small : ∀ es c, s.facesEdges[f]? = some es → countToRefine em es = .ok c → es.length + c ≤ 6
  test : ∀ es c hang, s.facesEdges[f]? = some es → countToRefine em es = .ok c → findHangingNodes edges bro s f = .ok hang →
    tooManySides es.length c (hang.edge.countP id) (hang.node.countP id) = false ∧ hangingRefined em hang.edge es = .ok false

theorem spreadStep_ok {edges : List Edge} {bro : List Nat} {s : State} {f : Nat} {w w' : Spread} (h : spreadStep edges bro s f w = .ok w') :
    Grows w w' ∧ (w'.num = w.num → w'.face[f]? = some 0 → Spared edges bro s w'.edge f) ∧
      ∀ g : Nat, g ≠ f → w'.face[g]? = w.face[g]? := by
  simp only [spreadStep, Res.bind_eq_ok] at h
  obtain ⟨k, hk, h⟩ := h
  rw [vget_eq_ok] at hk
  split at h
  · rename_i hc
    simp only [Res.ok.injEq] at h
    subst h
    exact ⟨Grows.refl _, fun _ h0 => absurd (Option.some.inj (hk.symm.trans h0)) hc.1, fun _ _ => rfl⟩
  simp only [Res.bind_eq_ok] at h
  obtain ⟨es, hes, c, hcc, hang, hh, b, hb, h⟩ := h
  rw [vget_eq_ok] at hes
  split at h
  · simp only [splitFace, Res.bind_eq_ok] at h
    obtain ⟨fm, h1, r, h2, h3⟩ := h
    simp only [Res.ok.injEq] at h3
    subst h3
    obtain ⟨m1, m2, m3, m4, _⟩ := markSides_ok h2
    have hne : (if k ≠ -1 then (2 : Int) else -2) ≠ 0 := by split <;> decide
    refine ⟨⟨m1, vset_len h1, m2, fun g x hx h0 => ?_, m3, m4⟩, fun _ h0 => ?_, fun g hg => ?_⟩
    · show ∃ k', fm[g]? = some k' ∧ k' ≠ 0
      rw [vset_get h1]
      split
      · exact ⟨_, rfl, hne⟩
      · exact ⟨x, hx, h0⟩
    · have h0 : fm[f]? = some 0 := h0
      rw [vset_get h1, if_pos rfl] at h0
      exact absurd (Option.some.inj h0) hne
    · show fm[g]? = _
      rw [vset_get h1, if_neg hg]
  · rename_i hc
    simp only [Res.ok.injEq] at h
    subst h
    refine ⟨⟨rfl, rfl, fun _ _ h _ => h, fun _ k h h0 => ⟨k, h, h0⟩, Nat.le_refl _, fun _ => rfl⟩, fun _ _ => ?_, fun _ _ => rfl⟩
    simp only [Bool.or_eq_true, not_or, Bool.not_eq_true] at hc
    have ht : tooManySides es.length c (hang.edge.countP id) (hang.node.countP id) = false := hc.2
    constructor
    · intro es' c' he' hc'
      rw [hes] at he'
      obtain rfl := Option.some.inj he'
      have hc' : countToRefine w.edge es = .ok c' := hc'
      rw [hcc] at hc'
      obtain rfl := Res.ok.inj hc'
      unfold tooManySides at ht
      simp only [Bool.or_eq_false_iff, decide_eq_false_iff_not] at ht
      omega
    · intro es' c' hang' he' hc' hh'
      rw [hes] at he'
      obtain rfl := Option.some.inj he'
      have hc' : countToRefine w.edge es = .ok c' := hc'
      rw [hcc] at hc'
      obtain rfl := Res.ok.inj hc'
      rw [hh] at hh'
      obtain rfl := Res.ok.inj hh'
      refine ⟨ht, ?_⟩
      show hangingRefined w.edge hang.edge es = _
      rw [hb, hc.1]

theorem spreadSweep_ok {edges : List Edge} {bro : List Nat} {s : State} {w w' : Spread}
    (h : forRange 0 s.facesEdges.length (spreadStep edges bro s) w = .ok w') :
    Grows w w' ∧ (w'.num = w.num → ∀ f : Nat, f < s.facesEdges.length → w'.face[f]? = some 0 → Spared edges bro s w'.edge f) := by
  refine forRange_of_ok (fun k u => Grows w u ∧ (u.num = w.num → ∀ f : Nat, f < k → u.face[f]? = some 0 → Spared edges bro s u.edge f))
    (Nat.zero_le _) h ⟨Grows.refl _, fun _ _ hf => absurd hf (Nat.not_lt_zero _)⟩ ?_
  rintro k u v _ hk ⟨h1, h2⟩ hv
  obtain ⟨g1, g2, g3⟩ := spreadStep_ok hv
  refine ⟨h1.trans g1, fun hn f hf h0 => ?_⟩
  have a := h1.num
  have b := g1.num
  rcases Nat.lt_succ_iff_lt_or_eq.1 hf with hf | rfl
  · rw [g3 f (by omega)] at h0
    rw [g1.same (by omega)]
    exact h2 (by omega) f hf h0
  · exact g2 (by omega) h0

theorem spread_ok {edges : List Edge} {bro : List Nat} {s : State} : ∀ {r : Nat} {w w' : Spread}, spread edges bro s r w = .ok w' →
    (w'.edge.length = w.edge.length ∧ w'.face.length = w.face.length ∧ (∀ (e : Nat) k, w.edge[e]? = some k → k ≠ 0 → w'.edge[e]? = some k) ∧
      ∀ (f : Nat) k, w.face[f]? = some k → k ≠ 0 → ∃ k', w'.face[f]? = some k' ∧ k' ≠ 0) ∧
    (0 < r → w'.num = 0 → ∀ f : Nat, f < s.facesEdges.length → w'.face[f]? = some 0 → Spared edges bro s w'.edge f)
  | 0, w, w', h => by
    simp only [spread, Res.ok.injEq] at h
    subst h
    exact ⟨⟨rfl, rfl, fun _ _ h _ => h, fun _ k h h0 => ⟨k, h, h0⟩⟩, fun h => absurd h (Nat.lt_irrefl _)⟩
  | r + 1, w, w', h => by
    simp only [spread, Res.bind_eq_ok] at h
    obtain ⟨u, h1, h2⟩ := h
    obtain ⟨g, gs⟩ := spreadSweep_ok h1
    split at h2
    · rename_i hn
      obtain ⟨⟨a1, a2, a3, a4⟩, a5⟩ := spread_ok h2
      refine ⟨⟨a1.trans g.lenE, a2.trans g.lenF, fun e k hk h0 => a3 e k (g.edge e k hk h0) h0, fun f k hk h0 => ?_⟩, fun _ hz => ?_⟩
      · obtain ⟨k', hk', h0'⟩ := g.face f k hk h0
        exact a4 f k' hk' h0'
      · rcases Nat.eq_zero_or_pos r with rfl | hr
        · simp only [spread, Res.ok.injEq] at h2
          subst h2
          exact absurd hz hn
        · exact a5 hr hz
    · rename_i hn
      simp only [Res.ok.injEq] at h2
      subst h2
      exact ⟨⟨g.lenE, g.lenF, g.edge, g.face⟩, fun _ hz => gs hz⟩

end Verif.Refine
