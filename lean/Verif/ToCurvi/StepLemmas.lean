import Verif.ToCurvi.FrontLemmas
/-!
# Lemmas: one face is added
-/
namespace Verif.ToCurvi
open Verif.Mesh Verif.Faces Verif.Refine Verif.Curvi
variable {P : Type} {m : Mesh P} {s : State} {f0 : Nat} {t : Front}

/-! ## Growing the matrix -/

theorem inside_resize {a : Mapping} {j i : Int} (h : a.inside j i = true) (x y z w : Int) : (a.resize x y z w).inside j i = true := by
  simp only [Mapping.inside, Mapping.resize, Bool.and_eq_true, decide_eq_true_eq] at *
  omega

theorem inside_new {a : Mapping} {j i x y z w : Int} (h1 : x ≤ j) (h2 : j ≤ z) (h3 : y ≤ i) (h4 : i ≤ w) : (a.resize x y z w).inside j i = true := by
  simp only [Mapping.inside, Mapping.resize, Bool.and_eq_true, decide_eq_true_eq] at *
  omega

theorem resize_cell (h : Inv m s f0 t) (x y z w j i : Int) : (t.map.resize x y z w).cell j i = t.map.cell j i := by
  simp only [Mapping.resize]
  split
  · rfl
  · rename_i hn
    cases hc : t.map.cell j i with
    | none => rfl
    | some n => exact absurd (h.range j i n hc) hn

theorem Inv.resize (h : Inv m s f0 t) (x y z w : Int) : Inv m s f0 { t with map := t.map.resize x y z w } := by
  refine ⟨h.leni, h.lenj, h.none, ?_, ?_, h.owner, h.linked, h.fillI, h.fillJ, h.first⟩
  · intro j i n
    exact (show ((t.map.resize x y z w).cell j i = some n ↔ t.place n = some (i, j)) by rw [resize_cell h]; exact h.map j i n)
  · intro j i n hc
    have hc' : (t.map.resize x y z w).cell j i = some n := hc
    rw [resize_cell h] at hc'
    exact inside_resize (h.range j i n hc') x y z w

/-! ## The checks -/

theorem elsewhere_eq (h : Inv m s f0 t) {x : Nat} (hx : x < m.nodes.length) (X : Int × Int) :
    ∃ b, elsewhere t (x, X.1, X.2) = .ok b ∧ (b = true ↔ ∃ q, t.place x = some q ∧ q ≠ X) := by
  unfold elsewhere
  cases hp : t.place x with
  | none =>
    obtain ⟨h1, h2⟩ := h.none x hx hp
    simp only
    rw [vget_eq_ok.2 h1, vget_eq_ok.2 h2]
    exact ⟨_, rfl, by simp⟩
  | some q =>
    obtain ⟨h1, h2, h3, h4⟩ := place_some.1 hp
    simp only
    rw [vget_eq_ok.2 h1, vget_eq_ok.2 h2]
    refine ⟨_, rfl, ?_⟩
    simp only [Bool.or_eq_true, Bool.and_eq_true, decide_eq_true_eq, Option.some.injEq, exists_eq_left']
    have : q ≠ X ↔ (q.1 ≠ X.1 ∨ q.2 ≠ X.2) := by rw [ne_eq, Prod.ext_iff]; tauto
    rw [this]
    tauto

theorem linesOk_eq (hf : Facts m s) (hb : Bordered m s f0) {f x : Nat} {ns : List Nat} (hq : Quad s f ns) (hx : x ∈ ns) (hcn : Connected s f0 f) {map : Mapping}
    (hm : ∀ j i w, map.cell j i = some w → w ≠ missing) : ∀ ps : List (Int × Int), (∀ p ∈ ps, map.inside p.1 p.2 = true) →
    ∃ b, linesOk m s map x ps = .ok b ∧ (b = true ↔ ∀ p ∈ ps, ∀ w, map.cell p.1 p.2 = some w → Linked m s w x)
  | [], _ => ⟨true, rfl, by simp⟩
  | (j, i) :: ps, h => by
    obtain ⟨b, h1, h2⟩ := linesOk_eq hf hb hq hx hcn hm ps (fun p hp => h p (List.mem_cons_of_mem _ hp))
    have hin : map.inside j i = true := h (j, i) (by simp)
    unfold linesOk Mapping.get
    rw [if_pos hin, Res.ok_bind]
    cases hc : map.cell j i with
    | none =>
      refine ⟨b, h1, ?_⟩
      rw [h2]
      constructor
      · intro h3 p hp w hw
        rcases List.mem_cons.1 hp with rfl | hp
        · simp [hc] at hw
        · exact h3 p hp w hw
      · intro h3 p hp; exact h3 p (List.mem_cons_of_mem _ hp)
    | some w =>
      obtain ⟨b', g1, g2⟩ := checkGridLine_eq hf hb hq hx hcn (hm j i w hc)
      simp only
      rw [hf.listAt_get (hf.node_lt hq hx), Res.ok_bind, g1, Res.ok_bind]
      cases b' with
      | true =>
        refine ⟨b, by simpa using h1, ?_⟩
        rw [h2]
        constructor
        · intro h3 p hp w' hw
          rcases List.mem_cons.1 hp with rfl | hp
          · rw [hc] at hw; obtain rfl := Option.some.inj hw; exact g2.1 rfl
          · exact h3 p hp w' hw
        · intro h3 p hp; exact h3 p (List.mem_cons_of_mem _ hp)
      | false =>
        refine ⟨false, by simp, ?_⟩
        simp only [Bool.false_eq_true, false_iff]
        intro h3
        have := g2.2 (h3 (j, i) (by simp) w hc)
        simp at this

theorem beside_mem {X q : Int × Int} : (q.2, q.1) ∈ beside X.1 X.2 ↔ Beside q X := by
  simp only [beside, List.mem_cons, Prod.mk.injEq, List.not_mem_nil, or_false]
  unfold Beside
  omega

/-- The nodes beside the place are joined to the candidate. -/
def Joined (m : Mesh P) (s : State) (place : Nat → Option (Int × Int)) (x : Nat) (X : Int × Int) : Prop :=
  ∀ w q, place w = some q → Beside q X → Linked m s w x

theorem connectionValid_eq (hf : Facts m s) (hb : Bordered m s f0) (h : Inv m s f0 t) {f x : Nat} {ns : List Nat} (hq : Quad s f ns) (hx : x ∈ ns)
    (hcn : Connected s f0 f)
    (X : Int × Int) : ∃ b t', connectionValid m s t (x, X.1, X.2) = .ok (b, t') ∧ (b = true ↔ Joined m s t.place x X) ∧ Inv m s f0 t' ∧
      t'.place = t.place ∧ t'.map.inside X.2 X.1 = true ∧ (∀ j i, t.map.inside j i = true → t'.map.inside j i = true) := by
  unfold connectionValid
  have hI := h.resize (X.2 - 1) (X.1 - 1) (X.2 + 1) (X.1 + 1)
  obtain ⟨b, h1, h2⟩ := linesOk_eq hf hb hq hx hcn (map := t.map.resize (X.2 - 1) (X.1 - 1) (X.2 + 1) (X.1 + 1))
    (by
      intro j i w hw
      have h3 := (hI.map j i w).1 hw
      have h4 := hI.lt h3
      have h5 := hf.wf.nodesFit
      omega) (beside X.1 X.2)
    (by
      intro p hp
      have : (((p.2, p.1) : Int × Int).2, ((p.2, p.1) : Int × Int).1) ∈ beside X.1 X.2 := hp
      have := beside_mem.1 this
      unfold Beside at this
      simp only at this
      exact inside_new (by omega) (by omega) (by omega) (by omega))
  simp only
  rw [h1, Res.ok_bind]
  refine ⟨b, _, rfl, ?_, hI, rfl, inside_new (by omega) (by omega) (by omega) (by omega), fun j i hj => inside_resize hj _ _ _ _⟩
  rw [h2]
  constructor
  · intro h3 w q hw hq
    refine h3 (q.2, q.1) (beside_mem.2 hq) w ?_
    simp only
    exact (hI.map q.2 q.1 w).2 hw
  · intro h3 p hp w hw
    have h4 := (hI.map p.1 p.2 w).1 hw
    refine h3 w (p.2, p.1) h4 (beside_mem.1 hp)

/-! ## Two nodes get their places -/

theorem getElem?_set_eq {l : List Int} {k n : Nat} (hk : k < l.length) (v : Int) : (l.set k v)[n]? = if n = k then some v else l[n]? := by
  rw [List.getElem?_set]
  by_cases h : k = n
  · subst h; simp [hk]
  · rw [if_neg h, if_neg (fun h' => h h'.symm)]

theorem settle_eq {x y : Nat} {X Y : Int × Int} (hx : x < t.i.length) (hx' : x < t.j.length) (hy : y < t.i.length) (hy' : y < t.j.length)
    (hX : t.map.inside X.2 X.1 = true) (hY : t.map.inside Y.2 Y.1 = true) :
    ∃ t', settle (x, X.1, X.2) (y, Y.1, Y.2) t = .ok t' ∧ t'.i = (t.i.set x X.1).set y Y.1 ∧ t'.j = (t.j.set x X.2).set y Y.2 ∧
      (∀ j i, t'.map.inside j i = t.map.inside j i) ∧
      (∀ j i, t'.map.cell j i = if j = Y.2 ∧ i = Y.1 then some y else if j = X.2 ∧ i = X.1 then some x else t.map.cell j i) := by
  unfold settle
  simp only [Front.index, vset_ok _ hx, vset_ok _ hx', Res.ok_bind]
  rw [vset_ok _ (by simpa using hy), vset_ok _ (by simpa using hy')]
  simp only [Res.ok_bind, Front.enter, Mapping.set]
  rw [if_pos hX]
  simp only [Res.ok_bind]
  rw [if_pos (show _ by exact hY)]
  exact ⟨_, rfl, rfl, rfl, fun _ _ => rfl, fun _ _ => rfl⟩

theorem place_settled {t' : Front} {x y : Nat} {X Y : Int × Int} (hx : x < t.i.length) (hx' : x < t.j.length) (hy : y < t.i.length)
    (hy' : y < t.j.length) (h1 : t'.i = (t.i.set x X.1).set y Y.1) (h2 : t'.j = (t.j.set x X.2).set y Y.2)
    (hX : X.1 ≠ noIndex ∧ X.2 ≠ noIndex) (hY : Y.1 ≠ noIndex ∧ Y.2 ≠ noIndex) (n : Nat) :
    t'.place n = if n = y then some Y else if n = x then some X else t.place n := by
  unfold Front.place
  rw [h1, h2, getElem?_set_eq (by simpa using hy), getElem?_set_eq hx, getElem?_set_eq (by simpa using hy'), getElem?_set_eq hx']
  by_cases hny : n = y
  · simp [hny, hY]
  · by_cases hnx : n = x
    · rw [if_neg hny, if_neg hny, if_neg hny, if_pos hnx, if_pos hnx, if_pos hnx]
      simp [hX]
    · simp only [hny, hnx, if_false]

/-- Nobody else is at the place of a candidate that passed the checks. -/
theorem Inv.free (ht : NoTwin m s f0) (h : Inv m s f0 t) {x z : Nat} {X : Int × Int} (hx : Corner s f0 x) (hz : t.place z = some X)
    (he : ¬ ∃ q, t.place x = some q ∧ q ≠ X) (hj : Joined m s t.place x X) : z = x := by
  obtain ⟨f, ns, h1, h2, h3, h4⟩ := h.owner z X hz
  obtain ⟨b, c, d, hA⟩ := around_of_mem h1.2 h2
  obtain ⟨p0, p1, p2, p3, g0, g1, g2, g3, gc⟩ := h3.around hA
  rw [hz] at g0; obtain rfl := Option.some.inj g0
  have l1 : Linked m s b x := hj b p1 g1 gc.beside.symm
  have l2 : Linked m s d x := hj d p3 g3 gc.rot.rot.rot.beside
  have key : x = z ∨ x = c := by
    have tw := fun (a' b' c' d' : Nat) (hh : s.facesNodes[f]? = some [a', b', c', d']) => ht f a' b' c' d' x h4.connected hh hx
    rcases hA with q | q | q | q | q | q | q | q <;> have hh := h1.1 <;> rw [q] at hh <;> have hh' := tw _ _ _ _ hh
    · exact hh'.2 l1 l2
    · exact (hh'.1 l1 l2).symm
    · exact (hh'.2 l2 l1).symm
    · exact (hh'.1 l2 l1)
    · exact (hh'.1 l2 l1).symm
    · exact (hh'.2 l1 l2).symm
    · exact (hh'.1 l1 l2)
    · exact (hh'.2 l2 l1)
  rcases key with rfl | rfl
  · rfl
  · exact absurd ⟨p2, g2, fun hc => gc.diagonal hc.symm⟩ he

theorem settle_inv (hf : Facts m s) (ht : NoTwin m s f0) (h : Inv m s f0 t) (hl : ¬ Long t.place) {f g e a b x y : Nat} {ns ns' : List Nat}
    {p q X Y : Int × Int} (hr : Reached s t.place f0 f) (hn : Next s e f g ns ns') (hA : Around ns' a b y x) (ha : t.place a = some p)
    (hb : t.place b = some q) (hc : Cell p q Y X) (ex : ¬ ∃ q, t.place x = some q ∧ q ≠ X) (ey : ¬ ∃ q, t.place y = some q ∧ q ≠ Y)
    (jx : Joined m s t.place x X) (jy : Joined m s t.place y Y) (iX : t.map.inside X.2 X.1 = true) (iY : t.map.inside Y.2 Y.1 = true) :
    ∃ t', settle (x, X.1, X.2) (y, Y.1, Y.2) t = .ok t' ∧ Inv m s f0 t' ∧ Extends t.place t'.place ∧ OnCell t'.place ns' := by
  have hxm := hA.mem
  have hx := hf.node_lt hn.right hxm.2.2.2
  have hy := hf.node_lt hn.right hxm.2.2.1
  obtain ⟨e0, e1, e2, e3, hS, hnd⟩ := hf.around hn.right hA
  have hcg : Connected s f0 g := .step e f g ns ns' hr.connected hn
  have cx : Corner s f0 x := ⟨g, ns', hcg, hn.right, hxm.2.2.2⟩
  have cy : Corner s f0 y := ⟨g, ns', hcg, hn.right, hxm.2.2.1⟩
  have hxi : x < t.i.length := by rw [h.leni]; exact hx
  have hxj : x < t.j.length := by rw [h.lenj]; exact hx
  have hyi : y < t.i.length := by rw [h.leni]; exact hy
  have hyj : y < t.j.length := by rw [h.lenj]; exact hy
  have bX : Beside p X := hc.rot.rot.rot.beside.symm
  have bY : Beside q Y := hc.rot.beside
  have nX := h.beside_ok hl ha bX
  have nY := h.beside_ok hl hb bY
  have hXY : X ≠ Y := by
    intro hc'
    have := hc.rot.rot.beside
    rw [hc'] at this
    unfold Beside at this
    omega
  have hxy : x ≠ y := by
    intro hc'; subst hc'; simp at hnd
  obtain ⟨t', h1, h2, h3, h4, h5⟩ := settle_eq (x := x) (y := y) hxi hxj hyi hyj iX iY
  have hp := place_settled hxi hxj hyi hyj h2 h3 nX nY
  have px : t'.place x = some X := by rw [hp, if_neg hxy, if_pos rfl]
  have py : t'.place y = some Y := by rw [hp, if_pos rfl]
  have po : ∀ n, n ≠ x → n ≠ y → t'.place n = t.place n := fun n g1 g2 => by rw [hp, if_neg g2, if_neg g1]
  have hext : Extends t.place t'.place := by
    intro n r hr
    by_cases g1 : n = y
    · subst g1; rw [py]; by_contra hne; exact ey ⟨r, hr, fun h' => hne (by rw [h'])⟩
    · by_cases g2 : n = x
      · subst g2; rw [px]; by_contra hne; exact ex ⟨r, hr, fun h' => hne (by rw [h'])⟩
      · rw [po n g2 g1]; exact hr
  have hcases : ∀ n r, t'.place n = some r → (n = x ∧ r = X) ∨ (n = y ∧ r = Y) ∨ (n ≠ x ∧ n ≠ y ∧ t.place n = some r) := by
    intro n r hr
    by_cases g1 : n = y
    · subst g1; rw [py] at hr; exact Or.inr (Or.inl ⟨rfl, (Option.some.inj hr).symm⟩)
    · by_cases g2 : n = x
      · subst g2; rw [px] at hr; exact Or.inl ⟨rfl, (Option.some.inj hr).symm⟩
      · rw [po n g2 g1] at hr; exact Or.inr (Or.inr ⟨g2, g1, hr⟩)
  have hon : OnCell t'.place ns' := onCell_around hA (hext _ _ ha) (hext _ _ hb) py px hc
  have hreach : Reached s t'.place f0 g := .step e f g ns ns' (hr.mono hext) hn hon
  have hown : ∀ n ∈ ns', ∃ f ns, Quad s f ns ∧ n ∈ ns ∧ OnCell t'.place ns ∧ Reached s t'.place f0 f := fun n hn' => ⟨g, ns', hn.right, hn', hon, hreach⟩
  have lxy : Linked m s y x := ⟨e2, g, ns', hS.j2, hS.b2, hn.right⟩
  refine ⟨t', h1, ⟨?_, ?_, ?_, ?_, ?_, ?_, ?_, ?_, ?_, ?_⟩, hext, hon⟩
  · rw [h2]; simpa using h.leni
  · rw [h3]; simpa using h.lenj
  · intro n hn' hnone
    have g1 : n ≠ y := by rintro rfl; rw [py] at hnone; simp at hnone
    have g2 : n ≠ x := by rintro rfl; rw [px] at hnone; simp at hnone
    rw [po n g2 g1] at hnone
    rw [h2, h3, getElem?_set_eq (by simpa using hyi), getElem?_set_eq hxi, getElem?_set_eq (by simpa using hyj), getElem?_set_eq hxj,
      if_neg g1, if_neg g2, if_neg g1, if_neg g2]
    exact h.none n hn' hnone
  · intro j i n
    rw [h5]
    by_cases c1 : j = Y.2 ∧ i = Y.1
    · rw [if_pos c1]
      obtain ⟨rfl, rfl⟩ := c1
      constructor
      · intro hh; obtain rfl := Option.some.inj hh; exact py
      · intro hh
        rcases hcases n _ hh with ⟨_, g⟩ | ⟨g, _⟩ | ⟨_, g1, g2⟩
        · exact absurd g.symm hXY
        · rw [g]
        · exact absurd (h.free ht cy g2 ey jy) g1
    · rw [if_neg c1]
      by_cases c2 : j = X.2 ∧ i = X.1
      · rw [if_pos c2]
        obtain ⟨rfl, rfl⟩ := c2
        constructor
        · intro hh; obtain rfl := Option.some.inj hh; exact px
        · intro hh
          rcases hcases n _ hh with ⟨g, _⟩ | ⟨_, g⟩ | ⟨g1, _, g2⟩
          · rw [g]
          · exact absurd g hXY
          · exact absurd (h.free ht cx g2 ex jx) g1
      · rw [if_neg c2, h.map]
        constructor
        · exact hext n _
        · intro hh
          rcases hcases n _ hh with ⟨_, g⟩ | ⟨_, g⟩ | ⟨_, _, g2⟩
          · exact absurd ⟨congrArg Prod.snd g, congrArg Prod.fst g⟩ c2
          · exact absurd ⟨congrArg Prod.snd g, congrArg Prod.fst g⟩ c1
          · exact g2
  · intro j i n hh
    rw [h4]
    rw [h5] at hh
    split at hh
    · rename_i c; rw [c.1, c.2]; exact iY
    · split at hh
      · rename_i c; rw [c.1, c.2]; exact iX
      · exact h.range j i n hh
  · intro n r hh
    rcases hcases n r hh with ⟨rfl, _⟩ | ⟨rfl, _⟩ | ⟨_, _, g⟩
    · exact hown _ hxm.2.2.2
    · exact hown _ hxm.2.2.1
    · obtain ⟨f', ns2, k1, k2, k3, k4⟩ := h.owner n r g
      exact ⟨f', ns2, k1, k2, k3.mono hext, k4.mono hext⟩
  · intro n n' r r' h6 h7 h8
    rcases hcases n r h6 with ⟨rfl, rfl⟩ | ⟨rfl, rfl⟩ | ⟨_, _, g⟩ <;> rcases hcases n' r' h7 with ⟨rfl, rfl⟩ | ⟨rfl, rfl⟩ | ⟨_, _, g'⟩
    · unfold Beside at h8; omega
    · exact lxy.symm
    · exact (jx _ _ g' h8.symm).symm
    · exact lxy
    · unfold Beside at h8; omega
    · exact (jy _ _ g' h8.symm).symm
    · exact jx _ _ g h8
    · exact jy _ _ g h8
    · exact h.linked _ _ _ _ g g' h8
  · intro n r h6 k h7 h8
    have old : ∀ n r, t.place n = some r → r.1 ≤ k → ∃ n' q, t'.place n' = some q ∧ q.1 = k := by
      intro n r g1 g2
      obtain ⟨n', q, k1, k2⟩ := h.fillI n r g1 k g2 h8
      exact ⟨n', q, hext _ _ k1, k2⟩
    rcases hcases n r h6 with ⟨rfl, rfl⟩ | ⟨rfl, rfl⟩ | ⟨_, _, g⟩
    · by_cases hk : k = r.1
      · exact ⟨_, _, px, hk.symm⟩
      · exact old _ _ ha (by unfold Beside at bX; omega)
    · by_cases hk : k = r.1
      · exact ⟨_, _, py, hk.symm⟩
      · exact old _ _ hb (by unfold Beside at bY; omega)
    · exact old _ _ g h7
  · intro n r h6 k h7 h8
    have old : ∀ n r, t.place n = some r → r.2 ≤ k → ∃ n' q, t'.place n' = some q ∧ q.2 = k := by
      intro n r g1 g2
      obtain ⟨n', q, k1, k2⟩ := h.fillJ n r g1 k g2 h8
      exact ⟨n', q, hext _ _ k1, k2⟩
    rcases hcases n r h6 with ⟨rfl, rfl⟩ | ⟨rfl, rfl⟩ | ⟨_, _, g⟩
    · by_cases hk : k = r.2
      · exact ⟨_, _, px, hk.symm⟩
      · exact old _ _ ha (by unfold Beside at bX; omega)
    · by_cases hk : k = r.2
      · exact ⟨_, _, py, hk.symm⟩
      · exact old _ _ hb (by unfold Beside at bY; omega)
    · exact old _ _ g h7
  · obtain ⟨a', b', c', d', k1, k2, k3, k4, k5⟩ := h.first
    exact ⟨a', b', c', d', k1, hext _ _ k2, hext _ _ k3, hext _ _ k4, hext _ _ k5⟩

theorem not_joined {x : Nat} {X : Int × Int} (h : ¬ Joined m s t.place x X) : Obstructed m s t.place x X := by
  unfold Joined at h
  push Not at h
  obtain ⟨w, q, h1, h2, h3⟩ := h
  exact Or.inr ⟨w, q, h1, h2, h3⟩

/-- Either both nodes get their places, or one of them cannot be there. -/
theorem tryNodes_eq (hf : Facts m s) (hb : Bordered m s f0) (ht : NoTwin m s f0) (h : Inv m s f0 t) (hl : ¬ Long t.place) {f g e a b x y : Nat}
    {ns ns' : List Nat} {p q X Y : Int × Int} (hr : Reached s t.place f0 f) (hn : Next s e f g ns ns') (hA : Around ns' a b y x)
    (ha : t.place a = some p) (hq : t.place b = some q) (hc : Cell p q Y X) :
    ∃ k t', tryNodes m s g (x, X.1, X.2) (y, Y.1, Y.2) t = .ok (k, t') ∧ Inv m s f0 t' ∧ Extends t.place t'.place ∧
      ((k = missing ∧ t'.place = t.place ∧ (Obstructed m s t.place x X ∨ Obstructed m s t.place y Y)) ∨ (k = g ∧ OnCell t'.place ns')) := by
  have hm := hA.mem
  have hcg : Connected s f0 g := .step e f g ns ns' hr.connected hn
  obtain ⟨b1, h1, h2⟩ := elsewhere_eq h (hf.node_lt hn.right hm.2.2.2) X
  obtain ⟨b2, h3, h4⟩ := elsewhere_eq h (hf.node_lt hn.right hm.2.2.1) Y
  unfold tryNodes
  rw [h1, Res.ok_bind, h3, Res.ok_bind]
  cases b1 with
  | true => exact ⟨missing, t, rfl, h, Extends.refl _, Or.inl ⟨rfl, rfl, Or.inl (Or.inl (h2.1 rfl))⟩⟩
  | false =>
    cases b2 with
    | true => exact ⟨missing, t, rfl, h, Extends.refl _, Or.inl ⟨rfl, rfl, Or.inr (Or.inl (h4.1 rfl))⟩⟩
    | false =>
      rw [if_neg (by simp)]
      unfold tryFirst
      obtain ⟨c1, t1, g1, g2, g3, g4, g5, g6⟩ := connectionValid_eq hf hb h hn.right hm.2.2.2 hcg X
      rw [g1, Res.ok_bind]
      cases c1 with
      | false =>
        exact ⟨missing, t1, rfl, g3, by rw [g4]; exact Extends.refl _, Or.inl ⟨rfl, g4, Or.inl (not_joined (fun hh => Bool.noConfusion (g2.2 hh)))⟩⟩
      | true =>
        simp only [if_true]
        unfold trySecond
        obtain ⟨c2, t2, k1, k2, k3, k4, k5, k6⟩ := connectionValid_eq hf hb g3 hn.right hm.2.2.1 hcg Y
        rw [k1, Res.ok_bind]
        rw [g4] at k2 k4
        cases c2 with
        | false =>
          exact ⟨missing, t2, rfl, k3, by rw [k4]; exact Extends.refl _, Or.inl ⟨rfl, k4, Or.inr (not_joined (fun hh => Bool.noConfusion (k2.2 hh)))⟩⟩
        | true =>
          simp only [if_true]
          obtain ⟨t', l1, l2, l3, l4⟩ := settle_inv hf ht k3 (by rw [k4]; exact hl) (by rw [k4]; exact hr) hn hA (by rw [k4]; exact ha)
            (by rw [k4]; exact hq) hc (by rw [k4]; exact fun hh => Bool.noConfusion (h2.2 hh)) (by rw [k4]; exact fun hh => Bool.noConfusion (h4.2 hh))
            (by rw [k4]; exact g2.1 rfl) (by rw [k4]; exact k2.1 rfl) (k6 _ _ g5) k5
          rw [k4] at l3
          rw [l1]
          exact ⟨g, t', rfl, l2, l3, Or.inr ⟨rfl, l4⟩⟩

/-! ## The new face -/

theorem candidate_eq {es : List Nat} {e e' k d c x : Nat} {t : Front} {p : Int × Int} (h1 : es[k]? = some e') (h2 : findCommonNode m.edges e e' = .ok c)
    (h3 : e' < m.edges.length) (h4 : joins (edgeAt m e') c x) (g1 : t.i[c]? = some p.1) (g2 : t.j[c]? = some p.2) :
    candidate m.edges es e k d t = .ok (x, p.1 + (delta d).1, p.2 + (delta d).2) := by
  unfold candidate
  have g : m.edges[e']? = some (edgeAt m e') := by simp [edgeAt, h3]
  rw [vget_eq_ok.2 h1, Res.ok_bind, h2, Res.ok_bind, if_pos h3, vget_eq_ok.2 g, Res.ok_bind, vget_eq_ok.2 g1, Res.ok_bind, vget_eq_ok.2 g2, Res.ok_bind,
    joins_otherNode h4]

/-- The corners of the face beyond the edge. -/
theorem tryFace_eq (hf : Facts m s) {g e : Nat} {ns' : List Nat} (hq : Quad s g ns') (he : Borders s g e) :
    ∃ a b y x, Around ns' a b y x ∧ joins (edgeAt m e) a b ∧ x ≠ y ∧ ∀ (d : Nat) (t : Front) (p q : Int × Int), t.i[a]? = some p.1 → t.j[a]? = some p.2 →
      t.i[b]? = some q.1 → t.j[b]? = some q.2 →
      tryFace m s e d g t = tryNodes m s g (x, p.1 + (delta d).1, p.2 + (delta d).2) (y, q.1 + (delta d).1, q.2 + (delta d).2) t := by
  obtain ⟨a, b, c, d, e0, e1, e2, e3, h1, h2, h3, h4, h5⟩ := hf.quad hq
  obtain ⟨es, h6, h7⟩ := he
  rw [h3] at h6; obtain rfl := Option.some.inj h6
  have la := hf.node_ne hq (n := a) (by rw [h1]; simp)
  have lb := hf.node_ne hq (n := b) (by rw [h1]; simp)
  have lc := hf.node_ne hq (n := c) (by rw [h1]; simp)
  have ld := hf.node_ne hq (n := d) (by rw [h1]; simp)
  have q0 := hf.edge_lt h5.b0
  have q1 := hf.edge_lt h5.b1
  have q2 := hf.edge_lt h5.b2
  have q3 := hf.edge_lt h5.b3
  simp only [List.nodup_cons, List.mem_cons, List.not_mem_nil, or_false, not_or, not_false_eq_true, List.nodup_nil, and_true] at h2 h4
  obtain ⟨⟨n1, n2, n3⟩, ⟨n4, n5⟩, n6⟩ := h2
  obtain ⟨⟨m1, m2, m3⟩, ⟨m4, m5⟩, m6⟩ := h4
  simp only [List.mem_cons, List.not_mem_nil, or_false] at h7
  rcases h7 with rfl | rfl | rfl | rfl
  · refine ⟨b, a, d, c, by rw [h1]; unfold Around; tauto, joins_comm.1 h5.j0, n6, ?_⟩
    intro dd t p q hp hp' hq hq'
    have hk : placeOf [e, e1, e2, e3] e = 0 := by simp [placeOf]
    unfold tryFace
    rw [vget_eq_ok.2 h3, Res.ok_bind, hk]
    simp only [Nat.reduceAdd, Nat.reduceEqDiff, if_false, if_true]
    rw [candidate_eq (k := 1) (e' := e1) rfl (common_eq q0 q1 la lb lc n2 n1 n4 h5.j0 h5.j1) q1 h5.j1 hp hp', Res.ok_bind,
      candidate_eq (k := 3) (e' := e3) rfl (common_eq q0 q3 lb la ld n5 (Ne.symm n1) n3 (joins_comm.1 h5.j0) (joins_comm.1 h5.j3)) q3 (joins_comm.1 h5.j3) hq hq', Res.ok_bind]
  · refine ⟨c, b, a, d, by rw [h1]; unfold Around; tauto, joins_comm.1 h5.j1, Ne.symm n3, ?_⟩
    intro dd t p q hp hp' hq hq'
    have hk : placeOf [e0, e, e2, e3] e = 1 := by simp [placeOf, m1]
    unfold tryFace
    rw [vget_eq_ok.2 h3, Res.ok_bind, hk]
    simp only [Nat.reduceAdd, Nat.reduceEqDiff, if_false]
    rw [candidate_eq (k := 2) (e' := e2) rfl (common_eq q1 q2 lb lc ld n5 n4 n6 h5.j1 h5.j2) q2 h5.j2 hp hp', Res.ok_bind,
      candidate_eq (k := 1 - 1) (e' := e0) rfl (common_eq q1 q0 lc lb la (Ne.symm n2) (Ne.symm n4) (Ne.symm n1) (joins_comm.1 h5.j1) (joins_comm.1 h5.j0)) q0 (joins_comm.1 h5.j0) hq hq', Res.ok_bind]
  · refine ⟨d, c, b, a, by rw [h1]; unfold Around; tauto, joins_comm.1 h5.j2, n1, ?_⟩
    intro dd t p q hp hp' hq hq'
    have hk : placeOf [e0, e1, e, e3] e = 2 := by simp [placeOf, m2, m4]
    unfold tryFace
    rw [vget_eq_ok.2 h3, Res.ok_bind, hk]
    simp only [Nat.reduceAdd, Nat.reduceEqDiff, if_false]
    rw [candidate_eq (k := 3) (e' := e3) rfl (common_eq q2 q3 lc ld la (Ne.symm n2) n6 (Ne.symm n3) h5.j2 h5.j3) q3 h5.j3 hp hp', Res.ok_bind,
      candidate_eq (k := 2 - 1) (e' := e1) rfl (common_eq q2 q1 ld lc lb (Ne.symm n5) (Ne.symm n6) (Ne.symm n4) (joins_comm.1 h5.j2) (joins_comm.1 h5.j1)) q1 (joins_comm.1 h5.j1) hq hq', Res.ok_bind]
  · refine ⟨a, d, c, b, by rw [h1]; unfold Around; tauto, joins_comm.1 h5.j3, n4, ?_⟩
    intro dd t p q hp hp' hq hq'
    have hk : placeOf [e0, e1, e2, e] e = 3 := by simp [placeOf, m3, m5, m6]
    unfold tryFace
    rw [vget_eq_ok.2 h3, Res.ok_bind, hk]
    simp only [Nat.reduceAdd, Nat.reduceEqDiff, if_false, if_true]
    rw [candidate_eq (k := 0) (e' := e0) rfl (common_eq q3 q0 ld la lb (Ne.symm n5) (Ne.symm n3) n1 h5.j3 h5.j0) q0 h5.j0 hp hp', Res.ok_bind,
      candidate_eq (k := 3 - 1) (e' := e2) rfl (common_eq q3 q2 la ld lc n2 n3 (Ne.symm n6) (joins_comm.1 h5.j3) (joins_comm.1 h5.j2)) q2 (joins_comm.1 h5.j2) hq hq', Res.ok_bind]

/-! ## The corners of a face in the grid -/

theorem localMapping_eq {ns : List Nat} (h : OnCell t.place ns) : ∃ (loc : Int → Int → Option Nat) (n00 n10 n11 n01 : Nat) (p : Int × Int),
    localMapping t ns = .ok loc ∧ Around ns n00 n10 n11 n01 ∧ loc 0 0 = some n00 ∧ loc 1 0 = some n10 ∧ loc 1 1 = some n11 ∧ loc 0 1 = some n01 ∧
    t.place n00 = some p ∧ t.place n10 = some (p.1 + 1, p.2) ∧ t.place n11 = some (p.1 + 1, p.2 + 1) ∧ t.place n01 = some (p.1, p.2 + 1) := by
  obtain ⟨n0, n1, n2, n3, p0, p1, p2, p3, rfl, h1, h2, h3, h4, h5⟩ := h
  obtain ⟨a1, a2, _⟩ := place_some.1 h1
  obtain ⟨b1, b2, _⟩ := place_some.1 h2
  obtain ⟨c1, c2, _⟩ := place_some.1 h3
  obtain ⟨d1, d2, _⟩ := place_some.1 h4
  have key : ∃ loc, localMapping t [n0, n1, n2, n3] = .ok loc ∧ loc = (fun a b =>
    if p3.1 = min (min (min p0.1 p1.1) p2.1) p3.1 + a ∧ p3.2 = min (min (min p0.2 p1.2) p2.2) p3.2 + b then some n3
    else if p2.1 = min (min (min p0.1 p1.1) p2.1) p3.1 + a ∧ p2.2 = min (min (min p0.2 p1.2) p2.2) p3.2 + b then some n2
    else if p1.1 = min (min (min p0.1 p1.1) p2.1) p3.1 + a ∧ p1.2 = min (min (min p0.2 p1.2) p2.2) p3.2 + b then some n1
    else if p0.1 = min (min (min p0.1 p1.1) p2.1) p3.1 + a ∧ p0.2 = min (min (min p0.2 p1.2) p2.2) p3.2 + b then some n0
    else none) := by
    unfold localMapping
    rw [vget_eq_ok.2 (show [n0, n1, n2, n3][0]? = some n0 from rfl), Res.ok_bind, vget_eq_ok.2 (show [n0, n1, n2, n3][1]? = some n1 from rfl), Res.ok_bind,
      vget_eq_ok.2 (show [n0, n1, n2, n3][2]? = some n2 from rfl), Res.ok_bind, vget_eq_ok.2 (show [n0, n1, n2, n3][3]? = some n3 from rfl), Res.ok_bind,
      vget_eq_ok.2 a1, Res.ok_bind, vget_eq_ok.2 b1, Res.ok_bind, vget_eq_ok.2 c1, Res.ok_bind, vget_eq_ok.2 d1, Res.ok_bind,
      vget_eq_ok.2 a2, Res.ok_bind, vget_eq_ok.2 b2, Res.ok_bind, vget_eq_ok.2 c2, Res.ok_bind, vget_eq_ok.2 d2, Res.ok_bind]
    exact ⟨_, rfl, rfl⟩
  obtain ⟨loc, k1, k2⟩ := key
  obtain ⟨u, v, hu, hv, h | h⟩ := h5 <;> obtain ⟨rfl, rfl, rfl⟩ := h <;> rcases hu with rfl | rfl <;> rcases hv with rfl | rfl
  · refine ⟨loc, n0, n1, n2, n3, (p0.1, p0.2), k1, by unfold Around; tauto, ?_, ?_, ?_, ?_, ?_, ?_, ?_, ?_⟩
    iterate 4 (rw [k2]; simp only; split_ifs <;> first | rfl | (exfalso; omega))
    · rw [h1]; try simp
    · rw [h2]; try simp
    · rw [h3]; try simp
    · rw [h4]; try simp
  · refine ⟨loc, n3, n2, n1, n0, (p0.1, p0.2 + -1), k1, by unfold Around; tauto, ?_, ?_, ?_, ?_, ?_, ?_, ?_, ?_⟩
    iterate 4 (rw [k2]; simp only; split_ifs <;> first | rfl | (exfalso; omega))
    · rw [h4]; try simp
    · rw [h3]; try simp
    · rw [h2]; try simp
    · rw [h1]; try simp
  · refine ⟨loc, n1, n0, n3, n2, (p0.1 + -1, p0.2), k1, by unfold Around; tauto, ?_, ?_, ?_, ?_, ?_, ?_, ?_, ?_⟩
    iterate 4 (rw [k2]; simp only; split_ifs <;> first | rfl | (exfalso; omega))
    · rw [h2]; try simp
    · rw [h1]; try simp
    · rw [h4]; try simp
    · rw [h3]; try simp
  · refine ⟨loc, n2, n3, n0, n1, (p0.1 + -1, p0.2 + -1), k1, by unfold Around; tauto, ?_, ?_, ?_, ?_, ?_, ?_, ?_, ?_⟩
    iterate 4 (rw [k2]; simp only; split_ifs <;> first | rfl | (exfalso; omega))
    · rw [h3]; try simp
    · rw [h4]; try simp
    · rw [h1]; try simp
    · rw [h2]; try simp
  · refine ⟨loc, n0, n3, n2, n1, (p0.1, p0.2), k1, by unfold Around; tauto, ?_, ?_, ?_, ?_, ?_, ?_, ?_, ?_⟩
    iterate 4 (rw [k2]; simp only; split_ifs <;> first | rfl | (exfalso; omega))
    · rw [h1]; try simp
    · rw [h4]; try simp
    · rw [h3]; try simp
    · rw [h2]; try simp
  · refine ⟨loc, n1, n2, n3, n0, (p0.1, p0.2 + -1), k1, by unfold Around; tauto, ?_, ?_, ?_, ?_, ?_, ?_, ?_, ?_⟩
    iterate 4 (rw [k2]; simp only; split_ifs <;> first | rfl | (exfalso; omega))
    · rw [h2]; try simp
    · rw [h3]; try simp
    · rw [h4]; try simp
    · rw [h1]; try simp
  · refine ⟨loc, n3, n0, n1, n2, (p0.1 + -1, p0.2), k1, by unfold Around; tauto, ?_, ?_, ?_, ?_, ?_, ?_, ?_, ?_⟩
    iterate 4 (rw [k2]; simp only; split_ifs <;> first | rfl | (exfalso; omega))
    · rw [h4]; try simp
    · rw [h1]; try simp
    · rw [h2]; try simp
    · rw [h3]; try simp
  · refine ⟨loc, n2, n1, n0, n3, (p0.1 + -1, p0.2 + -1), k1, by unfold Around; tauto, ?_, ?_, ?_, ?_, ?_, ?_, ?_, ?_⟩
    iterate 4 (rw [k2]; simp only; split_ifs <;> first | rfl | (exfalso; omega))
    · rw [h3]; try simp
    · rw [h2]; try simp
    · rw [h1]; try simp
    · rw [h4]; try simp

end Verif.ToCurvi
