import Verif.Ortho.Spec
import Mathlib.Data.List.Nodup
import Mathlib.Tactic.Linarith
import Mathlib.Tactic.Ring
import Mathlib.Tactic.Positivity
import Mathlib.Algebra.Order.Ring.Defs
/-!
# Lemmas on orthogonalization
-/
namespace Verif.Ortho
open Verif.Mesh
variable {K : Type} [Field K] [LinearOrder K]

theorem loopN_pres {σ : Type} {f : Nat → σ → Res σ} (I : σ → Prop) {k i : Nat} {s t : σ} (h : loopN f k i s = .ok t) (h0 : I s)
    (hs : ∀ j s s', i ≤ j → j < i + k → I s → f j s = .ok s' → I s') : I t := by
  induction k generalizing i s with
  | zero => obtain rfl := Res.ok.inj h; exact h0
  | succ k ih =>
    simp only [loopN] at h
    obtain ⟨s1, h1, h⟩ := Res.bind_eq_ok.1 h
    exact ih h (hs i s s1 (Nat.le_refl _) (by omega) h0 h1) (fun j s s' a b c d => hs j s s' (by omega) (by omega) c d)

theorem forRange_pres {σ : Type} {f : Nat → σ → Res σ} (I : σ → Prop) {lo hi : Nat} {s t : σ} (h : forRange lo hi f s = .ok t) (h0 : I s)
    (hs : ∀ j s s', lo ≤ j → j < hi → I s → f j s = .ok s' → I s') : I t :=
  loopN_pres I h h0 (fun j s s' a b c d => hs j s s' a (by omega) c d)

theorem loopN_pres' {σ : Type} {f : Nat → σ → Res σ} (I : Nat → σ → Prop) {k i : Nat} {s t : σ} (h : loopN f k i s = .ok t) (h0 : I i s)
    (hs : ∀ j s s', i ≤ j → j < i + k → I j s → f j s = .ok s' → I (j + 1) s') : I (i + k) t := by
  induction k generalizing i s with
  | zero => obtain rfl := Res.ok.inj h; exact h0
  | succ k ih =>
    simp only [loopN] at h
    obtain ⟨s1, h1, h⟩ := Res.bind_eq_ok.1 h
    have := ih h (hs i s s1 (Nat.le_refl _) (by omega) h0 h1) (fun j s s' a b c d => hs j s s' (by omega) (by omega) c d)
    have e : i + 1 + k = i + (k + 1) := by omega
    rw [← e]; exact this

theorem forRange_pres' {σ : Type} {f : Nat → σ → Res σ} (I : Nat → σ → Prop) {lo hi : Nat} (hle : lo ≤ hi) {s t : σ} (h : forRange lo hi f s = .ok t) (h0 : I lo s)
    (hs : ∀ j s s', lo ≤ j → j < hi → I j s → f j s = .ok s' → I (j + 1) s') : I hi t := by
  have := loopN_pres' I h h0 (fun j s s' a b c d => hs j s s' a (by omega) c d)
  have e : lo + (hi - lo) = hi := by omega
  rw [e] at this; exact this

theorem overNodes_pres {σ : Type} {f : Nat → σ → Res σ} (I : σ → Prop) {l : List Nat} {s t : σ} (h : overNodes f l s = .ok t) (h0 : I s)
    (hs : ∀ n s s', n ∈ l → I s → f n s = .ok s' → I s') : I t := by
  induction l generalizing s with
  | nil => obtain rfl := Res.ok.inj h; exact h0
  | cons n l ih =>
    simp only [overNodes] at h
    obtain ⟨s1, h1, h⟩ := Res.bind_eq_ok.1 h
    exact ih h (hs n s s1 List.mem_cons_self h0 h1) (fun m s s' a => hs m s s' (List.mem_cons_of_mem _ a))

/-! ## The rows of the system -/

/-- Rows that follow each other. -/
structure Rows (first last : List Nat) (total : Nat) : Prop where
  len : first.length = last.length
  row : ∀ (n a b : Nat), first[n]? = some a → last[n]? = some b → a ≤ b ∧ b ≤ total
  next : ∀ (m n a b : Nat), m < n → last[m]? = some b → first[n]? = some a → b ≤ a

omit [Field K] [LinearOrder K] in
theorem rowBounds_rows {net : Net} {w : Weights K} {N : Nat} {b : List Nat × List Nat × Nat} (h : rowBounds net w N = .ok b) :
    Rows b.1 b.2.1 b.2.2 ∧ b.1.length = N := by
  unfold rowBounds at h
  have := forRange_pres' (I := fun k (b : List Nat × List Nat × Nat) => Rows b.1 b.2.1 b.2.2 ∧ b.1.length = k) (Nat.zero_le N) h
    ⟨⟨rfl, by simp, by simp⟩, rfl⟩ (by
      rintro k s s' _ _ ⟨⟨i1, i2, i3⟩, i4⟩ hs
      obtain ⟨c, _, hs⟩ := Res.bind_eq_ok.1 hs
      obtain rfl := Res.ok.inj hs
      refine ⟨⟨by simp [i1], ?_, ?_⟩, by simp [i4]⟩
      · intro n a b h1 h2
        by_cases hn : n < s.1.length
        · rw [List.getElem?_append_left hn] at h1
          rw [List.getElem?_append_left (by omega)] at h2
          have := i2 n a b h1 h2
          show a ≤ b ∧ b ≤ s.2.2 + c
          omega
        · have hn' : n = s.1.length := by
            have := (List.getElem?_eq_some_iff.1 h1).1
            simp at this; omega
          subst hn'
          simp at h1
          have e : (s.2.1 ++ [s.2.2 + c])[s.1.length]? = some (s.2.2 + c) := by rw [i1]; simp
          rw [e] at h2
          obtain rfl := Option.some.inj h2
          show a ≤ s.2.2 + c ∧ s.2.2 + c ≤ s.2.2 + c
          omega
      · intro m n a b hmn h1 h2
        have hn2 := (List.getElem?_eq_some_iff.1 h2).1
        simp at hn2
        have hm : m < s.2.1.length := by omega
        rw [List.getElem?_append_left hm] at h1
        by_cases hn : n < s.1.length
        · rw [List.getElem?_append_left hn] at h2
          exact i3 m n a b hmn h1 h2
        · have hn' : n = s.1.length := by omega
          subst hn'
          simp at h2
          have hm' : m < s.1.length := by omega
          have := (i2 m _ b (List.getElem?_eq_getElem hm') h1).2
          omega)
  exact this

/-- Everything in row `n` has weight 0. -/
structure ZeroRow (first last : List Nat) (n : Nat) (s : System K) : Prop where
  eqFirst : s.first = first
  eqLast : s.last = last
  zero : ∀ (a b i : Nat) x, first[n]? = some a → last[n]? = some b → a ≤ i → i < b → s.weight[i]? = some x → x = 0

omit [LinearOrder K] in
theorem store_zero {first last : List Nat} {n i k : Nat} {ww : K} {s s' : System K} (h : ZeroRow first last n s) (hs : store i k ww s = .ok s')
    (hi : ∀ (a b : Nat), first[n]? = some a → last[n]? = some b → i < a ∨ b ≤ i) : ZeroRow first last n s' := by
  unfold store at hs
  obtain ⟨ns, h1, hs⟩ := Res.bind_eq_ok.1 hs
  obtain ⟨ws, h2, hs⟩ := Res.bind_eq_ok.1 hs
  obtain rfl := Res.ok.inj hs
  obtain ⟨h3, rfl⟩ := vset_eq_ok.1 h2
  refine ⟨h.eqFirst, h.eqLast, ?_⟩
  intro a b j x ha hb h4 h5 h6
  have := hi a b ha hb
  rw [List.getElem?_set_ne (by omega)] at h6
  exact h.zero a b j x ha hb h4 h5 h6

theorem termEntry_store {net : Net} {w : Weights K} {a : K} {t : Int} {n d o nn : Nat} {s s' : System K} (h : termEntry net w a t n d o nn s = .ok s') :
    ∃ k ww, store (o + (nn - 1)) k ww s = .ok s' := by
  unfold termEntry at h
  obtain ⟨ww, _, h⟩ := Res.bind_eq_ok.1 h
  split at h
  · obtain ⟨x, _, h⟩ := Res.bind_eq_ok.1 h
    obtain ⟨k, _, h⟩ := Res.bind_eq_ok.1 h
    exact ⟨k, _, h⟩
  · obtain ⟨k, _, h⟩ := Res.bind_eq_ok.1 h
    exact ⟨k, _, h⟩

theorem prepare_zero {sched : List Nat} {net : Net} {f : Factors K} {w : Weights K} {N n : Nat} {s : System K} (h : prepare sched net f w N = .ok s)
    (hn : ∀ (t : Int) l, net.types[n]? = some t → net.adj[n]? = some l → movable t l.length = false) :
    ∃ first last, ZeroRow first last n s := by
  unfold prepare at h
  obtain ⟨s0, h0, h⟩ := Res.bind_eq_ok.1 h
  unfold allocate at h0
  obtain ⟨b, hb, h0⟩ := Res.bind_eq_ok.1 h0
  obtain rfl := Res.ok.inj h0
  obtain ⟨hR, _⟩ := rowBounds_rows hb
  refine ⟨b.1, b.2.1, ?_⟩
  refine overNodes_pres (ZeroRow b.1 b.2.1 n) h ⟨rfl, rfl, ?_⟩ ?_
  · intro a c i x _ _ _ _ hx
    exact (List.mem_replicate.1 (List.mem_of_getElem? hx)).2
  · intro m s s' _ hz hs
    unfold termsOfNode at hs
    obtain ⟨t, ht, hs⟩ := Res.bind_eq_ok.1 hs
    obtain ⟨l, hl, hs⟩ := Res.bind_eq_ok.1 hs
    split at hs
    · obtain rfl := Res.ok.inj hs; exact hz
    · next hmv =>
      have hmn : m ≠ n := by
        rintro rfl
        rw [hn t l (vget_eq_ok.1 ht) (vget_eq_ok.1 hl)] at hmv
        simp at hmv
      obtain ⟨o, ho, hs⟩ := Res.bind_eq_ok.1 hs
      obtain ⟨e, he, hs⟩ := Res.bind_eq_ok.1 hs
      obtain ⟨s1, hs1, hs⟩ := Res.bind_eq_ok.1 hs
      obtain ⟨r, _, hs⟩ := Res.bind_eq_ok.1 hs
      obtain ⟨r1, _, hs⟩ := Res.bind_eq_ok.1 hs
      obtain ⟨r2, _, hs⟩ := Res.bind_eq_ok.1 hs
      obtain rfl := Res.ok.inj hs
      have ho := vget_eq_ok.1 ho
      have he := vget_eq_ok.1 he
      rw [hz.eqFirst] at ho
      rw [hz.eqLast] at he
      have hz1 : ZeroRow b.1 b.2.1 n s1 := by
        refine forRange_pres (ZeroRow b.1 b.2.1 n) hs1 hz ?_
        intro nn s s' h1 h2 hz hs
        obtain ⟨k, ww, hst⟩ := termEntry_store hs
        refine store_zero hz hst ?_
        intro a c ha hc
        rcases Nat.lt_or_ge m n with hlt | hge
        · have := hR.next m n a e hlt he ha
          left; omega
        · have := hR.next n m o c (by omega) hc ho
          right; omega
      exact ⟨hz1.eqFirst, hz1.eqLast, hz1.zero⟩

omit [LinearOrder K] in
theorem increments_zero {M : Metric K} {first last : List Nat} {n : Nat} {s : System K} (h : ZeroRow first last n s) {nodes : List (Pt K)} {a : Sums K}
    (ha : increments M s nodes n = .ok a) : a.wx = 0 ∧ a.wy = 0 := by
  unfold increments at ha
  obtain ⟨o, ho, ha⟩ := Res.bind_eq_ok.1 ha
  obtain ⟨e, he, ha⟩ := Res.bind_eq_ok.1 ha
  have ho := vget_eq_ok.1 ho
  have he := vget_eq_ok.1 he
  rw [h.eqFirst] at ho
  rw [h.eqLast] at he
  refine forRange_pres (fun a => a.wx = 0 ∧ a.wy = 0) ha ⟨rfl, rfl⟩ ?_
  intro nn a a' h1 h2 hz hs
  unfold addTerm at hs
  obtain ⟨ww, hw, hs⟩ := Res.bind_eq_ok.1 hs
  obtain ⟨k, _, hs⟩ := Res.bind_eq_ok.1 hs
  obtain ⟨q, _, hs⟩ := Res.bind_eq_ok.1 hs
  obtain ⟨p, _, hs⟩ := Res.bind_eq_ok.1 hs
  obtain rfl := Res.ok.inj hs
  have : ww = 0 := h.zero o e _ ww ho he (by omega) (by omega) (vget_eq_ok.1 hw)
  subst this
  simp [hz]

variable [IsStrictOrderedRing K]

theorem updateNode_zero {M : Metric K} {first last : List Nat} {n : Nat} {s : System K} (h : ZeroRow first last n s) {nodes coords coords' : List (Pt K)}
    (hu : updateNode M s nodes n coords = .ok coords') : coords' = coords := by
  unfold updateNode at hu
  obtain ⟨a, ha, hu⟩ := Res.bind_eq_ok.1 hu
  obtain ⟨h1, h2⟩ := increments_zero h ha
  rw [h1, if_pos (Or.inl (by positivity))] at hu
  exact (Res.ok.inj hu).symm

omit [IsStrictOrderedRing K] in
theorem updateNode_other {M : Metric K} {m : Nat} {s : System K} {nodes coords coords' : List (Pt K)}
    (hu : updateNode M s nodes m coords = .ok coords') : coords'.length = coords.length ∧ ∀ n, n ≠ m → coords'[n]? = coords[n]? := by
  unfold updateNode at hu
  obtain ⟨a, ha, hu⟩ := Res.bind_eq_ok.1 hu
  split at hu
  · obtain rfl := Res.ok.inj hu; exact ⟨rfl, fun _ _ => rfl⟩
  · obtain ⟨rx, _, hu⟩ := Res.bind_eq_ok.1 hu
    obtain ⟨ry, _, hu⟩ := Res.bind_eq_ok.1 hu
    obtain ⟨p, _, hu⟩ := Res.bind_eq_ok.1 hu
    obtain ⟨_, rfl⟩ := vset_eq_ok.1 hu
    exact ⟨by simp, fun n hn => List.getElem?_set_ne hn.symm⟩

/-! ## Back to the boundary -/

theorem distanceFromLine_onLine {M : Metric K} {p a b : Pt K} {d : K × Pt K} (h : distanceFromLine M p a b = some d) : OnLine d.2 a b := by
  unfold distanceFromLine at h
  simp only at h
  split at h
  · cases h
  · obtain rfl := Option.some.inj h
    exact ⟨_, le_max_right _ _, max_le (min_le_left _ _) zero_le_one, rfl⟩

omit [IsStrictOrderedRing K] in
theorem distanceFromLine_some {M : Metric K} {p a b : Pt K} (h : squaredDistance M b a ≠ 0) : ∃ d, distanceFromLine M p a b = some d := by
  unfold distanceFromLine
  simp only [if_neg h]
  exact ⟨_, rfl⟩

omit [Field K] [LinearOrder K] [IsStrictOrderedRing K] in
/-- The loop finds the other ends of the boundary edges. -/
theorem boundaryPoints_rest {net : Net} {orig : List (Pt K)} {n : Nat} {l : List Nat} {c : Nat} {a b : Pt K} {r : Pt K × Pt K}
    (h : boundaryPoints net orig n l c a b = .ok r) (hb : boundaryOf net.numFaces l = []) : r = (a, b) := by
  induction l generalizing c a b with
  | nil => exact (Res.ok.inj h).symm
  | cons e l ih =>
    simp only [boundaryPoints] at h
    obtain ⟨k, hk, h⟩ := Res.bind_eq_ok.1 h
    have hk := vget_eq_ok.1 hk
    unfold boundaryOf at hb
    rw [List.filter_cons] at hb
    have hD : net.numFaces.getD e 0 = k := by simp [hk]
    rw [hD] at hb
    by_cases hk1 : k = 1
    · rw [if_pos (by simp [hk1])] at hb; cases hb
    · rw [if_neg (by simp [hk1])] at hb
      rw [if_pos hk1] at h
      exact ih h hb

omit [Field K] [LinearOrder K] [IsStrictOrderedRing K] in
theorem boundaryPoints_one {net : Net} {orig : List (Pt K)} {n : Nat} {l : List Nat} {a b : Pt K} {r : Pt K × Pt K} {e : Nat} {p : Edge} {q : Pt K}
    (h : boundaryPoints net orig n l 1 a b = .ok r) (hb : boundaryOf net.numFaces l = [e]) (hp : net.edges[e]? = some p)
    (hq : orig[otherNode p n]? = some q) : r = (a, q) := by
  induction l generalizing a b with
  | nil => cases hb
  | cons e' l ih =>
    simp only [boundaryPoints] at h
    obtain ⟨k, hk, h⟩ := Res.bind_eq_ok.1 h
    have hk := vget_eq_ok.1 hk
    unfold boundaryOf at hb
    rw [List.filter_cons] at hb
    have hD : net.numFaces.getD e' 0 = k := by simp [hk]
    rw [hD] at hb
    by_cases hk1 : k = 1
    · rw [if_pos (by simp [hk1])] at hb
      obtain ⟨h0, hb'⟩ := List.cons.inj hb
      subst h0
      rw [if_neg (by simp [hk1]), vget_eq_ok.2 hp, Res.ok_bind, if_neg (by decide), if_pos trivial] at h
      split at h
      · cases h
      · rw [vget_eq_ok.2 hq, Res.ok_bind] at h
        exact boundaryPoints_rest h hb'
    · rw [if_neg (by simp [hk1])] at hb
      rw [if_pos hk1] at h
      exact ih h hb

omit [Field K] [LinearOrder K] [IsStrictOrderedRing K] in
theorem boundaryPoints_two {net : Net} {orig : List (Pt K)} {n : Nat} {l : List Nat} {a b : Pt K} {r : Pt K × Pt K} {e1 e2 : Nat} {p1 p2 : Edge} {q1 q2 : Pt K}
    (h : boundaryPoints net orig n l 0 a b = .ok r) (hb : boundaryOf net.numFaces l = [e1, e2]) (hp1 : net.edges[e1]? = some p1)
    (hq1 : orig[otherNode p1 n]? = some q1) (hp2 : net.edges[e2]? = some p2) (hq2 : orig[otherNode p2 n]? = some q2) : r = (q1, q2) := by
  induction l generalizing a b with
  | nil => cases hb
  | cons e' l ih =>
    simp only [boundaryPoints] at h
    obtain ⟨k, hk, h⟩ := Res.bind_eq_ok.1 h
    have hk := vget_eq_ok.1 hk
    unfold boundaryOf at hb
    rw [List.filter_cons] at hb
    have hD : net.numFaces.getD e' 0 = k := by simp [hk]
    rw [hD] at hb
    by_cases hk1 : k = 1
    · rw [if_pos (by simp [hk1])] at hb
      obtain ⟨h0, hb'⟩ := List.cons.inj hb
      subst h0
      rw [if_neg (by simp [hk1]), vget_eq_ok.2 hp1, Res.ok_bind, if_pos trivial] at h
      split at h
      · cases h
      · rw [vget_eq_ok.2 hq1, Res.ok_bind] at h
        exact boundaryPoints_one h hb' hp2 hq2
    · rw [if_neg (by simp [hk1])] at hb
      rw [if_pos hk1] at h
      exact ih h hb

omit [IsStrictOrderedRing K] in
theorem snapNode_other {M : Metric K} {net : Net} {orig : List (Pt K)} {m : Nat} {nodes nodes' : List (Pt K)} (h : snapNode M net orig m nodes = .ok nodes') :
    nodes'.length = nodes.length ∧ (∀ n, n ≠ m → nodes'[n]? = nodes[n]?) ∧ (∀ t : Int, net.types[m]? = some t → t ≠ 2 → nodes' = nodes) := by
  unfold snapNode at h
  obtain ⟨t, ht, h⟩ := Res.bind_eq_ok.1 h
  obtain ⟨l, hl, h⟩ := Res.bind_eq_ok.1 h
  have ht := vget_eq_ok.1 ht
  split at h
  · obtain rfl := Res.ok.inj h; exact ⟨rfl, fun _ _ => rfl, fun _ _ _ => rfl⟩
  next hc =>
  obtain ⟨p, _, h⟩ := Res.bind_eq_ok.1 h
  split at h
  · obtain rfl := Res.ok.inj h; exact ⟨rfl, fun _ _ => rfl, fun _ _ _ => rfl⟩
  obtain ⟨r, _, h⟩ := Res.bind_eq_ok.1 h
  split at h
  · obtain rfl := Res.ok.inj h; exact ⟨rfl, fun _ _ => rfl, fun _ _ _ => rfl⟩
  obtain ⟨o, _, h⟩ := Res.bind_eq_ok.1 h
  obtain ⟨_, rfl⟩ := vset_eq_ok.1 h
  refine ⟨by simp, fun n hn => List.getElem?_set_ne hn.symm, ?_⟩
  intro t' ht' h2
  rw [ht] at ht'
  obtain rfl := Option.some.inj ht'
  exact absurd (Or.inl h2) hc

/-- The two boundary edges at node `n`, by their other ends in the original mesh. -/
structure Border (M : Metric K) (net : Net) (orig : List (Pt K)) (n : Nat) (p q1 q2 : Pt K) : Prop where
  type : net.types[n]? = some 2
  self : orig[n]? = some p
  edges : ∃ l e1 e2 p1 p2, net.adj[n]? = some l ∧ boundaryOf net.numFaces l = [e1, e2] ∧ net.edges[e1]? = some p1 ∧ net.edges[e2]? = some p2 ∧
    orig[otherNode p1 n]? = some q1 ∧ orig[otherNode p2 n]? = some q2
  valid : q1.valid = true ∧ q2.valid = true
  length : squaredDistance M q1 p ≠ 0 ∧ squaredDistance M q2 p ≠ 0

theorem snapNode_border {M : Metric K} {net : Net} {orig : List (Pt K)} {n : Nat} {p q1 q2 : Pt K} (hB : Border M net orig n p q1 q2)
    {nodes nodes' : List (Pt K)} (h : snapNode M net orig n nodes = .ok nodes') :
    ∃ p', nodes'[n]? = some p' ∧ (p'.valid = true → OnLine p' p q1 ∨ OnLine p' p q2) := by
  obtain ⟨l, e1, e2, p1, p2, b1, b2, b3, b4, b5, b6⟩ := hB.edges
  unfold snapNode at h
  rw [vget_eq_ok.2 hB.type, Res.ok_bind, vget_eq_ok.2 b1, Res.ok_bind] at h
  have hl : l ≠ [] := by rintro rfl; cases b2
  rw [if_neg (by simp [hl])] at h
  obtain ⟨z, hz, h⟩ := Res.bind_eq_ok.1 h
  have hz := vget_eq_ok.1 hz
  by_cases hv : z.valid = true
  · rw [if_neg (by simp [hv])] at h
    obtain ⟨r, hr, h⟩ := Res.bind_eq_ok.1 h
    obtain rfl := boundaryPoints_two hr b2 b3 b5 b4 b6
    rw [if_neg (by simp [hB.valid]), vget_eq_ok.2 hB.self, Res.ok_bind] at h
    obtain ⟨hlt, rfl⟩ := vset_eq_ok.1 h
    refine ⟨_, List.getElem?_set_self hlt, fun _ => ?_⟩
    obtain ⟨d1, hd1⟩ := distanceFromLine_some (p := z) hB.length.1
    obtain ⟨d2, hd2⟩ := distanceFromLine_some (p := z) hB.length.2
    rw [hd1, hd2]
    split
    · exact Or.inl (distanceFromLine_onLine hd1)
    · exact Or.inr (distanceFromLine_onLine hd2)
  · rw [if_pos (by simp [hv])] at h
    obtain rfl := Res.ok.inj h
    exact ⟨z, hz, fun h => absurd h hv⟩

/-! ## The iterations -/

/-- What holds throughout: fixed nodes are where they were, boundary nodes on their edges. -/
structure Kept (M : Metric K) (net : Net) (orig : List (Pt K)) (z : Positions K) : Prop where
  nodesLen : z.nodes.length = orig.length
  coordsLen : z.coords.length = orig.length
  fixed : ∀ n, n < orig.length → (∀ (t : Int) l, net.types[n]? = some t → net.adj[n]? = some l → movable t l.length = false) →
    z.coords[n]? = orig[n]? ∧ ((∀ t : Int, net.types[n]? = some t → t ≠ 2) → z.nodes[n]? = orig[n]?)
  border : ∀ n p q1 q2, Border M net orig n p q1 q2 → ∃ p', z.nodes[n]? = some p' ∧ (p'.valid = true → OnLine p' p q1 ∨ OnLine p' p q2)

theorem solve_kept {M : Metric K} {sched : List Nat} {net : Net} {f : Factors K} {w : Weights K} {orig : List (Pt K)} {s : System K} {N : Nat}
    (hp : prepare sched net f w N = .ok s) {z z' : Positions K} (hz : Kept M net orig z) (h : solve M sched net orig s z = .ok z')
    (ht : net.types.length = orig.length) : Kept M net orig z' := by
  unfold solve at h
  obtain ⟨coords, hc, h⟩ := Res.bind_eq_ok.1 h
  obtain ⟨nodes, hn, h⟩ := Res.bind_eq_ok.1 h
  obtain rfl := Res.ok.inj h
  have hcl : coords.length = orig.length :=
    overNodes_pres (fun c => c.length = orig.length) hc hz.coordsLen (fun m c c' _ h1 h2 => by rw [(updateNode_other h2).1, h1])
  have hnl : nodes.length = orig.length :=
    forRange_pres (fun c => c.length = orig.length) hn hcl (fun m c c' _ _ h1 h2 => by rw [(snapNode_other h2).1, h1])
  have hfix : ∀ n, n < orig.length → (∀ (t : Int) l, net.types[n]? = some t → net.adj[n]? = some l → movable t l.length = false) → coords[n]? = orig[n]? := by
    intro n hlt hmv
    obtain ⟨first, last, hzr⟩ := prepare_zero hp hmv
    refine overNodes_pres (fun c => c[n]? = orig[n]?) hc ((hz.fixed n hlt hmv).1) ?_
    intro m c c' _ h1 h2
    by_cases hmn : n = m
    · subst hmn
      rw [updateNode_zero hzr h2, h1]
    · rw [(updateNode_other h2).2 n hmn, h1]
  refine ⟨hnl, hcl, ?_, ?_⟩
  · intro n hlt hmv
    refine ⟨hfix n hlt hmv, ?_⟩
    intro h2
    refine forRange_pres (fun c => c[n]? = orig[n]?) hn (hfix n hlt hmv) ?_
    intro m c c' _ _ h3 h4
    by_cases hmn : n = m
    · subst hmn
      have hty : net.types[n]? = some net.types[n] := List.getElem?_eq_getElem (by omega)
      rw [(snapNode_other h4).2.2 _ hty (h2 _ hty), h3]
    · rw [(snapNode_other h4).2.1 n hmn, h3]
  · intro n p q1 q2 hB
    have hlt : n < orig.length := (List.getElem?_eq_some_iff.1 hB.self).1
    have := forRange_pres' (fun k (c : List (Pt K)) => c.length = orig.length ∧ (n < k → ∃ p', c[n]? = some p' ∧ (p'.valid = true → OnLine p' p q1 ∨ OnLine p' p q2)))
      (Nat.zero_le _) hn ⟨hcl, fun h => absurd h (Nat.not_lt_zero _)⟩ (by
        rintro m c c' _ _ ⟨i1, i2⟩ h4
        refine ⟨by rw [(snapNode_other h4).1, i1], ?_⟩
        intro hnm
        by_cases hmn : n = m
        · subst hmn
          exact snapNode_border hB h4
        · obtain ⟨p', h5, h6⟩ := i2 (by omega)
          exact ⟨p', by rw [(snapNode_other h4).2.1 n hmn, h5], h6⟩)
    exact this.2 (by rw [hcl]; exact hlt)

theorem iterate_kept {M : Metric K} {sched : List Nat} {net : Net} {f : Factors K} {orig : List (Pt K)} {rounds : Nat} {ws : List (Weights K)}
    (ht : net.types.length = orig.length) {z z' : Positions K} (hz : Kept M net orig z) (h : iterate M sched net f orig rounds ws z = .ok z') :
    Kept M net orig z' := by
  induction ws generalizing z with
  | nil => obtain rfl := Res.ok.inj h; exact hz
  | cons w ws ih =>
    simp only [iterate] at h
    obtain ⟨s, hs, h⟩ := Res.bind_eq_ok.1 h
    obtain ⟨z1, h1, h⟩ := Res.bind_eq_ok.1 h
    exact ih (forRange_pres (Kept M net orig) h1 hz (fun _ z z' _ _ a b => solve_kept hs a b ht)) h

end Verif.Ortho
