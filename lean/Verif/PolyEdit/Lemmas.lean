import Verif.PolyEdit.Spec
import Verif.Polygons.ParseProps
import Mathlib.Tactic.Linarith
import Mathlib.Tactic.Ring
import Mathlib.Tactic.FieldSimp
import Mathlib.Tactic.LinearCombination
/-!
# Lemmas about offsets of rings
-/
namespace Verif.PolyEdit
open Verif.Polygons

section
variable {K : Type} [Field K]

/-- The normal of side `k`. -/
def sideNormal (len : Vec K → K) (nodes : List (Vec K)) (k : Nat) : Vec K :=
  normal len (nodes.getD k ⟨0, 0⟩) (nodes.getD (k + 1) ⟨0, 0⟩)

/-- The normal before node `k`. -/
def before (len : Vec K → K) (prev : Vec K) (nodes : List (Vec K)) (k : Nat) : Vec K :=
  if k = 0 then prev else sideNormal len nodes (k - 1)

theorem corners_length (len : Vec K → K) (first : Option (Vec K)) (prev : Vec K) (nodes : List (Vec K)) :
    (corners len first prev nodes).length = nodes.length := by
  induction nodes generalizing first prev with
  | nil => rfl
  | cons a l ih =>
    cases l with
    | nil => rfl
    | cons b l => rw [corners, List.length_cons, ih, List.length_cons]; rfl

theorem before_succ (len : Vec K → K) (prev : Vec K) (a b : Vec K) (l : List (Vec K)) (k : Nat) :
    before len prev (a :: b :: l) (k + 1) = before len (normal len a b) (b :: l) k := by
  unfold before
  rw [if_neg (by omega)]
  cases k with
  | zero => rw [if_pos rfl]; rfl
  | succ k => rw [if_neg (by omega)]; rfl

theorem corners_get (len : Vec K → K) (first : Option (Vec K)) (prev : Vec K) (nodes : List (Vec K)) (k : Nat) (h : k + 1 < nodes.length) :
    (corners len first prev nodes)[k]? = some (corner (before len prev nodes k) (sideNormal len nodes k)) := by
  induction nodes generalizing first prev k with
  | nil => simp at h
  | cons a l ih =>
    cases l with
    | nil => simp at h
    | cons b l =>
      rw [corners]
      cases k with
      | zero => rfl
      | succ k =>
        rw [List.getElem?_cons_succ, ih _ _ _ (by simpa using h), before_succ]
        rfl

theorem corners_last (len : Vec K → K) (first : Option (Vec K)) (prev : Vec K) (nodes : List (Vec K)) (k : Nat) (h : k + 2 = nodes.length) :
    (corners len first prev nodes)[k + 1]? = some (corner (sideNormal len nodes k) (first.getD (sideNormal len nodes 0))) := by
  induction nodes generalizing first prev k with
  | nil => simp at h
  | cons a l ih =>
    cases l with
    | nil => simp at h
    | cons b l =>
      rw [corners, List.getElem?_cons_succ]
      cases k with
      | zero =>
        cases l with
        | nil => rfl
        | cons c l => simp at h
      | succ k =>
        rw [ih _ _ k (by simp only [List.length_cons] at h ⊢; omega)]
        rfl

theorem normals_ok (len : Vec K → K) {nodes : List (Vec K)} (h : 2 ≤ nodes.length) :
    normals len nodes = .ok (corners len none (normal len (nodes.getD (nodes.length - 2) ⟨0, 0⟩) (nodes.getD 0 ⟨0, 0⟩)) nodes) := by
  unfold normals
  rw [vget_ok (by omega), Res.ok_bind, vget_ok (by omega), Res.ok_bind]
  simp only [List.getD_eq_getElem?_getD]
  rw [List.getElem?_eq_getElem (by omega), List.getElem?_eq_getElem (by omega)]
  rfl

theorem moved_length (s : K) {nodes ns : List (Vec K)} (h : ns.length = nodes.length) : (moved s nodes ns).length = nodes.length := by
  unfold moved
  rw [List.length_zipWith, h, min_self]

theorem moved_get (s : K) {nodes ns : List (Vec K)} {k : Nat} {p n : Vec K} (hp : nodes[k]? = some p) (hn : ns[k]? = some n) :
    (moved s nodes ns)[k]? = some ⟨p.x + s * n.x, p.y + s * n.y⟩ := by
  unfold moved
  rw [List.getElem?_zipWith, hp, hn]

theorem moved_first_last (len : Vec K → K) (s : K) {nodes : List (Vec K)} (h : Loop nodes) :
    Loop (moved s nodes (corners len none (normal len (nodes.getD (nodes.length - 2) ⟨0, 0⟩) (nodes.getD 0 ⟨0, 0⟩)) nodes)) := by
  obtain ⟨h4, h0⟩ := h
  have hl := moved_length s (corners_length len none (normal len (nodes.getD (nodes.length - 2) ⟨0, 0⟩) (nodes.getD 0 ⟨0, 0⟩)) nodes)
  refine ⟨by rw [hl]; exact h4, ?_⟩
  rw [List.head?_eq_getElem?, List.getLast?_eq_getElem?] at h0 ⊢
  rw [hl]
  obtain ⟨p, hp⟩ : ∃ p, nodes[0]? = some p := ⟨nodes[0], List.getElem?_eq_getElem (by omega)⟩
  have hq := h0.symm.trans hp
  have e1 := moved_get s hp (corners_get len none (normal len (nodes.getD (nodes.length - 2) ⟨0, 0⟩) (nodes.getD 0 ⟨0, 0⟩)) nodes 0 (by omega))
  have e2 := corners_last len none (normal len (nodes.getD (nodes.length - 2) ⟨0, 0⟩) (nodes.getD 0 ⟨0, 0⟩)) nodes (nodes.length - 2) (by omega)
  rw [show nodes.length - 2 + 1 = nodes.length - 1 by omega] at e2
  rw [e1, moved_get s hq e2]
  have : before len (normal len (nodes.getD (nodes.length - 2) ⟨0, 0⟩) (nodes.getD 0 ⟨0, 0⟩)) nodes 0 = sideNormal len nodes (nodes.length - 2) := by
    unfold before sideNormal
    rw [if_pos rfl, show nodes.length - 2 + 1 = nodes.length - 1 by omega]
    rw [List.getD_eq_getElem?_getD, List.getD_eq_getElem?_getD, List.getD_eq_getElem?_getD, hp, hq]
  rw [this]
  rfl

end

section
variable {K : Type} [Field K] [LinearOrder K] [IsStrictOrderedRing K]

theorem len_pos {len : Vec K → K} {a b : Vec K} (hl : LengthAt len (Vec.diff a b)) (h : a ≠ b) : 0 < len (Vec.diff a b) := by
  obtain ⟨h0, h1⟩ := hl
  refine lt_of_le_of_ne h0 (fun c => h ?_)
  rw [← c] at h1
  unfold Vec.diff at h1
  simp only at h1
  have hx := sq_nonneg (b.x - a.x)
  have hy := sq_nonneg (b.y - a.y)
  have e1 : (b.x - a.x) ^ 2 = 0 := by linarith
  have e2 : (b.y - a.y) ^ 2 = 0 := by linarith
  have e1 := pow_eq_zero_iff two_ne_zero |>.1 e1
  have e2 := pow_eq_zero_iff two_ne_zero |>.1 e2
  ext
  · exact (sub_eq_zero.1 e1).symm
  · exact (sub_eq_zero.1 e2).symm

theorem normal_unit {len : Vec K → K} {a b : Vec K} (hl : LengthAt len (Vec.diff a b)) (h : a ≠ b) :
    Vec.dot (normal len a b) (normal len a b) = 1 := by
  have hp := (len_pos hl h).ne'
  have h1 := hl.2
  unfold Vec.dot normal
  simp only
  field_simp
  linear_combination -h1

/-- A normal along the corner vector. -/
theorem dot_corner_left {p n : Vec K} (hn : Vec.dot n n = 1) (h : 1 + Vec.dot p n ≠ 0) : Vec.dot n (corner p n) = 1 := by
  unfold Vec.dot at hn h
  unfold corner Vec.dot
  simp only
  have hf : 1 / (1 + (p.x * n.x + p.y * n.y)) * (1 + (p.x * n.x + p.y * n.y)) = 1 := one_div_mul_cancel h
  linear_combination hf + 1 / (1 + (p.x * n.x + p.y * n.y)) * hn

theorem dot_corner_right {p n : Vec K} (hp : Vec.dot p p = 1) (h : 1 + Vec.dot p n ≠ 0) : Vec.dot p (corner p n) = 1 := by
  unfold Vec.dot at hp h
  unfold corner Vec.dot
  simp only
  have hf : 1 / (1 + (p.x * n.x + p.y * n.y)) * (1 + (p.x * n.x + p.y * n.y)) = 1 := one_div_mul_cancel h
  linear_combination hf + 1 / (1 + (p.x * n.x + p.y * n.y)) * hp

/-- A point moved by `s` times a vector with unit part along the normal is `s` to the left. -/
theorem leftBy_of_dot {len : Vec K → K} {a b c : Vec K} (hl : LengthAt len (Vec.diff a b)) (h : a ≠ b) (s : K) (hc : Vec.dot (normal len a b) c = 1) :
    LeftBy len s a b ⟨a.x + s * c.x, a.y + s * c.y⟩ ∧ LeftBy len s a b ⟨b.x + s * c.x, b.y + s * c.y⟩ := by
  have hp := (len_pos hl h).ne'
  have h1 : (b.x - a.x) * c.y - (b.y - a.y) * c.x = len (Vec.diff a b) := by
    unfold Vec.dot normal at hc
    simp only [Vec.diff] at hc hp ⊢
    field_simp at hc
    linear_combination hc
  unfold LeftBy
  unfold Vec.diff at h1
  constructor
  · rw [← h1]; ring
  · rw [← h1]; ring

theorem spike_of_dot {len : Vec K → K} {a b c : Vec K} (hl : LengthAt len (Vec.diff a b)) (hl' : LengthAt len (Vec.diff b c)) (h1 : a ≠ b) (h2 : b ≠ c)
    (h : 1 + Vec.dot (normal len a b) (normal len b c) = 0) :
    ∃ t : K, 0 < t ∧ c.x - b.x = -(t * (b.x - a.x)) ∧ c.y - b.y = -(t * (b.y - a.y)) := by
  have u1 := normal_unit hl h1
  have u2 := normal_unit hl' h2
  have p1 := len_pos hl h1
  have p2 := len_pos hl' h2
  have e : (normal len a b).x + (normal len b c).x = 0 ∧ (normal len a b).y + (normal len b c).y = 0 := by
    unfold Vec.dot at h u1 u2
    have hs : ((normal len a b).x + (normal len b c).x) ^ 2 + ((normal len a b).y + (normal len b c).y) ^ 2 = 0 := by
      linear_combination u1 + u2 + 2 * h
    have hx := sq_nonneg ((normal len a b).x + (normal len b c).x)
    have hy := sq_nonneg ((normal len a b).y + (normal len b c).y)
    exact ⟨pow_eq_zero_iff two_ne_zero |>.1 (by linarith), pow_eq_zero_iff two_ne_zero |>.1 (by linarith)⟩
  refine ⟨len (Vec.diff b c) / len (Vec.diff a b), div_pos p2 p1, ?_, ?_⟩
  · have e := e.2
    unfold normal at e
    simp only [Vec.diff] at e p1 p2 ⊢
    have := p1.ne'
    have := p2.ne'
    field_simp at e ⊢
    linear_combination e
  · have e := e.1
    unfold normal at e
    simp only [Vec.diff] at e p1 p2 ⊢
    have := p1.ne'
    have := p2.ne'
    field_simp at e ⊢
    linear_combination -e

omit [LinearOrder K] [IsStrictOrderedRing K] in
theorem getD_of_get {nodes : List (Vec K)} {k : Nat} {a : Vec K} (h : nodes[k]? = some a) : nodes.getD k ⟨0, 0⟩ = a := by
  rw [List.getD_eq_getElem?_getD, h]
  rfl

omit [LinearOrder K] [IsStrictOrderedRing K] in
theorem sideNormal_eq {len : Vec K → K} {nodes : List (Vec K)} {k : Nat} {a b : Vec K} (ha : nodes[k]? = some a)
    (hb : nodes[k + 1]? = some b) : sideNormal len nodes k = normal len a b := by
  unfold sideNormal
  rw [getD_of_get ha, getD_of_get hb]

/-- Both ends of a side end up `s` to its left. -/
theorem side_moved {len : Vec K → K} {nodes : List (Vec K)} (h : Loop nodes) (hl : Lengths len nodes) (hs : NoSpike nodes) (s : K)
    {k : Nat} {a b a' b' : Vec K} (ha : nodes[k]? = some a) (hb : nodes[k + 1]? = some b)
    (ha' : (moved s nodes (corners len none (normal len (nodes.getD (nodes.length - 2) ⟨0, 0⟩) (nodes.getD 0 ⟨0, 0⟩)) nodes))[k]? = some a')
    (hb' : (moved s nodes (corners len none (normal len (nodes.getD (nodes.length - 2) ⟨0, 0⟩) (nodes.getD 0 ⟨0, 0⟩)) nodes))[k + 1]? = some b') :
    LeftBy len s a b a' ∧ LeftBy len s a b b' := by
  obtain ⟨h4, h0⟩ := h
  have hk : k + 1 < nodes.length := (List.getElem?_eq_some_iff.1 hb).1
  have hab := hs.1 k a b ha hb
  have hlab := hl k a b ha hb
  have hu := normal_unit hlab hab
  rw [List.head?_eq_getElem?, List.getLast?_eq_getElem?] at h0
  -- two sides one after the other
  have turn : ∀ (p q r : Vec K), (∃ i : Nat, nodes[i]? = some p ∧ nodes[i + 1]? = some q) → (∃ i : Nat, nodes[i]? = some q ∧ nodes[i + 1]? = some r) →
      Follow nodes p q r → 1 + Vec.dot (normal len p q) (normal len q r) ≠ 0 := by
    rintro p q r ⟨i, i1, i2⟩ ⟨j, j1, j2⟩ hf c
    exact hs.2 p q r hf (spike_of_dot (hl i p q i1 i2) (hl j q r j1 j2) (hs.1 i p q i1 i2) (hs.1 j q r j1 j2) c)
  obtain ⟨z, hz⟩ : ∃ z, nodes[0]? = some z := ⟨_, List.getElem?_eq_getElem (by omega)⟩
  obtain ⟨y, hy⟩ : ∃ y, nodes[1]? = some y := ⟨_, List.getElem?_eq_getElem (by omega)⟩
  obtain ⟨x, hx⟩ : ∃ x, nodes[nodes.length - 2]? = some x := ⟨_, List.getElem?_eq_getElem (by omega)⟩
  have hz' : nodes[nodes.length - 2 + 1]? = some z := by
    rw [show nodes.length - 2 + 1 = nodes.length - 1 by omega, ← h0, hz]
  constructor
  · rw [moved_get s ha (corners_get len none _ nodes k hk), sideNormal_eq ha hb] at ha'
    cases ha'
    refine (leftBy_of_dot hlab hab s (dot_corner_left hu ?_)).1
    unfold before
    split
    · rename_i e
      subst e
      rw [hz] at ha
      cases ha
      rw [getD_of_get hx, getD_of_get hz]
      exact turn x a b ⟨_, hx, hz'⟩ ⟨0, hz, hb⟩ (.inr ⟨hx, hz, hb⟩)
    · rename_i e
      obtain ⟨p, hp⟩ : ∃ p, nodes[k - 1]? = some p := ⟨_, List.getElem?_eq_getElem (by omega)⟩
      have ha2 : nodes[k - 1 + 1]? = some a := by rw [show k - 1 + 1 = k by omega]; exact ha
      rw [sideNormal_eq hp ha2]
      exact turn p a b ⟨_, hp, ha2⟩ ⟨k, ha, hb⟩ (.inl ⟨k - 1, hp, ha2, by rw [show k - 1 + 2 = k + 1 by omega]; exact hb⟩)
  · by_cases hk2 : k + 1 + 1 < nodes.length
    · obtain ⟨c, hc⟩ : ∃ c, nodes[k + 1 + 1]? = some c := ⟨_, List.getElem?_eq_getElem hk2⟩
      rw [moved_get s hb (corners_get len none _ nodes (k + 1) hk2), sideNormal_eq hb hc] at hb'
      have hbef : before len (normal len (nodes.getD (nodes.length - 2) ⟨0, 0⟩) (nodes.getD 0 ⟨0, 0⟩)) nodes (k + 1) = normal len a b := by
        unfold before
        rw [if_neg (by omega), Nat.add_sub_cancel, sideNormal_eq ha hb]
      rw [hbef] at hb'
      cases hb'
      refine (leftBy_of_dot hlab hab s (dot_corner_right (n := normal len b c) ?_ ?_)).2
      · exact hu
      · exact turn a b c ⟨k, ha, hb⟩ ⟨k + 1, hb, hc⟩ (.inl ⟨k, ha, hb, hc⟩)
    · have hk3 : k + 2 = nodes.length := by omega
      rw [moved_get s hb (corners_last len none _ nodes k hk3), sideNormal_eq ha hb] at hb'
      cases hb'
      have ek : nodes.length - 2 = k := by omega
      rw [ek] at hx hz'
      rw [ha] at hx
      cases hx
      rw [hb] at hz'
      cases hz'
      simp only [Option.getD_none]
      rw [sideNormal_eq hz hy]
      refine (leftBy_of_dot hlab hab s (dot_corner_right (n := normal len b y) hu ?_)).2
      exact turn a b y ⟨k, ha, hb⟩ ⟨0, hz, hy⟩ (.inr ⟨by rw [ek]; exact ha, hz, hy⟩)

end
end Verif.PolyEdit
