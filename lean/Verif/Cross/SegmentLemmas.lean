import Verif.Cross.SegmentSpec
import Verif.Cross.WalkLemmas
import Verif.Faces.Spec
import Verif.BBox.Props
import Mathlib.Combinatorics.Enumerative.DoubleCounting
import Mathlib.Tactic.FieldSimp
import Mathlib.Tactic.Ring
import Mathlib.Tactic.LinearCombination
/-!
# Lemmas: the tests of the Cartesian projection
-/
namespace Verif.Cross
open Verif.Polygons (Pt)
open Verif.Mesh

theorem eps_pos (p q a b : Pt) : 0 < eps p q a b :=
  lt_of_lt_of_le (by unfold denormMin; positivity) (le_max_right _ _)

theorem ratio_iff {p q a b : Pt} (hd : det p q a b ≠ 0) (s t : ℚ) :
    (p.x + s * (q.x - p.x) = a.x + t * (b.x - a.x) ∧ p.y + s * (q.y - p.y) = a.y + t * (b.y - a.y)) ↔
      s = ratioFirst p q a b ∧ t = ratioSecond p q a b := by
  unfold ratioFirst ratioSecond
  rw [eq_div_iff hd, eq_div_iff hd]
  unfold det at hd ⊢
  constructor
  · rintro ⟨h1, h2⟩
    constructor
    · linear_combination (b.x - a.x) * h2 - (b.y - a.y) * h1
    · linear_combination (q.x - p.x) * h2 - (q.y - p.y) * h1
  · rintro ⟨h1, h2⟩
    constructor
    · refine mul_right_cancel₀ hd ?_
      linear_combination (q.x - p.x) * h1 - (b.x - a.x) * h2
    · refine mul_right_cancel₀ hd ?_
      linear_combination (q.y - p.y) * h1 - (b.y - a.y) * h2

theorem crossing_iff (p q a b : Pt) : crossing p q a b = true ↔ Meet p q a b ∧ Apart p q a b := by
  unfold crossing Apart
  by_cases h : |det p q a b| < eps p q a b
  · rw [if_pos h]
    simp only [Bool.false_eq_true, false_iff, not_and, not_le]
    exact fun _ => h
  · rw [if_neg h]
    have hd : det p q a b ≠ 0 := by
      intro h0
      rw [h0, abs_zero] at h
      exact h (eps_pos p q a b)
    simp only [Bool.and_eq_true, decide_eq_true_eq]
    constructor
    · rintro ⟨⟨⟨h1, h2⟩, h3⟩, h4⟩
      obtain ⟨h5, h6⟩ := (ratio_iff hd _ _).2 ⟨rfl, rfl⟩
      exact ⟨⟨_, _, h1, h2, h3, h4, h5, h6⟩, not_lt.1 h⟩
    · rintro ⟨⟨s, t, h1, h2, h3, h4, h5, h6⟩, _⟩
      obtain ⟨rfl, rfl⟩ := (ratio_iff hd s t).1 ⟨h5, h6⟩
      exact ⟨⟨⟨h1, h2⟩, h3⟩, h4⟩

theorem between {s a b : ℚ} (h0 : 0 ≤ s) (h1 : s ≤ 1) : min a b ≤ a + s * (b - a) ∧ a + s * (b - a) ≤ max a b := by
  have e1 : a + s * (b - a) = (1 - s) * a + s * b := by ring
  rw [e1]
  have h2 : 0 ≤ 1 - s := by linarith
  constructor
  · have := mul_le_mul_of_nonneg_left (min_le_left a b) h2
    have := mul_le_mul_of_nonneg_left (min_le_right a b) h0
    nlinarith
  · have := mul_le_mul_of_nonneg_left (le_max_left a b) h2
    have := mul_le_mul_of_nonneg_left (le_max_right a b) h0
    nlinarith

/-- A point of the segment lies in its box. -/
theorem mem_ofTwo (p q : Pt) {s : ℚ} (h0 : 0 ≤ s) (h1 : s ≤ 1) :
    BBox.Mem ⟨p.x + s * (q.x - p.x), p.y + s * (q.y - p.y)⟩ (BBox.ofTwo (pt p) (pt q)) := by
  unfold BBox.Mem BBox.ofTwo pt
  simp only [BBox.stdMin_eq, BBox.stdMax_eq]
  exact ⟨(between h0 h1).1, (between h0 h1).2, (between h0 h1).1, (between h0 h1).2⟩

theorem overlaps_of_common {b c : BBox.Box ℚ} {p : BBox.Pt ℚ} (h1 : BBox.Mem p b) (h2 : BBox.Mem p c) : BBox.overlaps b c = true :=
  (BBox.overlaps_iff_common_point b c ((BBox.nonempty_iff b).2 ⟨p, h1⟩) ((BBox.nonempty_iff c).2 ⟨p, h2⟩)).2 ⟨p, h1, h2⟩

/-- The box of the mesh contains the box it starts from and all valid nodes. -/
theorem meshBox_mem : ∀ (l : List (Option Pt)) (b : Option (BBox.Box ℚ)),
    (∀ b', b = some b' → ∃ c, meshBox l b = some c ∧ ∀ p, BBox.Mem p b' → BBox.Mem p c) ∧
    (∀ p, some p ∈ l → ∃ c, meshBox l b = some c ∧ BBox.Mem (pt p) c)
  | [], b => ⟨fun b' h => ⟨b', h, fun _ h => h⟩, by simp⟩
  | none :: l, b => by
    obtain ⟨i1, i2⟩ := meshBox_mem l b
    refine ⟨i1, fun p hp => i2 p (by simpa using hp)⟩
  | some q :: l, none => by
    obtain ⟨i1, i2⟩ := meshBox_mem l (some ⟨pt q, pt q⟩)
    refine ⟨by simp, fun p hp => ?_⟩
    rcases List.mem_cons.1 hp with h | h
    · obtain rfl := Option.some.inj h
      obtain ⟨c, h1, h2⟩ := i1 _ rfl
      exact ⟨c, h1, h2 _ ⟨le_refl _, le_refl _, le_refl _, le_refl _⟩⟩
    · exact i2 p h
  | some q :: l, some b => by
    obtain ⟨i1, i2⟩ := meshBox_mem l (some ⟨⟨BBox.stdMin b.lo.x q.x, BBox.stdMin b.lo.y q.y⟩, ⟨BBox.stdMax b.hi.x q.x, BBox.stdMax b.hi.y q.y⟩⟩)
    obtain ⟨c, h1, h2⟩ := i1 _ rfl
    simp only [BBox.stdMin_eq, BBox.stdMax_eq, BBox.Mem] at h2
    refine ⟨?_, fun p hp => ?_⟩
    · intro b' hb
      obtain rfl := Option.some.inj hb
      refine ⟨c, h1, fun p ⟨a1, a2, a3, a4⟩ => h2 p ⟨?_, ?_, ?_, ?_⟩⟩
      · exact le_trans (min_le_left _ _) a1
      · exact le_trans a2 (le_max_left _ _)
      · exact le_trans (min_le_left _ _) a3
      · exact le_trans a4 (le_max_left _ _)
    · rcases List.mem_cons.1 hp with h | h
      · obtain rfl := Option.some.inj h
        exact ⟨c, h1, h2 _ ⟨min_le_right _ _, le_max_right _ _, min_le_right _ _, le_max_right _ _⟩⟩
      · exact i2 p h

theorem mem_nodes_of_seg {nodes : List (Option Pt)} {e : Edge} {a b : Pt} (h : seg nodes e = some (a, b)) : some a ∈ nodes ∧ some b ∈ nodes := by
  unfold seg at h
  split at h
  · rename_i x y hx hy
    simp only [Option.some.injEq, Prod.mk.injEq] at h
    obtain ⟨rfl, rfl⟩ := h
    rw [Option.join_eq_some_iff] at hx hy
    exact ⟨List.mem_of_getElem? hx, List.mem_of_getElem? hy⟩
  · simp at h

variable {nodes : List (Option Pt)} {edges : List Edge} {facesEdges : List (List Nat)} {edgesFaces : List (Nat × Nat)} {poly : List Pt}

theorem hit_iff (i e : Nat) : (data nodes edges facesEdges edgesFaces poly).hit i e = true ↔ Met nodes edges poly i e := by
  unfold data Met
  simp only []
  split
  · rename_i p q a b h1 h2
    rw [crossing_iff]
    constructor
    · rintro ⟨h3, h4⟩; exact ⟨p, q, a, b, h1, h2, h3, h4⟩
    · rintro ⟨p', q', a', b', h3, h4, h5, h6⟩
      rw [h1] at h3
      rw [h2] at h4
      simp only [Option.some.injEq, Prod.mk.injEq] at h3 h4
      obtain ⟨rfl, rfl⟩ := h3
      obtain ⟨rfl, rfl⟩ := h4
      exact ⟨h5, h6⟩
  · rename_i h0
    simp only [Bool.false_eq_true, false_iff]
    rintro ⟨p', q', a', b', h3, h4, _, _⟩
    exact h0 _ _ _ _ h3 h4

theorem near_of_hit {i e : Nat} (h : (data nodes edges facesEdges edgesFaces poly).hit i e = true) :
    (data nodes edges facesEdges edgesFaces poly).near i e = true := by
  obtain ⟨p, q, a, b, h1, h2, ⟨s, t, b1, b2, b3, b4, b5, b6⟩, _⟩ := (hit_iff i e).1 h
  unfold data
  simp only []
  rw [h1, h2]
  simp only [Bool.and_eq_true]
  have m1 := mem_ofTwo p q b1 b2
  have m2 := mem_ofTwo a b b3 b4
  rw [← b5, ← b6] at m2
  refine ⟨?_, overlaps_of_common m2 m1⟩
  unfold ends at h2
  obtain ⟨ed, _, hs⟩ := Option.bind_eq_some_iff.1 h2
  obtain ⟨ha, hb⟩ := mem_nodes_of_seg hs
  obtain ⟨c, c1, c2⟩ := (meshBox_mem nodes none).2 a ha
  obtain ⟨c', c1', c3⟩ := (meshBox_mem nodes none).2 b hb
  rw [c1] at c1'
  obtain rfl := Option.some.inj c1'
  unfold inMesh
  rw [c1]
  refine overlaps_of_common (p := ⟨p.x + s * (q.x - p.x), p.y + s * (q.y - p.y)⟩) ?_ m1
  obtain ⟨n1, n2, n3, n4⟩ := m2
  unfold BBox.ofTwo pt at n1 n2 n3 n4
  simp only [BBox.stdMin_eq, BBox.stdMax_eq] at n1 n2 n3 n4
  obtain ⟨x1, x2, x3, x4⟩ := c2
  obtain ⟨y1, y2, y3, y4⟩ := c3
  exact ⟨le_trans (le_min x1 y1) n1, le_trans n2 (max_le x2 y2), le_trans (le_min x3 y3) n3, le_trans n4 (max_le x4 y4)⟩

/-! ## Consistent faces fit -/

theorem faces_le_edges {edges : List Edge} {cw : List Nat → Bool} {s : Faces.State} (h : Faces.Consistent edges cw s) :
    s.facesEdges.length ≤ edges.length := by
  classical
  have := Finset.card_mul_le_card_mul (s := Finset.range s.facesEdges.length) (t := Finset.range edges.length) (Faces.Borders s) (m := 3) (n := 2) ?_ ?_
  · simp only [Finset.card_range] at this
    omega
  · intro f hf
    rw [Finset.mem_range] at hf
    obtain ⟨es, hes⟩ : ∃ es, s.facesEdges[f]? = some es := ⟨_, List.getElem?_eq_getElem hf⟩
    obtain ⟨ns, hns⟩ : ∃ ns, s.facesNodes[f]? = some ns := ⟨_, List.getElem?_eq_getElem (by rw [h.lengths]; exact hf)⟩
    obtain ⟨hp, _⟩ := h.proper f ns es hns hes
    have hc : es.toFinset.card = es.length := List.toFinset_card_of_nodup hp.edgesDistinct
    have h3 : 3 ≤ es.toFinset.card := by rw [hc, hp.len]; exact hp.atLeast
    refine le_trans h3 (Finset.card_le_card ?_)
    intro e he
    rw [List.mem_toFinset] at he
    rw [Finset.mem_bipartiteAbove, Finset.mem_range]
    refine ⟨?_, es, hes, he⟩
    obtain ⟨j, hj, rfl⟩ := List.getElem_of_mem he
    obtain ⟨a, b, e', p, _, _, h5, h6, _⟩ := hp.sides j (by rw [← hp.len]; exact hj)
    rw [List.getElem?_eq_getElem hj] at h5
    obtain rfl := Option.some.inj h5
    exact (List.getElem?_eq_some_iff.1 h6).1
  · intro e he
    rw [Finset.mem_range] at he
    obtain ⟨c, p, l, _, _, hl, _, hb⟩ := h.faces e he
    have : l.length ≤ 2 := by cases hl <;> simp
    refine le_trans (Finset.card_le_card (t := l.toFinset) ?_) (le_trans (List.toFinset_card_le l) this)
    intro f hf
    rw [Finset.mem_bipartiteBelow] at hf
    rw [List.mem_toFinset]
    exact (hb f).2 hf.2

theorem fits_of_consistent {edges : List Edge} {cw : List Nat → Bool} {s : Faces.State} (h : Faces.Consistent edges cw s)
    (he : edges.length ≤ missing) {w : Data} (h1 : w.facesEdges = s.facesEdges) (h2 : w.edgesFaces = s.edgesFaces)
    (hn : ∀ i e, w.hit i e = true → w.near i e = true) : Fits w := by
  have few := faces_le_edges h
  refine ⟨by rw [h1, h2, h.edgesFaces]; exact few, ?_, ?_, hn⟩
  · intro f es hf
    rw [h1] at hf
    have hlt := (List.getElem?_eq_some_iff.1 hf).1
    obtain ⟨ns, hns⟩ : ∃ ns, s.facesNodes[f]? = some ns := ⟨_, List.getElem?_eq_getElem (by rw [h.lengths]; exact hlt)⟩
    obtain ⟨hp, _⟩ := h.proper f ns es hns hf
    refine ⟨by rw [hp.len]; exact hp.atMost, hp.edgesDistinct, ?_⟩
    intro e hee
    obtain ⟨j, hj, rfl⟩ := List.getElem_of_mem hee
    obtain ⟨a, b, e', p, _, _, h5, h6, _⟩ := hp.sides j (by rw [← hp.len]; exact hj)
    rw [List.getElem?_eq_getElem hj] at h5
    obtain rfl := Option.some.inj h5
    rw [h2, h.edgesFaces]
    exact (List.getElem?_eq_some_iff.1 h6).1
  · intro e f p hp
    rw [h2] at hp
    have hlt := (List.getElem?_eq_some_iff.1 hp).1
    rw [h.edgesFaces] at hlt
    obtain ⟨c, p', l, _, hp', hl, _, hb⟩ := h.faces e hlt
    rw [hp] at hp'
    obtain rfl := Option.some.inj hp'
    have hside : Side w f e ↔ f ∈ l := by
      rw [hb f]
      unfold Side Faces.Borders
      rw [h1]
    rw [hside]
    have hm : f ∈ l → f ≠ missing := by
      intro hf hm
      obtain ⟨es, hes, _⟩ := (hb f).1 hf
      have := (List.getElem?_eq_some_iff.1 hes).1
      omega
    cases hl with
    | none => simp only [List.not_mem_nil, iff_false]; rintro ⟨a, b | b⟩ <;> exact a b
    | one g =>
      constructor
      · rintro ⟨a, b | b⟩
        · simp [b]
        · exact absurd b a
      · intro hf
        exact ⟨hm hf, .inl (by simpa using hf)⟩
    | two g g' =>
      constructor
      · rintro ⟨a, b | b⟩ <;> simp [b]
      · intro hf
        exact ⟨hm hf, by simpa using hf⟩

end Verif.Cross
