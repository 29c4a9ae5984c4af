import Verif.Connect.Geometry
import Verif.Connect.Props
import Mathlib.Analysis.Complex.Norm
import Mathlib.Tactic.Linarith
import Mathlib.Tactic.Ring
import Mathlib.Tactic.FieldSimp
import Mathlib.Tactic.NormNum

/-!
# How far nodes are moved when meshes are connected (C91)
-/
namespace Verif.Connect
open Classical

variable {same : Pt → Pt → Prop} {f : ℝ} {pos : Nat → Pt} {edges : List (Nat × Nat)}
  {boundary : List Nat} {across : Nat → List Nat}

theorem len_norm (p q : Pt) : len p q = ‖(⟨q.x - p.x, q.y - p.y⟩ : ℂ)‖ := by
  rw [Complex.norm_eq_sqrt_sq_add_sq, len]

theorem len_nonneg (p q : Pt) : 0 ≤ len p q := Real.sqrt_nonneg _

theorem len_comm (p q : Pt) : len p q = len q p := by
  unfold len; congr 1; ring

theorem len_triangle (p q r : Pt) : len p r ≤ len p q + len q r := by
  rw [len_norm, len_norm, len_norm]
  have h : (⟨r.x - p.x, r.y - p.y⟩ : ℂ) = ⟨q.x - p.x, q.y - p.y⟩ + ⟨r.x - q.x, r.y - q.y⟩ := by
    apply Complex.ext <;> simp
  rw [h]
  exact norm_add_le _ _

theorem pick_close {m : ℝ} {n : Nat} {e' : Nat × Nat} (h : pick m pos n e' ≠ missing) :
    (pick m pos n e' = e'.1 ∨ pick m pos n e' = e'.2) ∧ len (pos n) (pos (pick m pos n e')) < m := by
  unfold pick at h ⊢
  by_cases h1 : len (pos n) (pos e'.1) < m
  · rw [if_pos h1]; exact ⟨Or.inl rfl, h1⟩
  · rw [if_neg h1] at h ⊢
    by_cases h2 : len (pos n) (pos e'.2) < m
    · rw [if_pos h2]; exact ⟨Or.inr rfl, h2⟩
    · rw [if_neg h2] at h; exact absurd rfl h

theorem reach_le {e e' : Nat × Nat} (hf : 0 ≤ f) :
    reach f pos e e' ≤ f * len (pos e.1) (pos e.2) ∧
      reach f pos e e' ≤ f * len (pos e'.1) (pos e'.2) :=
  ⟨mul_le_mul_of_nonneg_left (min_le_left _ _) hf, mul_le_mul_of_nonneg_left (min_le_right _ _) hf⟩

theorem adj_test {b c : Nat} {r : Nat × Nat}
    (h : (drawn same f pos edges boundary across).adj b c = some r) :
    ∃ e e', edges[b]? = some e ∧ edges[c]? = some e' ∧
      r = (pick (reach f pos e e') pos e.1 e', pick (reach f pos e e') pos e.2 e') := by
  simp only [drawn, Option.bind_eq_some_iff] at h
  obtain ⟨e, he, e', he', h⟩ := h
  refine ⟨e, e', he, he', ?_⟩
  unfold test at h
  split_ifs at h
  simpa using h.symm

theorem done_inside : ∀ (l : List (Nat × Nat)) (ind : List Ind) (done : List (Nat × Nat)),
    mergeNodes l ind = .ok done → ∀ q ∈ done, q.2 < ind.length := by
  intro l
  induction l with
  | nil =>
    intro ind done h q hq
    simp only [mergeNodes, Res.ok.injEq] at h
    subst h
    cases hq
  | cons a l ih =>
    obtain ⟨u, s⟩ := a
    intro ind done h q hq
    rw [mergeNodes] at h
    cases hv : vget ind s with
    | throw => rw [hv] at h; cases h
    | ub => rw [hv] at h; cases h
    | ok a =>
      rw [hv] at h
      simp only [Res.bind] at h
      by_cases ha : a = .doNotMerge
      · rw [if_pos ha] at h
        exact ih _ _ h q hq
      · rw [if_neg ha] at h
        cases hm : mergeNodes l ((ind.set u .doNotMerge).set s .doNotMerge) with
        | throw => rw [hm] at h; cases h
        | ub => rw [hm] at h; cases h
        | ok d =>
          rw [hm] at h
          simp only [Res.ok.injEq] at h
          subst h
          rcases List.mem_cons.1 hq with rfl | hq
          · have := vget_some hv
            by_contra hc
            rw [List.getElem?_eq_none (Nat.le_of_not_lt hc)] at this
            cases this
          · have := ih _ _ hm q hq
            simpa using this

theorem closeNodes_within {n t : Nat} (hf : 0 ≤ f)
    (h : CloseNodes (drawn same f pos edges boundary across) n t) (ht : t ≠ missing) :
    ∃ b ∈ boundary, ∃ c ∈ boundary, b ≠ c ∧ ∃ e e', edges[b]? = some e ∧ edges[c]? = some e' ∧
      (n = e.1 ∨ n = e.2) ∧ (t = e'.1 ∨ t = e'.2) ∧
      len (pos n) (pos t) < f * len (pos e.1) (pos e.2) ∧
      len (pos n) (pos t) < f * len (pos e'.1) (pos e'.2) := by
  obtain ⟨b, c, r, e, ⟨hb, hc, hbc, ha⟩, he, hnt⟩ := h
  obtain ⟨e1, e', he1, he', rfl⟩ := adj_test ha
  have : e1 = e := by
    have h2 : edges[b]? = some e := he
    rw [he1] at h2
    exact Option.some.inj h2
  subst this
  refine ⟨b, hb, c, hc, hbc, e1, e', he1, he', ?_⟩
  have hr := reach_le (pos := pos) (e := e1) (e' := e') hf
  rcases hnt with ⟨rfl, rfl⟩ | ⟨rfl, rfl⟩
  · obtain ⟨h1, h2⟩ := pick_close ht
    exact ⟨Or.inl rfl, h1, h2.trans_le hr.1, h2.trans_le hr.2⟩
  · obtain ⟨h1, h2⟩ := pick_close ht
    exact ⟨Or.inr rfl, h1, h2.trans_le hr.1, h2.trans_le hr.2⟩

/-- Connecting moves nodes little: a node is merged only with an end of another boundary edge, and
the distance between the two is less than the search fraction of the lengths of both edges. -/
theorem merged_within {st : St} {done : List (Nat × Nat)} (hf : 0 ≤ f)
    (hp : Proper (drawn same f pos edges boundary across))
    (h : compute (drawn same f pos edges boundary across) = .ok (st, done)) {q : Nat × Nat}
    (hq : q ∈ done) :
    ∃ b ∈ boundary, ∃ c ∈ boundary, b ≠ c ∧ ∃ e e', edges[b]? = some e ∧ edges[c]? = some e' ∧
      (q.1 = e.1 ∨ q.1 = e.2) ∧ (q.2 = e'.1 ∨ q.2 = e'.2) ∧
      len (pos q.1) (pos q.2) < f * len (pos e.1) (pos e.2) ∧
      len (pos q.1) (pos q.2) < f * len (pos e'.1) (pos e'.2) := by
  have hl := done_inside _ _ _ (compute_parts h).2.2 q hq
  rw [(compute_inv hp h).len] at hl
  exact closeNodes_within hf (merges_close hp h hq) (Nat.ne_of_lt (hl.trans_le hp.fits))

/-- With the fractions the call accepts, the two ends of an edge are never put on the list with the
same node. -/
theorem ends_to_two (hf : 0 < f) (hf' : f ≤ 4 / 10)
    (hp : Proper (drawn same f pos edges boundary across)) {i : Nat} (hi : i < boundary.length)
    (h1 : (drawn same f pos edges boundary across).startOf i ≠ missing)
    (h2 : (drawn same f pos edges boundary across).endOf i ≠ missing) :
    (drawn same f pos edges boundary across).startOf i ≠
      (drawn same f pos edges boundary across).endOf i := by
  set p := drawn same f pos edges boundary across with hpd
  intro heq
  have find : ∀ (g : Nat × (Nat × Nat) → Nat), lastNode ((p.near i).map g) ≠ missing →
      ∃ j r, (j, r) ∈ p.near i ∧ g (j, r) = lastNode ((p.near i).map g) := by
    intro g hg
    have hm := lastNode_mem _ hg
    rw [List.mem_map] at hm
    obtain ⟨⟨j, r⟩, hr, hs⟩ := hm
    exact ⟨j, r, hr, hs⟩
  obtain ⟨j, r, hr, hs⟩ := find (fun r => r.2.1) h1
  obtain ⟨j', r', hr', hs'⟩ := find (fun r => r.2.2) h2
  obtain ⟨-, -, -, -, ha⟩ := near_close hp hi hr
  obtain ⟨-, -, -, -, ha'⟩ := near_close hp hi hr'
  obtain ⟨e, c, he, hc, rfl⟩ := adj_test ha
  obtain ⟨e', c', he', hc', rfl⟩ := adj_test ha'
  rw [he] at he'
  obtain rfl := Option.some.inj he'
  change pick _ pos e.1 c = p.startOf i at hs
  change pick _ pos e.2 c' = p.endOf i at hs'
  have k1 := (pick_close (pos := pos) (hs.symm ▸ h1)).2
  have k2 := (pick_close (pos := pos) (hs'.symm ▸ h2)).2
  rw [hs] at k1
  rw [hs', ← heq] at k2
  have r1 := (reach_le (pos := pos) (e := e) (e' := c) hf.le).1
  have r2 := (reach_le (pos := pos) (e := e) (e' := c') hf.le).1
  have t := len_triangle (pos e.1) (pos (p.startOf i)) (pos e.2)
  rw [len_comm (pos (p.startOf i)) (pos e.2)] at t
  have hn := len_nonneg (pos e.1) (pos e.2)
  nlinarith

theorem lineDist_flip (m a b : Pt) : lineDist m b a = lineDist m a b := by
  unfold lineDist
  have hs : (a.x - b.x) ^ 2 + (a.y - b.y) ^ 2 = (b.x - a.x) ^ 2 + (b.y - a.y) ^ 2 := by ring
  rw [hs]
  by_cases h : (b.x - a.x) ^ 2 + (b.y - a.y) ^ 2 = 0
  · rw [if_pos h, if_pos h]
  · rw [if_neg h, if_neg h]
    set D := (b.x - a.x) ^ 2 + (b.y - a.y) ^ 2 with hD
    set z := ((m.x - a.x) * (b.x - a.x) + (m.y - a.y) * (b.y - a.y)) / D with hz
    have hw : ((m.x - b.x) * (a.x - b.x) + (m.y - b.y) * (a.y - b.y)) / D = 1 - z := by
      rw [hz]; field_simp; rw [hD]; ring
    have hc : max (min 1 (1 - z)) 0 = 1 - max (min 1 z) 0 := by
      rcases le_total z 0 with h0 | h0
      · rw [min_eq_left (by linarith), max_eq_left (by norm_num), min_eq_right (by linarith),
          max_eq_right h0]; ring
      · rcases le_total z 1 with h1 | h1
        · rw [min_eq_right (by linarith), max_eq_left (by linarith), min_eq_right h1,
            max_eq_left h0]
        · rw [min_eq_right (by linarith), max_eq_right (by linarith), min_eq_left h1,
            max_eq_left (by norm_num)]; ring
    simp only [hw, hc]
    congr 2
    rw [Pt.mk.injEq]
    constructor <;> ring

theorem clamp_neg (z : ℝ) : |max (min (-z) 1) (-1)| = |max (min z 1) (-1)| := by
  have : max (min (-z) 1) (-1) = -max (min z 1) (-1) := by
    rcases le_total z (-1) with h0 | h0
    · rw [min_eq_right (by linarith), max_eq_left (by norm_num), min_eq_left (by linarith),
        max_eq_right h0]; ring
    · rcases le_total z 1 with h1 | h1
      · rw [min_eq_left (by linarith), max_eq_left (by linarith), min_eq_left h1, max_eq_left h0]
      · rw [min_eq_left (by linarith), max_eq_right (by linarith), min_eq_right h1,
          max_eq_left (by norm_num)]
  rw [this, abs_neg]

theorem cosPhi_flip (a b c d : Pt) : |cosPhi a b d c| = |cosPhi a b c d| := by
  unfold cosPhi
  have hs : (c.x - d.x) ^ 2 + (c.y - d.y) ^ 2 = (d.x - c.x) ^ 2 + (d.y - c.y) ^ 2 := by ring
  rw [hs]
  split_ifs
  · rfl
  · rw [← clamp_neg]
    congr 4
    rw [← neg_div]
    congr 1
    ring

theorem pick_flip {m : ℝ} {n : Nat} {e' : Nat × Nat}
    (hm : 2 * m ≤ len (pos e'.1) (pos e'.2)) :
    pick m pos n e'.swap = pick m pos n e' := by
  unfold pick
  simp only [Prod.fst_swap, Prod.snd_swap]
  by_cases h1 : len (pos n) (pos e'.1) < m
  · have h2 : ¬ len (pos n) (pos e'.2) < m := by
      intro h2
      have := len_triangle (pos e'.1) (pos n) (pos e'.2)
      rw [len_comm (pos e'.1) (pos n)] at this
      linarith
    rw [if_pos h1, if_neg h2, if_pos h1]
  · rw [if_neg h1, if_neg h1]

/-- The test does not depend on the direction in which the other edge is stored. -/
theorem test_direction (hs : ∀ a b, same a b → same b a) (hf : 0 < f) (hf' : f ≤ 4 / 10)
    (e e' : Nat × Nat) : test same f pos e e'.swap = test same f pos e e' := by
  have hsame : same (pos e'.2) (pos e'.1) ↔ same (pos e'.1) (pos e'.2) := ⟨hs _ _, hs _ _⟩
  have hreach : reach f pos e e'.swap = reach f pos e e' := by
    unfold reach; rw [Prod.fst_swap, Prod.snd_swap, len_comm (pos e'.2)]
  have hmid : mid (pos e'.2) (pos e'.1) = mid (pos e'.1) (pos e'.2) := by
    unfold mid; rw [add_comm (pos e'.2).x, add_comm (pos e'.2).y]
  have hbeside : beside f pos e e'.swap ↔ beside f pos e e' := by
    unfold beside
    rw [hreach, Prod.fst_swap, Prod.snd_swap, len_comm (pos e'.2), hmid, lineDist_flip]
  have h2 : 2 * reach f pos e e' ≤ len (pos e'.1) (pos e'.2) := by
    have := (reach_le (pos := pos) (e := e) (e' := e') hf.le).2
    have := len_nonneg (pos e'.1) (pos e'.2)
    nlinarith
  unfold test
  rw [hreach, pick_flip h2, pick_flip h2]
  simp only [Prod.fst_swap, Prod.snd_swap, hsame, hbeside, cosPhi_flip]

/-! ## Two edges beside each other -/

theorem len_vertical {p q : Pt} (hx : q.x = p.x) (hy : q.y = p.y + 1) : len p q = 1 := by
  unfold len; rw [hx, hy]; norm_num

theorem len_horizontal {p q : Pt} (hy : q.y = p.y) : len p q = |q.x - p.x| := by
  unfold len; rw [hy, sub_self, zero_pow two_ne_zero, add_zero, Real.sqrt_sq_eq_abs]

/-- Vertical edges of length one at the same height and less than 0.4 apart are close. -/
theorem test_parallel {e e' : Nat × Nat} {u w : ℝ} (h1 : pos e.1 = ⟨u, 0⟩) (h2 : pos e.2 = ⟨u, 1⟩)
    (h3 : pos e'.1 = ⟨w, 0⟩) (h4 : pos e'.2 = ⟨w, 1⟩) (h : |w - u| < 2 / 5) :
    test (fun a b => a = b) (2 / 5) pos e e' = some (e'.1, e'.2) := by
  have l1 : len (pos e.1) (pos e.2) = 1 := by rw [h1, h2]; exact len_vertical rfl (by norm_num)
  have l2 : len (pos e'.1) (pos e'.2) = 1 := by rw [h3, h4]; exact len_vertical rfl (by norm_num)
  have hr : reach (2 / 5) pos e e' = 2 / 5 := by unfold reach; rw [l1, l2]; norm_num
  have k1 : len (pos e.1) (pos e'.1) < 2 / 5 := by
    rw [h1, h3]; exact (len_horizontal (p := ⟨u, 0⟩) (q := ⟨w, 0⟩) rfl).trans_lt h
  have k2 : len (pos e.2) (pos e'.2) < 2 / 5 := by
    rw [h2, h4]; exact (len_horizontal (p := ⟨u, 1⟩) (q := ⟨w, 1⟩) rfl).trans_lt h
  have k3 : ¬ len (pos e.2) (pos e'.1) < 2 / 5 := by
    rw [h2, h3]
    unfold len
    have : (1 : ℝ) ≤ Real.sqrt ((w - u) ^ 2 + (0 - 1) ^ 2) := by
      rw [Real.one_le_sqrt]; nlinarith [sq_nonneg (w - u)]
    exact fun hh => absurd (this.trans_lt hh) (by norm_num)
  have hb : beside (2 / 5) pos e e' := by
    unfold beside
    rw [l1, l2, if_pos le_rfl, hr, h1, h2, h3, h4]
    refine ⟨|w - u|, ?_, h⟩
    unfold lineDist mid
    norm_num
    rw [len_horizontal]
    norm_num
  have hc : cosPhi (pos e.1) (pos e.2) (pos e'.1) (pos e'.2) = 1 := by
    rw [h1, h2, h3, h4]; unfold cosPhi; norm_num
  unfold test
  rw [if_neg, if_pos, hr]
  · unfold pick
    rw [if_pos k1, if_neg k3, if_pos k2]
  · refine ⟨hb, ?_⟩
    rw [hc]; norm_num
  · rw [h1, h2, h3, h4]
    simp

/-- Two vertical edges, 0.1 apart. -/
noncomputable def twoPos (n : Nat) : Pt :=
  if n = 0 then ⟨0, 0⟩ else if n = 1 then ⟨0, 1⟩ else if n = 2 then ⟨1 / 10, 0⟩ else ⟨1 / 10, 1⟩

/-- The two edges; the other edges of the mesh are not on the boundary and here of length zero. -/
noncomputable def twoEdges : Input :=
  drawn (fun a b => a = b) (2 / 5) twoPos [(0, 1), (2, 3), (0, 0), (0, 0)] [0, 1] (fun _ => [2])

theorem twoEdges_eq : twoEdges =
    ⟨[(0, 1), (2, 3), (0, 0), (0, 0)], [0, 1], fun b c =>
      if (b = 0 ∨ b = 1) ∧ c = 0 then some (0, 1) else if (b = 0 ∨ b = 1) ∧ c = 1 then some (2, 3)
      else none, fun _ => [2]⟩ := by
  have t00 : test (fun a b => a = b) (2 / 5) twoPos (0, 1) (0, 1) = some (0, 1) :=
    test_parallel (u := 0) (w := 0) (by simp [twoPos]) (by simp [twoPos]) (by simp [twoPos])
      (by simp [twoPos]) (by norm_num)
  have t01 : test (fun a b => a = b) (2 / 5) twoPos (0, 1) (2, 3) = some (2, 3) :=
    test_parallel (u := 0) (w := 1 / 10) (by simp [twoPos]) (by simp [twoPos]) (by simp [twoPos])
      (by simp [twoPos]) (by norm_num [abs_lt])
  have t10 : test (fun a b => a = b) (2 / 5) twoPos (2, 3) (0, 1) = some (0, 1) :=
    test_parallel (u := 1 / 10) (w := 0) (by simp [twoPos]) (by simp [twoPos]) (by simp [twoPos])
      (by simp [twoPos]) (by norm_num [abs_lt])
  have t11 : test (fun a b => a = b) (2 / 5) twoPos (2, 3) (2, 3) = some (2, 3) :=
    test_parallel (u := 1 / 10) (w := 1 / 10) (by simp [twoPos]) (by simp [twoPos])
      (by simp [twoPos]) (by simp [twoPos]) (by norm_num)
  have z1 : ∀ e, test (fun a b => a = b) (2 / 5) twoPos e (0, 0) = none := by
    intro e; unfold test; rw [if_pos (Or.inr rfl)]
  have z2 : ∀ e, test (fun a b => a = b) (2 / 5) twoPos (0, 0) e = none := by
    intro e; unfold test; rw [if_pos (Or.inl rfl)]
  unfold twoEdges drawn
  congr 1
  funext b c
  rcases b with _ | _ | _ | _ | b <;> rcases c with _ | _ | _ | _ | c <;>
    simp [t00, t01, t10, t11, z1, z2]

theorem twoEdges_done : ∃ st, compute twoEdges = .ok (st, [(0, 2), (1, 3)]) := by
  rw [twoEdges_eq]; exact ⟨_, rfl⟩

theorem twoEdges_proper : Proper twoEdges := by
  rw [twoEdges_eq]; exact ⟨by decide, by decide, by decide⟩

example : len (twoPos 0) (twoPos 2) < 2 / 5 := by
  obtain ⟨st, h⟩ := twoEdges_done
  obtain ⟨b, hb, -, -, -, e, -, he, -, -, -, hl, -⟩ :=
    merged_within (by norm_num) twoEdges_proper h (q := (0, 2)) (by decide)
  have : len (twoPos e.1) (twoPos e.2) = 1 := by
    simp only [List.mem_cons, List.not_mem_nil, or_false] at hb
    rcases hb with rfl | rfl <;> simp at he <;> subst he <;>
      exact len_vertical (by simp [twoPos]) (by simp [twoPos])
  rw [this, mul_one] at hl
  exact hl

example : twoEdges.startOf 0 ≠ twoEdges.endOf 0 :=
  ends_to_two (by norm_num) (by norm_num) twoEdges_proper (by decide)
    (by change twoEdges.startOf 0 ≠ missing; rw [twoEdges_eq]; decide)
    (by change twoEdges.endOf 0 ≠ missing; rw [twoEdges_eq]; decide)

end Verif.Connect
