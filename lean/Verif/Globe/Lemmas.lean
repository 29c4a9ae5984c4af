import Mathlib.Tactic.Linarith
import Mathlib.Tactic.Positivity
import Mathlib.Tactic.FieldSimp
import Mathlib.Tactic.Ring
import Mathlib.Tactic.NormNum
import Verif.Globe.Spec
/-!
# Rows and faces
-/
namespace Verif.Globe
variable {K : Type} [Field K] [LinearOrder K]

/-! ## Places -/

theorem mem_drawPlaces {r : Row K} {f : List (K × K)} : ∀ {js : List Nat} {pent : Bool}, f ∈ (drawPlaces r js pent).1 →
    ∃ j b, j ∈ js ∧ j * r.lon - 180 + r.lon ≤ 180 ∧ (f = facePoints r b j ∨ f = mirror (facePoints r b j)) := by
  intro js
  induction js with
  | nil => intro pent h; simp [drawPlaces] at h
  | cons j js ih =>
    intro pent h
    rw [drawPlaces] at h
    split at h
    · rename_i hj
      rcases List.mem_cons.1 h with h | h
      · exact ⟨j, pent, by simp, hj, Or.inl h⟩
      · rcases List.mem_cons.1 h with h | h
        · exact ⟨j, pent, by simp, hj, Or.inr h⟩
        · obtain ⟨i, b, h1, h2⟩ := ih h
          exact ⟨i, b, by simp [h1], h2⟩
    · obtain ⟨i, b, h1, h2⟩ := ih h
      exact ⟨i, b, by simp [h1], h2⟩

theorem drawPlaces_mem {r : Row K} {j : Nat} (hj : j * r.lon - 180 + r.lon ≤ 180) : ∀ {js : List Nat} {pent : Bool}, j ∈ js →
    ∃ b, facePoints r b j ∈ (drawPlaces r js pent).1 ∧ mirror (facePoints r b j) ∈ (drawPlaces r js pent).1 := by
  intro js
  induction js with
  | nil => intro pent h; simp at h
  | cons i js ih =>
    intro pent h
    rw [drawPlaces]
    by_cases hij : i = j
    · subst hij
      rw [if_pos hj]
      exact ⟨pent, by simp, by simp⟩
    · have hjs : j ∈ js := by
        rcases List.mem_cons.1 h with h | h
        · exact absurd h.symm hij
        · exact h
      split
      · obtain ⟨b, h1, h2⟩ := ih (pent := false) hjs
        exact ⟨b, by simp [h1], by simp [h2]⟩
      · exact ih hjs

omit [LinearOrder K] in
theorem mirror_mirror (f : List (K × K)) : mirror (mirror f) = f := by
  unfold mirror
  rw [List.map_map]
  conv_rhs => rw [← List.map_id f]
  apply List.map_congr_left
  intro p _
  simp

theorem mirror_drawPlaces {r : Row K} {f : List (K × K)} : ∀ {js : List Nat} {pent : Bool}, f ∈ (drawPlaces r js pent).1 →
    mirror f ∈ (drawPlaces r js pent).1 := by
  intro js
  induction js with
  | nil => intro pent h; simp [drawPlaces] at h
  | cons j js ih =>
    intro pent h
    rw [drawPlaces] at h ⊢
    split
    · rename_i hj
      rw [if_pos hj] at h
      rcases List.mem_cons.1 h with h | h
      · rw [h]; simp
      · rcases List.mem_cons.1 h with h | h
        · rw [h, mirror_mirror]; simp
        · have := ih h
          simp [this]
    · rename_i hj
      rw [if_neg hj] at h
      exact ih h

omit [LinearOrder K] in
theorem mirror_length (f : List (K × K)) : (mirror f).length = f.length := by unfold mirror; simp

omit [LinearOrder K] in
theorem facePoints_false_length (r : Row K) (j : Nat) : (facePoints r false j).length = 4 := by simp [facePoints]

theorem drawPlaces_four {r : Row K} : ∀ {js : List Nat} {f : List (K × K)}, f ∈ (drawPlaces r js false).1 → f.length = 4 := by
  intro js
  induction js with
  | nil => intro f h; simp [drawPlaces] at h
  | cons j js ih =>
    intro f h
    rw [drawPlaces] at h
    split at h
    · rcases List.mem_cons.1 h with h | h
      · rw [h, facePoints_false_length]
      · rcases List.mem_cons.1 h with h | h
        · rw [h, mirror_length, facePoints_false_length]
        · exact ih h
    · exact ih h

theorem drawPlaces_pentagons {r : Row K} : ∀ {js : List Nat} {pent : Bool}, ((drawPlaces r js pent).1.filter (fun f => f.length = 5)).length ≤ 2 := by
  intro js
  induction js with
  | nil => intro pent; simp [drawPlaces]
  | cons j js ih =>
    intro pent
    rw [drawPlaces]
    split
    · have hnil : (drawPlaces r js false).1.filter (fun f => decide (f.length = 5)) = [] := by
        rw [List.filter_eq_nil_iff]
        intro f hf
        have := drawPlaces_four hf
        simp [this]
      simp only [List.filter_cons, hnil]
      split <;> split <;> simp
    · exact ih

/-! ## Rows -/

theorem nextRow_cur {rad : K} {delta : K → K → K} {s : Cursor K} : (nextRow rad delta s).cur = s.cur := by
  unfold nextRow
  simp only
  split <;> rfl

theorem nextRow_last {rad : K} {delta : K → K → K} {s : Cursor K} (h : (nextRow rad delta s).last = true) :
    (nextRow rad delta s).height = 90 - s.cur := by
  unfold nextRow at h ⊢
  simp only at h ⊢
  split at h
  · rename_i hc
    rw [if_pos hc]
  · cases h

theorem nextRow_lon {rad : K} {delta : K → K → K} {s : Cursor K} : (nextRow rad delta s).lon = s.lon ∨ (nextRow rad delta s).lon = 2 * s.lon := by
  unfold nextRow widen
  simp only
  split
  · exact Or.inl rfl
  · split
    · exact Or.inr rfl
    · exact Or.inl rfl

theorem nextRow_before {rad : K} {delta : K → K → K} {s : Cursor K} (h : ¬ s.cur + 3 / 2 * delta s.cur s.lon > 90) :
    (nextRow rad delta s).lon = (widen rad delta s (delta s.cur s.lon)).1 ∧ (nextRow rad delta s).last = false := by
  unfold nextRow
  simp only
  rw [if_neg h]
  exact ⟨rfl, rfl⟩

theorem rows_lon {rad : K} {delta : K → K → K} {n : Nat} : ∀ {k : Nat} {s : Cursor K} {r : Row K}, r ∈ rows rad delta n k s →
    ∃ i : Nat, r.lon = s.lon * 2 ^ i := by
  intro k
  induction k with
  | zero => intro s r h; simp [rows] at h
  | succ k ih =>
    intro s r h
    simp only [rows] at h
    rcases List.mem_cons.1 h with rfl | h
    · rcases nextRow_lon (rad := rad) (delta := delta) (s := s) with q | q
      · exact ⟨0, by rw [q]; ring⟩
      · exact ⟨1, by rw [q]; ring⟩
    · split at h
      · simp at h
      · obtain ⟨i, hi⟩ := ih h
        simp only at hi
        rcases nextRow_lon (rad := rad) (delta := delta) (s := s) with q | q
        · exact ⟨i, by rw [hi, q]⟩
        · exact ⟨i + 1, by rw [hi, q]; ring⟩

variable [IsStrictOrderedRing K]

theorem nextRow_top {rad : K} {delta : K → K → K} {s : Cursor K} (h : s.cur ≤ 90) (hp : 0 < (nextRow rad delta s).height) :
    s.cur + (nextRow rad delta s).height ≤ 90 := by
  unfold nextRow at hp ⊢
  simp only at hp ⊢
  split
  · simp
  · rename_i hc
    rw [if_neg hc] at hp
    simp only at hp ⊢
    split
    · linarith
    · rename_i hd
      rw [if_neg hd] at hp
      linarith

theorem rows_top {rad : K} {delta : K → K → K} {n : Nat} : ∀ {k : Nat} {s : Cursor K}, 0 ≤ s.cur → s.cur ≤ 90 →
    (∀ r ∈ rows rad delta n k s, 0 < r.height) → ∀ r ∈ rows rad delta n k s, 0 ≤ r.cur ∧ r.cur + r.height ≤ 90 := by
  intro k
  induction k with
  | zero => intro s _ _ _ r h; simp [rows] at h
  | succ k ih =>
    intro s h0 h9 hp r h
    simp only [rows] at h hp
    have hp1 := hp (nextRow rad delta s) (by simp)
    have ht := nextRow_top h9 hp1
    rcases List.mem_cons.1 h with rfl | h
    · rw [nextRow_cur]; exact ⟨h0, ht⟩
    · split at h
      · simp at h
      · rename_i hl
        refine ih (s := ⟨_, _, _⟩) ?_ ?_ ?_ r h
        · simp only [nextRow_cur]; linarith
        · simp only [nextRow_cur]; exact ht
        · intro r' hr'
          exact hp r' (by rw [if_neg hl]; simp [hr'])

/-- Every latitude from the first row on lies in a row. -/
theorem rows_cover {rad : K} {delta : K → K → K} {n : Nat} {y : K} (hy : y ≤ 90) : ∀ {k : Nat} {s : Cursor K}, s.cur ≤ y →
    (∃ r ∈ rows rad delta n k s, r.last = true) → ∃ r ∈ rows rad delta n k s, r.cur ≤ y ∧ y ≤ r.cur + r.height := by
  intro k
  induction k with
  | zero => rintro s _ ⟨r, h, _⟩; simp [rows] at h
  | succ k ih =>
    rintro s hs ⟨r, h, hr⟩
    simp only [rows] at h ⊢
    by_cases hc : y ≤ (nextRow rad delta s).cur + (nextRow rad delta s).height
    · exact ⟨_, by simp, by rw [nextRow_cur]; exact hs, hc⟩
    · have hc := not_le.1 hc
      rcases List.mem_cons.1 h with rfl | h
      · rw [nextRow_last hr, nextRow_cur] at hc
        linarith
      · by_cases hl : (nextRow rad delta s).last = true
        · rw [if_pos hl] at h; simp at h
        · rw [if_neg hl] at h ⊢
          obtain ⟨r', h1, h2⟩ := ih (s := ⟨_, _, _⟩) hc.le ⟨r, h, hr⟩
          exact ⟨r', by simp [h1], h2⟩

/-! ## Cover -/

theorem place_of {lon x : K} : ∀ {q : Nat}, 0 < q → -180 ≤ x → x ≤ q * lon - 180 → ∃ j : Nat, j < q ∧ (j : K) * lon - 180 ≤ x ∧
    x ≤ (j : K) * lon - 180 + lon := by
  intro q
  induction q with
  | zero => intro h; omega
  | succ q ih =>
    intro _ hx h
    push_cast at h
    by_cases hc : (q : K) * lon - 180 ≤ x
    · exact ⟨q, by omega, hc, by linarith⟩
    · have hc := not_le.1 hc
      by_cases hq : 0 < q
      · obtain ⟨j, h1, h2⟩ := ih hq hx hc.le
        exact ⟨j, by omega, h2⟩
      · have : q = 0 := by omega
        subst this
        simp at hc
        linarith

theorem contains_face {r : Row K} {b : Bool} {j : Nat} {x y : K} (h1 : (j : K) * r.lon - 180 ≤ x) (h2 : x ≤ (j : K) * r.lon - 180 + r.lon)
    (h3 : r.cur ≤ y) (h4 : y ≤ r.cur + r.height) : Contains (facePoints r b j) x y := by
  refine ⟨(j : K) * r.lon - 180, (j : K) * r.lon - 180 + r.lon, r.cur, r.cur + r.height, ?_, ?_, ?_, ?_, h1, h2, h3, h4⟩ <;>
    cases b <;> simp [facePoints]

theorem contains_mirror {f : List (K × K)} {x y : K} (h : Contains f x (-y)) : Contains (mirror f) x y := by
  obtain ⟨x0, x1, y0, y1, a, b, c, d, e1, e2, e3, e4⟩ := h
  have hm : ∀ {p q}, (p, q) ∈ f → (p, -q) ∈ mirror f := fun hp => List.mem_map.2 ⟨_, hp, rfl⟩
  exact ⟨x0, x1, -y1, -y0, hm d, hm c, hm b, hm a, e1, e2, by linarith, by linarith⟩

theorem covered {rad : K} {delta : K → K → K} {n k : Nat} (hn : 0 < n) (hlast : ∃ r ∈ allRows rad delta n k, r.last = true)
    (hwidth : ∀ r ∈ allRows rad delta n k, ∃ q : Nat, 0 < q ∧ r.lon * q = 360) {x y : K} (hs : OnSphere x y) :
    ∃ f ∈ (allRows rad delta n k).flatMap (fun r => (drawRow n r).1), Contains f x y := by
  obtain ⟨hx1, hx2, hy1, hy2⟩ := hs
  have habs : |y| ≤ 90 := abs_le.2 ⟨hy1, hy2⟩
  obtain ⟨r, hr, h1, h2⟩ := rows_cover (rad := rad) (delta := delta) (n := n) habs (k := k) (s := start n) (by simp [start]) hlast
  obtain ⟨q, hq0, hq⟩ := hwidth r hr
  have hqK : (0 : K) < q := by exact_mod_cast hq0
  have hlon : 0 < r.lon := by
    by_contra hc
    have := mul_nonpos_of_nonpos_of_nonneg (not_lt.1 hc) hqK.le
    rw [hq] at this
    norm_num at this
  obtain ⟨j, j1, j2, j3⟩ := place_of (lon := r.lon) hq0 hx1 (by rw [mul_comm, hq]; linarith)
  have hqn : q ≤ n := by
    obtain ⟨i, hi⟩ := rows_lon hr
    have hnK : (0 : K) < n := by exact_mod_cast hn
    have hle : 360 / (n : K) ≤ r.lon := by
      rw [hi]
      have : (1 : K) ≤ 2 ^ i := one_le_pow₀ (by norm_num)
      have h0 : (0 : K) ≤ 360 / n := by positivity
      simp only [start]
      nlinarith
    have : (q : K) ≤ n := by
      rw [div_le_iff₀ hnK] at hle
      by_contra hc
      have := mul_lt_mul_of_pos_left (not_le.1 hc) hlon
      linarith
    exact_mod_cast this
  have hdraw : (j : K) * r.lon - 180 + r.lon ≤ 180 := by
    have : ((j : K) + 1) ≤ q := by exact_mod_cast j1
    have := mul_le_mul_of_nonneg_left this hlon.le
    linarith
  obtain ⟨b, b1, b2⟩ := drawPlaces_mem (r := r) hdraw (js := List.range n) (pent := r.pent) (List.mem_range.2 (by omega))
  by_cases hy : 0 ≤ y
  · rw [abs_of_nonneg hy] at h1 h2
    exact ⟨_, List.mem_flatMap.2 ⟨r, hr, b1⟩, contains_face j2 j3 h1 h2⟩
  · rw [abs_of_neg (not_le.1 hy)] at h1 h2
    exact ⟨_, List.mem_flatMap.2 ⟨r, hr, b2⟩, contains_mirror (contains_face j2 j3 h1 h2)⟩

/-! ## Range -/

theorem face_range {r : Row K} (hl : 0 ≤ r.lon) (h0 : 0 ≤ r.cur) (hh : 0 ≤ r.height) (h9 : r.cur + r.height ≤ 90) {b : Bool} {j : Nat}
    (hj : (j : K) * r.lon - 180 + r.lon ≤ 180) {p : K × K} (hp : p ∈ facePoints r b j) : OnSphere p.1 p.2 := by
  have hj0 : 0 ≤ (j : K) * r.lon := mul_nonneg (by positivity) hl
  unfold facePoints at hp
  cases b <;> simp at hp
  · rcases hp with rfl | rfl | rfl | rfl <;> refine ⟨?_, ?_, ?_, ?_⟩ <;> simp only <;> linarith
  · rcases hp with rfl | rfl | rfl | rfl | rfl <;> refine ⟨?_, ?_, ?_, ?_⟩ <;> simp only <;> linarith

theorem allRows_lon_nonneg {rad : K} {delta : K → K → K} {n k : Nat} {r : Row K} (hr : r ∈ allRows rad delta n k) : 0 ≤ r.lon := by
  obtain ⟨i, hi⟩ := rows_lon hr
  rw [hi]
  simp only [start]
  positivity

theorem faces_range {rad : K} {delta : K → K → K} {n k : Nat} (hpos : ∀ r ∈ allRows rad delta n k, 0 < r.height) {f : List (K × K)}
    (hf : f ∈ (allRows rad delta n k).flatMap (fun r => (drawRow n r).1)) {p : K × K} (hp : p ∈ f) : OnSphere p.1 p.2 := by
  obtain ⟨r, hr, hf⟩ := List.mem_flatMap.1 hf
  obtain ⟨t1, t2⟩ := rows_top (rad := rad) (delta := delta) (n := n) (k := k) (s := start n) (by simp [start]) (by simp [start]) hpos r hr
  have hl := allRows_lon_nonneg hr
  obtain ⟨j, b, _, h2, h3⟩ := mem_drawPlaces hf
  have hh := (hpos r hr).le
  rcases h3 with rfl | rfl
  · exact face_range hl t1 hh t2 h2 hp
  · obtain ⟨q, hq, rfl⟩ := List.mem_map.1 hp
    obtain ⟨a, b, c, d⟩ := face_range hl t1 hh t2 h2 hq
    exact ⟨a, b, by simp only; linarith, by simp only; linarith⟩

/-! ## Rows that are too wide -/

theorem face_east {r : Row K} {q : Nat} {b : Bool} {j : Nat} (hl : 0 ≤ r.lon) (hj : j < q) {p : K × K} (hp : p ∈ facePoints r b j) :
    p.1 ≤ q * r.lon - 180 := by
  have : ((j : K) + 1) ≤ q := by exact_mod_cast hj
  have := mul_le_mul_of_nonneg_right this hl
  unfold facePoints at hp
  cases b <;> simp at hp
  · rcases hp with rfl | rfl | rfl | rfl <;> simp only <;> linarith
  · rcases hp with rfl | rfl | rfl | rfl | rfl <;> simp only <;> linarith

/-- When the first row is widened and the number of nodes is odd, nothing is drawn next to the meridian of 180 degrees. -/
theorem rows_east {rad : K} {delta : K → K → K} {n k : Nat} (hodd : n % 2 = 1) (hfirst : (nextRow rad delta (start n)).lon = 2 * (360 / n) ∧
    (nextRow rad delta (start n)).last = false) {f : List (K × K)} (hf : f ∈ (allRows rad delta n k).flatMap (fun r => (drawRow n r).1))
    {p : K × K} (hp : p ∈ f) : p.1 ≤ 180 - 360 / n := by
  have hnK : (0 : K) < n := by exact_mod_cast (by omega : 0 < n)
  obtain ⟨r, hr, hf⟩ := List.mem_flatMap.1 hf
  have hlon : ∃ i : Nat, r.lon = 360 / n * 2 ^ (i + 1) := by
    unfold allRows at hr
    cases k with
    | zero => simp [rows] at hr
    | succ k =>
      simp only [rows] at hr
      rcases List.mem_cons.1 hr with rfl | hr
      · exact ⟨0, by rw [hfirst.1]; ring⟩
      · rw [hfirst.2] at hr
        obtain ⟨i, hi⟩ := rows_lon hr
        refine ⟨i, ?_⟩
        rw [hi]
        simp only
        rw [hfirst.1]
        ring
  obtain ⟨i, hi⟩ := hlon
  have hl : 0 ≤ r.lon := by rw [hi]; positivity
  obtain ⟨j, b, _, h2, h3⟩ := mem_drawPlaces hf
  have key : ∀ p ∈ facePoints r b j, p.1 ≤ 180 - 360 / n := by
    intro p hp
    have h5 := face_east hl (Nat.lt_succ_self j) hp
    -- the number of nodes covered is even, so less than n
    have hle : ((j + 1) * 2 ^ (i + 1) : Nat) ≤ n := by
      have : (((j + 1) * 2 ^ (i + 1) : Nat) : K) ≤ n := by
        push_cast
        have e1 : ((j : K) + 1) * r.lon ≤ 360 := by linarith
        rw [hi] at e1
        have e2 : ((j : K) + 1) * 2 ^ (i + 1) * (360 / n) ≤ 360 := by linarith [e1]
        rw [mul_div_assoc', div_le_iff₀ hnK] at e2
        linarith
      exact_mod_cast this
    have heven : (j + 1) * 2 ^ (i + 1) % 2 = 0 := by
      rw [pow_succ, ← mul_assoc]
      exact Nat.mul_mod_left _ _
    have hlt : (j + 1) * 2 ^ (i + 1) + 1 ≤ n := by omega
    have hltK : ((j : K) + 1) * 2 ^ (i + 1) + 1 ≤ n := by exact_mod_cast hlt
    have h6 : (((j : K) + 1) * 2 ^ (i + 1) + 1) * (360 / n) ≤ 360 := by
      have := mul_le_mul_of_nonneg_right hltK (show (0 : K) ≤ 360 / n by positivity)
      rwa [mul_div_cancel₀ _ hnK.ne'] at this
    have h7 : ((j + 1 : Nat) : K) * r.lon = ((j : K) + 1) * 2 ^ (i + 1) * (360 / n) := by
      rw [hi]; push_cast; ring
    have h8 : p.1 ≤ ((j + 1 : Nat) : K) * r.lon - 180 := h5
    rw [h7] at h8
    linarith
  rcases h3 with rfl | rfl
  · exact key p hp
  · obtain ⟨q, hq, rfl⟩ := List.mem_map.1 hp
    exact key q hq

/-! ## The height of a row -/

theorem newton_le {rad : K} {cos sqrt : K → K} (hrad : 0 ≤ rad) (hcos : ∀ x, cos x ≤ 1) (hsqrt : ∀ x, 0 ≤ sqrt x) {cur lon : K} (hl : 0 ≤ lon) :
    ∀ {k : Nat} {d : K}, d ≤ lon → newton rad cos sqrt cur lon k d ≤ lon := by
  intro k
  induction k with
  | zero => intro d h; exact h
  | succ k ih =>
    intro d h
    have hstep : d - (d - lon * cos (rad * (cur + 1 / 2 * d))) / (1 + 1 / 2 * rad * lon *
        sqrt (1 - cos (rad * (cur + 1 / 2 * d)) * cos (rad * (cur + 1 / 2 * d)))) ≤ lon := by
      have hc := hcos (rad * (cur + 1 / 2 * d))
      have hs := hsqrt (1 - cos (rad * (cur + 1 / 2 * d)) * cos (rad * (cur + 1 / 2 * d)))
      generalize cos (rad * (cur + 1 / 2 * d)) = c at *
      generalize sqrt (1 - c * c) = w at *
      have hdf : 1 ≤ 1 + 1 / 2 * rad * lon * w := by
        have : 0 ≤ 1 / 2 * rad * lon * w := by positivity
        linarith
      have hdf0 : 0 < 1 + 1 / 2 * rad * lon * w := by linarith
      generalize 1 + 1 / 2 * rad * lon * w = df at *
      have hlc : lon * c ≤ lon := by nlinarith
      by_cases hf : 0 ≤ d - lon * c
      · have : 0 ≤ (d - lon * c) / df := div_nonneg hf hdf0.le
        linarith
      · have hf := not_le.1 hf
        have : d - lon * c ≤ (d - lon * c) / df := by
          rw [le_div_iff₀ hdf0]
          nlinarith
        linarith
    simp only [newton]
    split
    · exact hstep
    · exact ih hstep

theorem deltaLatitude_le {rad : K} {cos sqrt : K → K} (hrad : 0 ≤ rad) (hcos : ∀ x, cos x ≤ 1) (hsqrt : ∀ x, 0 ≤ sqrt x) {cur lon : K} (hl : 0 ≤ lon) :
    deltaLatitude rad cos sqrt cur lon ≤ lon := newton_le hrad hcos hsqrt hl (by nlinarith [hcos (rad * cur)])

end Verif.Globe
