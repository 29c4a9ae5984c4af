import Mathlib.Data.List.Pairwise
import Verif.Globe.Lemmas
/-!
# Faces do not overlap
-/
namespace Verif.Globe
variable {K : Type} [Field K] [LinearOrder K] [IsStrictOrderedRing K]

theorem inside_face {r : Row K} (hl : 0 ≤ r.lon) (hh : 0 ≤ r.height) {b : Bool} {j : Nat} {x y : K} (h : Inside (facePoints r b j) x y) :
    (j : K) * r.lon - 180 < x ∧ x < (j : K) * r.lon - 180 + r.lon ∧ r.cur < y ∧ y < r.cur + r.height := by
  have hb : ∀ p ∈ facePoints r b j, (j : K) * r.lon - 180 ≤ p.1 ∧ p.1 ≤ (j : K) * r.lon - 180 + r.lon ∧ r.cur ≤ p.2 ∧ p.2 ≤ r.cur + r.height := by
    intro p hp
    unfold facePoints at hp
    cases b <;> simp at hp
    · rcases hp with rfl | rfl | rfl | rfl <;> refine ⟨?_, ?_, ?_, ?_⟩ <;> simp only <;> linarith
    · rcases hp with rfl | rfl | rfl | rfl | rfl <;> refine ⟨?_, ?_, ?_, ?_⟩ <;> simp only <;> linarith
  obtain ⟨x0, x1, y0, y1, h1, _, h3, _, a1, a2, a3, a4⟩ := h
  have p1 := hb _ h1
  have p3 := hb _ h3
  simp only at p1 p3
  exact ⟨by linarith, by linarith, by linarith, by linarith⟩

theorem inside_mirror {f : List (K × K)} {x y : K} (h : Inside (mirror f) x y) : Inside f x (-y) := by
  obtain ⟨x0, x1, y0, y1, a, b, c, d, e1, e2, e3, e4⟩ := h
  have hm : ∀ {p q}, (p, q) ∈ mirror f → (p, -q) ∈ f := by
    intro p q hp
    obtain ⟨z, hz, he⟩ := List.mem_map.1 hp
    obtain ⟨rfl, rfl⟩ := Prod.mk.inj he
    simpa using hz
  exact ⟨x0, x1, -y1, -y0, hm d, hm c, hm b, hm a, e1, e2, by linarith, by linarith⟩

/-- A point inside of a face lies in the place and the row of the face. -/
theorem inside_places {r : Row K} (hl : 0 ≤ r.lon) (hc : 0 ≤ r.cur) (hh : 0 ≤ r.height) {js : List Nat} {pent : Bool} {f : List (K × K)}
    (hf : f ∈ (drawPlaces r js pent).1) {x y : K} (h : Inside f x y) :
    (∃ j ∈ js, (j : K) * r.lon - 180 < x ∧ x < (j : K) * r.lon - 180 + r.lon) ∧ r.cur < |y| ∧ |y| < r.cur + r.height := by
  obtain ⟨j, b, hj, _, rfl | rfl⟩ := mem_drawPlaces hf
  · obtain ⟨h1, h2, h3, h4⟩ := inside_face hl hh h
    rw [abs_of_pos (by linarith)]
    exact ⟨⟨j, hj, h1, h2⟩, h3, h4⟩
  · obtain ⟨h1, h2, h3, h4⟩ := inside_face hl hh (inside_mirror h)
    rw [abs_of_neg (by linarith)]
    exact ⟨⟨j, hj, h1, h2⟩, h3, h4⟩

theorem places_apart {lon x : K} (hl : 0 ≤ lon) {i j : Nat} (hij : i ≠ j) (h1 : (i : K) * lon - 180 < x) (h2 : x < (i : K) * lon - 180 + lon)
    (h3 : (j : K) * lon - 180 < x) (h4 : x < (j : K) * lon - 180 + lon) : False := by
  rcases Nat.lt_or_gt_of_ne hij with h | h
  · have : ((i : K) + 1) ≤ j := by exact_mod_cast h
    have := mul_le_mul_of_nonneg_right this hl
    linarith
  · have : ((j : K) + 1) ≤ i := by exact_mod_cast h
    have := mul_le_mul_of_nonneg_right this hl
    linarith

theorem drawPlaces_apart {r : Row K} (hl : 0 ≤ r.lon) (hc : 0 ≤ r.cur) (hh : 0 ≤ r.height) {x y : K} : ∀ {js : List Nat} {pent : Bool}, js.Nodup →
    (drawPlaces r js pent).1.Pairwise fun f g => ¬ (Inside f x y ∧ Inside g x y) := by
  intro js
  induction js with
  | nil => intro pent _; simp [drawPlaces]
  | cons j js ih =>
    intro pent hnd
    obtain ⟨hj, hnd⟩ := List.nodup_cons.1 hnd
    rw [drawPlaces]
    split
    · simp only
      rw [List.pairwise_cons, List.pairwise_cons]
      refine ⟨?_, ?_, ih hnd⟩
      · intro g hg ⟨h1, h2⟩
        obtain ⟨a1, a2, a3, a4⟩ := inside_face hl hh h1
        rcases List.mem_cons.1 hg with rfl | hg
        · obtain ⟨_, _, b3, _⟩ := inside_face hl hh (inside_mirror h2)
          linarith
        · obtain ⟨⟨i, hi, b1, b2⟩, _⟩ := inside_places hl hc hh hg h2
          exact places_apart hl (by rintro rfl; exact hj hi) a1 a2 b1 b2
      · intro g hg ⟨h1, h2⟩
        obtain ⟨a1, a2, _, _⟩ := inside_face hl hh (inside_mirror h1)
        obtain ⟨⟨i, hi, b1, b2⟩, _⟩ := inside_places hl hc hh hg h2
        exact places_apart hl (by rintro rfl; exact hj hi) a1 a2 b1 b2
    · exact ih hnd

theorem rows_order {rad : K} {delta : K → K → K} {n : Nat} : ∀ {k : Nat} {s : Cursor K}, (∀ r ∈ rows rad delta n k s, 0 < r.height) →
    (∀ r ∈ rows rad delta n k s, s.cur ≤ r.cur) ∧ (rows rad delta n k s).Pairwise fun p q => p.cur + p.height ≤ q.cur := by
  intro k
  induction k with
  | zero => intro s _; simp [rows]
  | succ k ih =>
    intro s hp
    simp only [rows] at hp ⊢
    have h1 := hp (nextRow rad delta s) (by simp)
    by_cases hl : (nextRow rad delta s).last = true
    · rw [if_pos hl]
      simp [nextRow_cur]
    · rw [if_neg hl] at hp ⊢
      obtain ⟨i1, i2⟩ := ih (s := ⟨(nextRow rad delta s).cur + (nextRow rad delta s).height, (nextRow rad delta s).lon,
        (drawRow n (nextRow rad delta s)).2⟩) (fun r hr => hp r (by simp [hr]))
      simp only at i1
      constructor
      · intro r hr
        rcases List.mem_cons.1 hr with rfl | hr
        · rw [nextRow_cur]
        · have := i1 r hr
          rw [nextRow_cur] at this
          linarith
      · rw [List.pairwise_cons]
        exact ⟨i1, i2⟩

theorem faces_apart {rad : K} {delta : K → K → K} {n k : Nat} (hpos : ∀ r ∈ allRows rad delta n k, 0 < r.height) {x y : K} :
    ((allRows rad delta n k).flatMap fun r => (drawRow n r).1).Pairwise fun f g => ¬ (Inside f x y ∧ Inside g x y) := by
  have h0 := rows_top (rad := rad) (delta := delta) (n := n) (k := k) (s := start n) (by simp [start]) (by simp [start]) hpos
  have ho := (rows_order hpos).2
  rw [List.pairwise_flatMap]
  constructor
  · intro r hr
    exact drawPlaces_apart (allRows_lon_nonneg hr) (h0 r hr).1 (hpos r hr).le List.nodup_range
  · refine List.Pairwise.imp_of_mem ?_ ho
    intro p q hp hq hpq f hf g hg ⟨h1, h2⟩
    obtain ⟨_, _, a⟩ := inside_places (allRows_lon_nonneg hp) (h0 p hp).1 (hpos p hp).le hf h1
    obtain ⟨_, b, _⟩ := inside_places (allRows_lon_nonneg hq) (h0 q hq).1 (hpos q hq).le hg h2
    linarith

end Verif.Globe
