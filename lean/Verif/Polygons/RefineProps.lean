import Verif.Polygons.RefineModel
import Verif.Polygons.ParseProps
import Mathlib.Tactic.FieldSimp
import Mathlib.Tactic.Linarith
import Mathlib.Tactic.Positivity
/-!
# Property C25: polygon refinement keeps all vertices
-/
namespace Verif.Polygons

/-! ## Specification -/

/-- The sides that are refined: those from the start vertex to the end vertex, going around when
the end comes before the start. -/
def Refined (startIndex endIndex i : Nat) : Prop :=
  if startIndex < endIndex then startIndex ≤ i ∧ i < endIndex else i < endIndex ∨ startIndex ≤ i

instance (s e i : Nat) : Decidable (Refined s e i) := by unfold Refined; infer_instance

/-- The points `new` lie strictly between `a` and `b`, and divide the segment in equal pieces. -/
def Divides (a b : Pt) (new : List Pt) : Prop :=
  ∀ j, (hj : j < new.length) → new[j] = pointAt a b (((j : ℚ) + 1) / ((new.length : ℚ) + 1))

/-! ## Supporting lemmas -/

theorem segmentLoop_eq (a b : Pt) (n : Int) (fuel : Nat) (i : Int) (acc : List Pt) (h : n - i ≤ fuel) :
    segmentLoop a b n fuel i acc
      = acc ++ (List.range (n - i).toNat).map fun (j : Nat) => pointAt a b (((i + (j : Int) : Int) : ℚ) / (n : ℚ)) := by
  induction fuel generalizing i acc with
  | zero =>
    have : (n - i).toNat = 0 := by omega
    simp [segmentLoop, this]
  | succ f ih =>
    rw [segmentLoop]
    split_ifs with hi
    · rw [ih (i + 1) _ (by omega), show (n - i).toNat = (n - (i + 1)).toNat + 1 by omega, List.range_succ_eq_map]
      simp only [List.map_cons, List.map_map, List.append_assoc, List.singleton_append, Int.ofNat_zero, add_zero]
      congr 2
      apply List.map_congr_left
      intro j _
      simp only [Function.comp_apply, Nat.succ_eq_add_one]
      congr 2
      push_cast; ring
    · have : (n - i).toNat = 0 := by omega
      simp [this]

/-- The points put in a segment. -/
def newPoints (dist : Pt → Pt → ℚ) (d : ℚ) (a b : Pt) : List Pt :=
  (List.range ((lround (dist a b / d)) - 1).toNat).map fun (j : Nat) =>
    pointAt a b (((1 + (j : Int) : Int) : ℚ) / ((lround (dist a b / d)) : ℚ))

theorem refineSegment_eq (dist : Pt → Pt → ℚ) (d : ℚ) (acc : List Pt) (a b : Pt) :
    refineSegment dist d acc a b = acc ++ a :: newPoints dist d a b := by
  unfold refineSegment
  simp only []
  rw [segmentLoop_eq _ _ _ _ _ _ (by omega), newPoints, List.append_assoc, List.singleton_append]

theorem newPoints_divides (dist : Pt → Pt → ℚ) (d : ℚ) (a b : Pt) : Divides a b (newPoints dist d a b) := by
  intro j hj
  unfold newPoints at hj ⊢
  simp only [List.length_map, List.length_range] at hj
  simp only [List.getElem_map, List.getElem_range, List.length_map, List.length_range]
  congr 1
  have : ((lround (dist a b / d) : Int) : ℚ) = (((lround (dist a b / d)) - 1).toNat : ℚ) + 1 := by
    have h : (lround (dist a b / d)) = (((lround (dist a b / d)) - 1).toNat : Int) + 1 := by omega
    have := congrArg (Int.cast (R := ℚ)) h
    rw [this]; push_cast; rfl
  rw [this]
  push_cast
  congr 1; ring

theorem refineLoop_eq (dist : Pt → Pt → ℚ) (d : ℚ) (nodes : List Pt) (count i : Nat) (acc : List Pt)
    (h : i + count < nodes.length) :
    refineLoop dist d nodes count i acc = .ok (acc ++
      (sides ((nodes.drop i).take (count + 1))).flatMap fun s => s.1 :: newPoints dist d s.1 s.2) := by
  induction count generalizing i acc with
  | zero =>
    have e1 : nodes.drop i = nodes[i] :: nodes.drop (i + 1) := List.drop_eq_getElem_cons (by omega)
    rw [e1, List.take_succ_cons]
    simp [refineLoop, sides]
  | succ n ih =>
    rw [refineLoop, vget, List.getElem?_eq_getElem (show i < nodes.length by omega), Res.ok_bind, vget,
      List.getElem?_eq_getElem (show i + 1 < nodes.length by omega), Res.ok_bind, ih (i + 1) _ (by omega), refineSegment_eq]
    have e1 : nodes.drop i = nodes[i] :: nodes.drop (i + 1) := List.drop_eq_getElem_cons (by omega)
    have e2 : nodes.drop (i + 1) = nodes[i + 1] :: nodes.drop (i + 1 + 1) := List.drop_eq_getElem_cons (by omega)
    have e3 : sides ((nodes.drop i).take (n + 1 + 1)) = (nodes[i], nodes[i + 1]) :: sides ((nodes.drop (i + 1)).take (n + 1)) := by
      rw [e1, List.take_succ_cons]
      rw [e2, List.take_succ_cons]; rfl
    rw [e3, List.flatMap_cons]
    simp

/-- The refined ring from position `i` on, when side `j` gets the points `new j`. -/
def woven (new : Nat → List Pt) : Nat → List Pt → List Pt
  | _, [] => []
  | _, [a] => [a]
  | i, a :: b :: rest => a :: new i ++ woven new (i + 1) (b :: rest)

theorem woven_none (new : Nat → List Pt) (i : Nat) (l : List Pt) (h : ∀ j, i ≤ j → j + 1 < i + l.length → new j = []) :
    woven new i l = l := by
  induction l generalizing i with
  | nil => rfl
  | cons a l ih =>
    cases l with
    | nil => rfl
    | cons b l =>
      rw [woven, h i (le_refl _) (by simp), ih (i + 1) (fun j h1 h2 => h j (by omega) (by simp at h2 ⊢; omega))]
      rfl

theorem woven_split (new : Nat → List Pt) (i k : Nat) (l : List Pt) (hk : k < l.length) :
    woven new i l = (woven new i (l.take (k + 1))).dropLast ++ woven new (i + k) (l.drop k) := by
  induction l generalizing i k with
  | nil => simp at hk
  | cons a l ih =>
    cases k with
    | zero => simp [woven]
    | succ k =>
      cases l with
      | nil => simp at hk
      | cons b l =>
        have := ih (i + 1) k (by simpa using hk)
        rw [woven, this]
        have hne : woven new (i + 1) ((b :: l).take (k + 1)) ≠ [] := by
          cases l with
          | nil => simp [woven]
          | cons c l => cases k <;> simp [woven]
        have e : (a :: b :: l).take (k + 1 + 1) = a :: b :: l.take k := by simp
        have e' : (b :: l).take (k + 1) = b :: l.take k := by simp
        rw [e'] at hne
        rw [e, woven, e']
        rw [List.drop_succ_cons, show i + 1 + k = i + (k + 1) by omega,
          List.dropLast_append_of_ne_nil hne, List.append_assoc]

theorem woven_all (dist : Pt → Pt → ℚ) (d : ℚ) (new : Nat → List Pt) (i : Nat) (l : List Pt)
    (h : ∀ j a b, l[j]? = some a → l[j + 1]? = some b → new (i + j) = newPoints dist d a b) :
    (woven new i l).dropLast = (sides l).flatMap fun s => s.1 :: newPoints dist d s.1 s.2 := by
  induction l generalizing i with
  | nil => rfl
  | cons a l ih =>
    cases l with
    | nil => rfl
    | cons b l =>
      have e : sides (a :: b :: l) = (a, b) :: sides (b :: l) := rfl
      have hne : woven new (i + 1) (b :: l) ≠ [] := by
        cases l <;> simp [woven]
      rw [woven, e, List.flatMap_cons, List.dropLast_append_of_ne_nil hne, ih (i + 1) ?_]
      · rw [← h 0 a b rfl rfl]; rfl
      · intro j a' b' h1 h2
        rw [show i + 1 + j = i + (j + 1) by omega]
        exact h (j + 1) a' b' (by simpa using h1) (by simpa using h2)

theorem woven_sublist (new : Nat → List Pt) (i : Nat) (l : List Pt) : l.Sublist (woven new i l) := by
  induction l generalizing i with
  | nil => exact List.Sublist.refl _
  | cons a l ih =>
    cases l with
    | nil => exact List.Sublist.refl _
    | cons b l =>
      rw [woven, List.cons_append]
      exact (List.Sublist.trans (ih (i + 1)) (List.sublist_append_right _ _)).cons₂ a

theorem woven_ends (new : Nat → List Pt) (i : Nat) (l : List Pt) :
    (woven new i l).head? = l.head? ∧ (woven new i l).getLast? = l.getLast? := by
  induction l generalizing i with
  | nil => exact ⟨rfl, rfl⟩
  | cons a l ih =>
    cases l with
    | nil => exact ⟨rfl, rfl⟩
    | cons b l =>
      refine ⟨by simp [woven], ?_⟩
      have h := (ih (i + 1)).2
      rw [woven, List.getLast?_append, h, List.getLast?_cons_cons, List.getLast?_cons, Option.some_or]

/-- The points that the sides get. -/
def newFor (dist : Pt → Pt → ℚ) (d : ℚ) (nodes : List Pt) (s e i : Nat) : List Pt :=
  if Refined s e i then
    match nodes[i]?, nodes[i + 1]? with
    | some a, some b => newPoints dist d a b
    | _, _ => []
  else []

theorem refine_eq_woven (dist : Pt → Pt → ℚ) (d : ℚ) (nodes : List Pt) (s e : Nat) (hs : s < nodes.length)
    (he : e < nodes.length) (hse : s ≠ e) :
    refine dist d nodes s e = .ok (woven (newFor dist d nodes s e) 0 nodes) := by
  have hsome : ∀ (i k c : Nat) (a b : Pt), ((nodes.drop i).take c)[k]? = some a → ((nodes.drop i).take c)[k + 1]? = some b →
      Refined s e (i + k) → newFor dist d nodes s e (i + k) = newPoints dist d a b := by
    intro i k c a b h1 h2 hr
    rw [List.getElem?_take] at h1 h2
    split at h1
    · split at h2
      · rw [List.getElem?_drop] at h1 h2
        rw [← Nat.add_assoc] at h2
        rw [newFor, if_pos hr, h1, h2]
      · cases h2
    · cases h1
  unfold refine
  rw [if_neg hse, if_neg (by omega)]
  split_ifs with hlt
  · rw [refineLoop_eq _ _ _ _ _ _ (by omega), Res.ok_bind]
    congr 1
    rw [woven_split _ 0 s nodes hs, woven_split _ (0 + s) (e - s) (nodes.drop s) (by simp; omega)]
    rw [woven_none _ 0 (nodes.take (s + 1)), woven_all dist d _ (0 + s), woven_none _ (0 + s + (e - s))]
    · have e1 : (nodes.take (s + 1)).dropLast = nodes.take s := by
        rw [List.dropLast_eq_take, List.take_take]; congr 1; simp; omega
      rw [e1, List.drop_drop, show s + (e - s) = e by omega, List.append_assoc]
    · intro j h1 h2
      rw [newFor, if_neg]
      unfold Refined; rw [if_pos hlt]; omega
    · intro j a b h1 h2
      rw [Nat.zero_add]
      refine hsome s j _ a b h1 h2 ?_
      have : j + 1 < ((nodes.drop s).take (e - s + 1)).length := by
        rw [List.getElem?_eq_some_iff] at h2; exact h2.1
      simp at this
      unfold Refined; rw [if_pos hlt]; omega
    · intro j h1 h2
      rw [newFor, if_neg]
      simp at h2
      unfold Refined; rw [if_pos hlt]; omega
  · have hlt' : e < s := by omega
    rw [refineLoop_eq _ _ _ _ _ _ (by omega), Res.ok_bind]
    simp only []
    rw [refineLoop_eq _ _ _ _ _ _ (by omega), Res.ok_bind, vget,
      List.getElem?_eq_getElem (show nodes.length - 1 < nodes.length by omega), Res.ok_bind]
    congr 1
    rw [woven_split _ 0 e nodes he, woven_split _ (0 + e) (s - e) (nodes.drop e) (by simp; omega)]
    rw [woven_all dist d _ 0, woven_none _ (0 + e), List.drop_drop, show e + (s - e) = s by omega,
      show 0 + e + (s - e) = s by omega]
    · have e1 : ((nodes.drop e).take (s - e + 1)).dropLast = (nodes.take s).drop e := by
        rw [List.dropLast_eq_take, List.take_take, List.drop_take]; congr 1; simp; omega
      have hw : woven (newFor dist d nodes s e) s (nodes.drop s)
          = (sides (nodes.drop s)).flatMap (fun s => s.1 :: newPoints dist d s.1 s.2) ++ [nodes[nodes.length - 1]] := by
        have hne : woven (newFor dist d nodes s e) s (nodes.drop s) ≠ [] := by
          have := (woven_ends (newFor dist d nodes s e) s (nodes.drop s)).1
          intro h0
          rw [h0, List.head?_drop, List.getElem?_eq_getElem hs] at this
          cases this
        rw [← List.dropLast_concat_getLast hne, woven_all dist d _ s]
        · congr 2
          have := (woven_ends (newFor dist d nodes s e) s (nodes.drop s)).2
          rw [List.getLast?_eq_getLast_of_ne_nil hne, List.getLast?_drop, if_neg (by omega),
            List.getLast?_eq_getElem?, List.getElem?_eq_getElem (by omega)] at this
          exact Option.some.inj this
        · intro j a b h1 h2
          have hh := hsome s j (nodes.drop s).length a b (by rw [List.take_length]; exact h1) (by rw [List.take_length]; exact h2)
          refine hh ?_
          unfold Refined; rw [if_neg hlt]; omega
      rw [e1, hw, show nodes.length - 1 - s + 1 = (nodes.drop s).length by simp; omega, List.take_length]
      simp
    · intro j h1 h2
      rw [newFor, if_neg]
      simp at h2
      unfold Refined; rw [if_neg hlt]; omega
    · intro j a b h1 h2
      rw [Nat.zero_add]
      have := hsome 0 j _ a b (by simpa using h1) (by simpa using h2)
      rw [Nat.zero_add] at this
      refine this ?_
      have : j + 1 < (nodes.take (e + 1)).length := by
        rw [List.getElem?_eq_some_iff] at h2; exact h2.1
      simp at this
      unfold Refined; rw [if_neg hlt]; omega

/-! ## Theorems -/

/-- **C25.** Refinement between two different vertices: the result is the ring with, after each vertex `i`, the
list `new i` put in.  Sides outside the range get no points; a side in the range gets points that
divide it in as many equal pieces as the wanted length fits in it (rounded). -/
theorem refine_adds_points_on_sides (dist : Pt → Pt → ℚ) (d : ℚ) (nodes : List Pt) (s e : Nat)
    (hs : s < nodes.length) (he : e < nodes.length) (hse : s ≠ e) :
    ∃ new : Nat → List Pt, refine dist d nodes s e = .ok (woven new 0 nodes) ∧
      (∀ i, ¬ Refined s e i → new i = []) ∧
      ∀ i a b, nodes[i]? = some a → nodes[i + 1]? = some b → Divides a b (new i) ∧
        (Refined s e i → (new i).length = (lround (dist a b / d) - 1).toNat) := by
  refine ⟨_, refine_eq_woven dist d nodes s e hs he hse, ?_, ?_⟩
  · intro i hi; rw [newFor, if_neg hi]
  · intro i a b ha hb
    rw [newFor]
    split_ifs with hr
    · rw [ha, hb]; exact ⟨newPoints_divides dist d a b, fun _ => by simp [newPoints]⟩
    · exact ⟨fun j hj => by simp at hj, fun h => absurd h hr⟩

/-- **C25.** All vertices are kept in order, and so are the first and the last one: the ring stays
closed. -/
theorem refine_keeps_vertices (dist : Pt → Pt → ℚ) (d : ℚ) (nodes : List Pt) (s e : Nat) (r : List Pt)
    (h : refine dist d nodes s e = .ok r) :
    nodes.Sublist r ∧ r.head? = nodes.head? ∧ r.getLast? = nodes.getLast? := by
  by_cases hse : s = e
  · rw [refine, if_pos hse] at h; cases h; exact ⟨List.Sublist.refl _, rfl, rfl⟩
  · by_cases hb : s ≥ nodes.length ∨ e ≥ nodes.length
    · rw [refine, if_neg hse, if_pos hb] at h; cases h
    · rw [refine_eq_woven dist d nodes s e (by omega) (by omega) hse] at h
      cases h
      exact ⟨woven_sublist _ _ _, woven_ends _ _ _⟩

/-- A point that divides a side lies on it. -/
theorem Divides.onSegment {a b : Pt} {new : List Pt} (h : Divides a b new) : ∀ p ∈ new, OnSegment a b p := by
  intro p hp
  obtain ⟨j, hj, rfl⟩ := List.getElem_of_mem hp
  rw [h j hj]
  refine ⟨((j : ℚ) + 1) / ((new.length : ℚ) + 1), by positivity, ?_, rfl, rfl⟩
  rw [div_le_one (by positivity)]
  have : (j : ℚ) + 1 ≤ new.length := by exact_mod_cast hj
  linarith

theorem mem_woven {new : Nat → List Pt} {i : Nat} {l : List Pt} {p : Pt} (h : p ∈ woven new i l) :
    p ∈ l ∨ ∃ j, j + 1 < l.length ∧ p ∈ new (i + j) := by
  induction l generalizing i with
  | nil => simp [woven] at h
  | cons a l ih =>
    cases l with
    | nil => left; simpa [woven] using h
    | cons b l =>
      rw [woven, List.cons_append, List.mem_cons, List.mem_append] at h
      rcases h with h | h | h
      · left; simp [h]
      · right; exact ⟨0, by simp, h⟩
      · rcases ih h with h | ⟨j, h1, h2⟩
        · left; exact List.mem_cons_of_mem _ h
        · right; exact ⟨j + 1, by simpa using h1, by rw [show i + (j + 1) = i + 1 + j by omega]; exact h2⟩

/-- **C25.** Every point of the result is a vertex or lies on a refined side. -/
theorem refine_points_on_refined_sides (dist : Pt → Pt → ℚ) (d : ℚ) (nodes : List Pt) (s e : Nat) (r : List Pt)
    (h : refine dist d nodes s e = .ok r) :
    ∀ p ∈ r, p ∈ nodes ∨ ∃ i a b, Refined s e i ∧ nodes[i]? = some a ∧ nodes[i + 1]? = some b ∧ OnSegment a b p := by
  intro p hp
  by_cases hse : s = e
  · rw [refine, if_pos hse] at h; cases h; exact .inl hp
  · by_cases hb : s ≥ nodes.length ∨ e ≥ nodes.length
    · rw [refine, if_neg hse, if_pos hb] at h; cases h
    · obtain ⟨new, h1, h2, h3⟩ := refine_adds_points_on_sides dist d nodes s e (by omega) (by omega) hse
      rw [h1] at h; cases h
      rcases mem_woven hp with hp | ⟨j, hj, hp⟩
      · exact .inl hp
      · right
        rw [Nat.zero_add] at hp
        refine ⟨j, nodes[j]'(by omega), nodes[j + 1]'hj, ?_, List.getElem?_eq_getElem _, List.getElem?_eq_getElem _, ?_⟩
        · by_contra hr; rw [h2 j hr] at hp; cases hp
        · exact (h3 j _ _ (List.getElem?_eq_getElem _) (List.getElem?_eq_getElem _)).1.onSegment p hp

/-- **C25.** A side with length `len` is divided in `n` pieces with lengths closest to the wanted
one: they differ from it by at most half of it divided by the number of pieces. -/
theorem piece_length (len d : ℚ) (hd : 0 < d) (hl : 0 ≤ len) (hn : 1 ≤ lround (len / d)) :
    |len / (lround (len / d) : ℚ) - d| ≤ d / (2 * (lround (len / d) : ℚ)) := by
  have hq : 0 ≤ len / d := by positivity
  generalize hm : lround (len / d) = n at *
  rw [lround, if_pos hq] at hm
  have h1 := Int.floor_le (len / d + 1 / 2)
  have h2 := Int.lt_floor_add_one (len / d + 1 / 2)
  rw [hm] at h1 h2
  have hn' : (1 : ℚ) ≤ n := by exact_mod_cast hn
  have e1 : len = (len / d) * d := by field_simp
  rw [abs_le]
  have hlen1 : (n - 1 / 2 : ℚ) * d ≤ len := by rw [e1]; apply mul_le_mul_of_nonneg_right _ hd.le; linarith
  have hlen2 : len ≤ (n + 1 / 2 : ℚ) * d := by rw [e1]; apply mul_le_mul_of_nonneg_right _ hd.le; linarith
  constructor
  · rw [← sub_nonneg]
    have : len / n - d - -(d / (2 * n)) = (len - (n - 1 / 2) * d) / n := by field_simp; ring
    rw [this]
    exact div_nonneg (by linarith) (by linarith)
  · rw [← sub_nonneg]
    have : d / (2 * n) - (len / n - d) = ((n + 1 / 2) * d - len) / n := by field_simp; ring
    rw [this]
    exact div_nonneg (by linarith) (by linarith)

/-- **C25.** Invalid positions are refused. -/
theorem refine_throws_iff (dist : Pt → Pt → ℚ) (d : ℚ) (nodes : List Pt) (s e : Nat) :
    refine dist d nodes s e = .throw ↔ s ≠ e ∧ (nodes.length ≤ s ∨ nodes.length ≤ e) := by
  by_cases hse : s = e
  · simp [refine, hse]
  · by_cases hb : s ≥ nodes.length ∨ e ≥ nodes.length
    · simp [refine, hse, hb]
    · rw [refine_eq_woven dist d nodes s e (by omega) (by omega) hse]
      constructor
      · intro h; cases h
      · intro h; omega

/-- **C25, violated.** Equal positions outside the ring are not refused. -/
theorem refine_accepts_equal_positions (dist : Pt → Pt → ℚ) (d : ℚ) (nodes : List Pt) :
    refine dist d nodes (nodes.length + 7) (nodes.length + 7) = .ok nodes := by
  simp [refine]

/-- **C25.** On a list of polygons: positions of two vertices of an outer ring in the flat list refine
that ring, and `(0, 0)` all sides of the first ring. -/
theorem refine_first_polygon (dist : Pt → Pt → ℚ) (d : ℚ) (as : List Area) (h : ∀ a ∈ as, a.Separable)
    (hc : ∀ a ∈ as, ∀ r ∈ a.rings, ClosedRing r) (k : Nat) (a : Area) (hk : as[k]? = some a)
    (s e : Nat) (hs : s < a.1.length) (he : e < a.1.length) :
    ∃ P, polygonsCtor (flat as) = .ok P ∧
      refineFirstPolygon dist d P (startOf as k + s) (startOf as k + e) = refine dist d a.1 s
        (if startOf as k + s = 0 ∧ startOf as k + e = 0 then a.1.length - 1 else e) := by
  have hlen : ∀ b ∈ as, 4 ≤ b.1.length := fun b hb => (hc b hb b.1 (by simp [Area.rings])).1
  refine ⟨_, polygonsCtor_ok as h hc, ?_⟩
  have hP := polygonsCtor_ok as h hc
  cases as with
  | nil => simp at hk
  | cons b bs =>
    simp only [refineFirstPolygon, List.map_cons]
    by_cases h0 : startOf (b :: bs) k + s = 0 ∧ startOf (b :: bs) k + e = 0
    · rw [if_pos h0]
      have hk0 : k = 0 := by
        cases k with
        | zero => rfl
        | succ k => have := h0.1; rw [startOf_succ] at this; omega
      subst hk0
      simp only [List.getElem?_cons_zero, Option.some.injEq] at hk
      subst hk
      have e0 : startOf (b :: bs) 0 = 0 := by simp [startOf]
      have hb4 := hlen b (by simp)
      obtain ⟨P', h1, _, _, h4⟩ := polygon_index_finds_vertices (b :: bs) h hc 0 b rfl 0 (b.1.length - 1) (by omega) (by omega)
      rw [hP] at h1
      have h1' := Res.ok.inj h1
      rw [← h1'] at h4
      rw [e0] at h4 h0 ⊢
      have hs0 : s = 0 := by omega
      subst hs0
      simp only [Nat.zero_add] at h4 ⊢
      rw [if_neg (by omega)] at h4
      rw [if_pos ⟨trivial, by omega⟩] 
      simp only [List.map_cons] at h4
      rw [h4, Res.ok_bind]
      simp [refinePolygon]
    · rw [if_neg h0]
      obtain ⟨P', h1, _, _, h4⟩ := polygon_index_finds_vertices (b :: bs) h hc k a hk s e hs he
      rw [hP] at h1
      have h1' := Res.ok.inj h1
      rw [← h1', if_neg h0] at h4
      simp only [List.map_cons] at h4
      rw [if_neg h0, h4, Res.ok_bind]
      simp only [refinePolygon]
      have : (({ outer := b.1, inner := b.2 } : Enclosure) :: List.map (fun a => { outer := a.1, inner := a.2 }) bs)[k]?
          = some ⟨a.1, a.2⟩ := by
        have := congrArg (Option.map fun a : Area => (⟨a.1, a.2⟩ : Enclosure)) hk
        rw [← List.getElem?_map] at this
        simpa using this
      rw [this]

/-! ## The hypotheses can be met -/

/-- Distance along the axes; the true distance on sides parallel to an axis. -/
def axisDist (a b : Pt) : ℚ := |a.x - b.x| + |a.y - b.y|

example : refine axisDist 1 [⟨0, 0⟩, ⟨2, 0⟩, ⟨2, 3⟩, ⟨0, 3⟩, ⟨0, 0⟩] 3 1
    = .ok [⟨0, 0⟩, ⟨1, 0⟩, ⟨2, 0⟩, ⟨2, 3⟩, ⟨0, 3⟩, ⟨0, 2⟩, ⟨0, 1⟩, ⟨0, 0⟩] := by decide +kernel

end Verif.Polygons
