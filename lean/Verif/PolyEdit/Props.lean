import Verif.PolyEdit.ApiLemmas
import Verif.Polygons.ContainsProps
import Mathlib.Tactic.NormNum
/-!
# Theorems: offsetting, snapping and selecting with polygons
-/
namespace Verif.PolyEdit
open Verif.Polygons

/-! ## C79: offsets -/

section
variable {K : Type} [Field K] [LinearOrder K] [IsStrictOrderedRing K]

/-- **C79.** The offset of a closed ring in which no side goes straight back over the one before it: for every distance
it is a closed ring with as many points, and both ends of every side are moved to precisely this distance to the left of the
side, so that the new side is parallel to the old one; to the right for a negative distance. -/
theorem ring_offset {len : Vec K → K} {r : List (Vec K)} (h : Loop r) (hl : Lengths len r) (hs : NoSpike r) :
    ∃ ns, normals len r = .ok ns ∧ ∀ d : K, (moved d r ns).length = r.length ∧ Loop (moved d r ns) ∧
      ∀ (k : Nat) (a b a' b' : Vec K), r[k]? = some a → r[k + 1]? = some b → (moved d r ns)[k]? = some a' → (moved d r ns)[k + 1]? = some b' →
        LeftBy len d a b a' ∧ LeftBy len d a b b' := by
  refine ⟨_, normals_ok len (by have := h.1; omega), fun d => ⟨moved_length d (corners_length _ _ _ _), moved_first_last len d h, ?_⟩⟩
  intro k a b a' b' ha hb ha' hb'
  exact side_moved h hl hs d ha hb ha' hb'

end

/-- The sides of the square are as long as this. -/
def unitLen (v : Vec ℚ) : ℚ := |v.x| + |v.y|

/-- A square, counterclockwise. -/
def square : List Pt := [⟨0, 0⟩, ⟨10, 0⟩, ⟨10, 10⟩, ⟨0, 10⟩, ⟨0, 0⟩]

theorem square_lengths : Lengths unitLen (square.map toVec) := by
  intro k a b ha hb
  have hk : k < 4 := by
    have := (List.getElem?_eq_some_iff.1 hb).1
    simp [square] at this
    omega
  match k, hk with
  | 0, _ => cases ha; cases hb; unfold LengthAt unitLen toVec; norm_num
  | 1, _ => cases ha; cases hb; unfold LengthAt unitLen toVec; norm_num
  | 2, _ => cases ha; cases hb; unfold LengthAt unitLen toVec; norm_num
  | 3, _ => cases ha; cases hb; unfold LengthAt unitLen toVec; norm_num

theorem square_loop : Loop (square.map toVec) := ⟨by decide, rfl⟩

theorem square_noSpike : NoSpike (square.map toVec) := by
  constructor
  · intro k a b ha hb
    have hk : k < 4 := by
      have := (List.getElem?_eq_some_iff.1 hb).1
      simp [square] at this
      omega
    match k, hk with
    | 0, _ => cases ha; cases hb; simp [toVec]
    | 1, _ => cases ha; cases hb; simp [toVec]
    | 2, _ => cases ha; cases hb; simp [toVec]
    | 3, _ => cases ha; cases hb; simp [toVec]
  · rintro a b c (⟨k, ha, hb, hc⟩ | ⟨ha, hb, hc⟩) ⟨t, ht, h1, h2⟩
    · have hk : k < 3 := by
        have := (List.getElem?_eq_some_iff.1 hc).1
        simp [square] at this
        omega
      match k, hk with
      | 0, _ => cases ha; cases hb; cases hc; simp [toVec] at h1 h2
      | 1, _ => cases ha; cases hb; cases hc; simp [toVec] at h1 h2
      | 2, _ => cases ha; cases hb; cases hc; simp [toVec] at h1 h2
    · cases ha; cases hb; cases hc
      simp [toVec] at h1 h2

example : ∃ ns, normals unitLen (square.map toVec) = .ok ns ∧ Loop (moved 1 (square.map toVec) ns) := by
  obtain ⟨ns, h1, h2⟩ := ring_offset square_loop square_lengths square_noSpike
  exact ⟨ns, h1, (h2 1).2.1⟩

theorem flat_one (r : List Pt) : flat [(r, [])] = r := by simp [flat, Area.rings]

theorem flat_two (r s : List Pt) : flat [(r, []), (s, [])] = r ++ outerSep :: s := by simp [flat, Area.rings]

theorem ctor_one {r : List Pt} (h : Readable r) : ∃ P : PolyList, polygonsCtor r = .ok P ∧ P.enclosures = [⟨r, []⟩] ∧ P.numNodes = r.length ∧ P.gather = r := by
  have hs : ∀ a ∈ ([(r, [])] : List Area), a.Separable := by
    intro a ha
    rw [List.mem_singleton] at ha
    subst ha
    refine ⟨fun x hx => ?_, by simp⟩
    simp only [Area.rings, List.mem_singleton] at hx
    subst hx
    exact h.1
  have hc : ∀ a ∈ ([(r, [])] : List Area), ∀ x ∈ a.rings, ClosedRing x := by
    intro a ha x hx
    rw [List.mem_singleton] at ha
    subst ha
    simp only [Area.rings, List.mem_singleton] at hx
    subst hx
    exact h.2
  have := polygonsCtor_ok [(r, [])] hs hc
  rw [flat_one] at this
  exact ⟨_, this, rfl, rfl, by simp [PolyList.gather, gatherLoop, Enclosure.gather]⟩

theorem ctor_two {r s : List Pt} (h : Readable r) (h' : Readable s) : ∃ P : PolyList, polygonsCtor (r ++ outerSep :: s) = .ok P ∧
    P.numNodes = (r ++ outerSep :: s).length ∧ P.gather = r ++ outerSep :: s := by
  have hs : ∀ a ∈ ([(r, []), (s, [])] : List Area), a.Separable := by
    intro a ha
    simp only [List.mem_cons, List.not_mem_nil, or_false] at ha
    rcases ha with rfl | rfl
    · refine ⟨fun x hx => ?_, by simp⟩
      simp only [Area.rings, List.mem_singleton] at hx
      subst hx
      exact h.1
    · refine ⟨fun x hx => ?_, by simp⟩
      simp only [Area.rings, List.mem_singleton] at hx
      subst hx
      exact h'.1
  have hc : ∀ a ∈ ([(r, []), (s, [])] : List Area), ∀ x ∈ a.rings, ClosedRing x := by
    intro a ha x hx
    simp only [List.mem_cons, List.not_mem_nil, or_false] at ha
    rcases ha with rfl | rfl
    · simp only [Area.rings, List.mem_singleton] at hx
      subst hx
      exact h.2
    · simp only [Area.rings, List.mem_singleton] at hx
      subst hx
      exact h'.2
  have := polygonsCtor_ok _ hs hc
  have hg := gatherLoop_flat ([(r, []), (s, [])] : List Area)
  rw [flat_two] at this hg
  exact ⟨_, this, rfl, hg⟩

/-- **C79, partial.** The offset of one polygon without holes through the API: without the inward flag the count is that of
the polygon and the points written are a closed ring of as many points, each side `d` to the right of the old one; with the
flag both the ring `d` to the right and the one `d` to the left are counted and written, with a separator between them.
Provided the new rings do not contain a coordinate that means a separator. Missing: several polygons and holes, for which it
is false (`offset_hole_ub`, `offset_two_throws`). -/
theorem offset_written_partial (len : Vec ℚ → ℚ) {r : List Pt} (hr : Readable r) (hn : NoRepeats r) (h : Loop (r.map toVec))
    (hl : Lengths len (r.map toVec)) (hs : NoSpike (r.map toVec)) (d : ℚ) :
    ∃ o o' : List Pt, o.length = r.length ∧ o'.length = r.length ∧ Loop (o.map toVec) ∧ Loop (o'.map toVec) ∧
      (∀ (k : Nat) (a b p q : Pt), r[k]? = some a → r[k + 1]? = some b → o[k]? = some p → o[k + 1]? = some q →
        LeftBy len (-d) (toVec a) (toVec b) (toVec p) ∧ LeftBy len (-d) (toVec a) (toVec b) (toVec q)) ∧
      (∀ (k : Nat) (a b p q : Pt), r[k]? = some a → r[k + 1]? = some b → o'[k]? = some p → o'[k + 1]? = some q →
        LeftBy len d (toVec a) (toVec b) (toVec p) ∧ LeftBy len d (toVec a) (toVec b) (toVec q)) ∧
      (Readable o → ∀ inward : Int, inward ≠ 1 → countOffset len r inward d = .ok r.length ∧ getOffset len r inward d r.length = .ok o) ∧
      (Readable o → Readable o' → countOffset len r 1 d = .ok (2 * r.length + 1) ∧
        getOffset len r 1 d (2 * r.length + 1) = .ok (o ++ outerSep :: o')) := by
  obtain ⟨ns, h1, h2⟩ := ring_offset h hl hs
  have back : ∀ l : List (Vec ℚ), (l.map toPt).map toVec = l := by
    intro l
    rw [List.map_map]
    exact List.map_id _
  have hlen : ∀ s, ((moved s (r.map toVec) ns).map toPt).length = r.length := by
    intro s
    rw [List.length_map, (h2 s).1, List.length_map]
  have side : ∀ (s : ℚ) (k : Nat) (a b p q : Pt), r[k]? = some a → r[k + 1]? = some b →
      ((moved s (r.map toVec) ns).map toPt)[k]? = some p → ((moved s (r.map toVec) ns).map toPt)[k + 1]? = some q →
      LeftBy len s (toVec a) (toVec b) (toVec p) ∧ LeftBy len s (toVec a) (toVec b) (toVec q) := by
    intro s k a b p q ha hb hp hq
    refine (h2 s).2.2 k (toVec a) (toVec b) (toVec p) (toVec q) (by rw [List.getElem?_map, ha]; rfl) (by rw [List.getElem?_map, hb]; rfl) ?_ ?_
    · rw [← back (moved s (r.map toVec) ns), List.getElem?_map, hp]
      rfl
    · rw [← back (moved s (r.map toVec) ns), List.getElem?_map, hq]
      rfl
  refine ⟨(moved (-d) (r.map toVec) ns).map toPt, (moved d (r.map toVec) ns).map toPt, hlen _, hlen _, by rw [back]; exact (h2 _).2.1,
    by rw [back]; exact (h2 _).2.1, side _, side _, ?_, ?_⟩
  · intro ho inward hi
    obtain ⟨P, p1, p2, p3, -⟩ := ctor_one hr
    obtain ⟨N, q1, q2, q3, q4⟩ := ctor_one ho
    have hoff : offsetCopy len P d (decide (inward = 1)) = .ok N := by
      unfold offsetCopy
      rw [p2, decide_eq_false hi]
      simp only [Bool.false_eq_true, if_false]
      rw [enclosuresLoop]
      simp only [computeOffset]
      rw [h1, Res.ok_bind]
      simp only [Bool.false_eq_true, if_false]
      rw [Res.ok_bind, putFrom_ok _ _ _ (by rw [hlen, List.length_replicate, p3]; omega), Res.ok_bind]
      rw [holesLoop, Res.ok_bind, enclosuresLoop, Res.ok_bind]
      rw [← q1]
      congr 1
      rw [hlen, List.take_zero, List.nil_append, p3, List.drop_replicate]
      simp
    unfold countOffset getOffset
    rw [pointVector_eq hn, p1, Res.ok_bind, hoff, Res.ok_bind, q3, hlen, Res.ok_bind]
    refine ⟨rfl, ?_⟩
    rw [hoff, Res.ok_bind, q4]
    unfold written
    rw [hlen, if_neg (by omega), ← hlen (-d), List.take_length]
  · intro ho ho'
    obtain ⟨P, p1, p2, p3, -⟩ := ctor_one hr
    obtain ⟨N, q1, q3, q4⟩ := ctor_two ho ho'
    have hboth : ((moved (-d) (r.map toVec) ns).map toPt ++ outerSep :: (moved d (r.map toVec) ns).map toPt).length = 2 * r.length + 1 := by
      rw [List.length_append, List.length_cons, hlen, hlen]
      omega
    have hoff : offsetCopy len P d true = .ok N := by
      unfold offsetCopy
      rw [p2]
      simp only [if_true]
      rw [enclosuresLoop]
      simp only [computeOffset]
      rw [h1, Res.ok_bind]
      simp only [if_true]
      rw [Res.ok_bind, putFrom_ok _ _ _ (by rw [hboth, List.length_replicate, p3]; omega), Res.ok_bind]
      rw [holesLoop, Res.ok_bind, enclosuresLoop, Res.ok_bind]
      rw [← q1]
      congr 1
      rw [hboth, List.take_zero, List.nil_append, p3, List.drop_replicate]
      have : r.length + (r.length + 1) - (0 + (2 * r.length + 1)) = 0 := by omega
      rw [this]
      simp
    unfold countOffset getOffset
    rw [pointVector_eq hn, p1, Res.ok_bind, decide_eq_true rfl, hoff, Res.ok_bind, q3, hboth, Res.ok_bind]
    refine ⟨rfl, ?_⟩
    rw [hoff, Res.ok_bind, q4]
    unfold written
    rw [hboth, if_neg (by omega), ← hboth, List.take_length]

/-- **C79, negation.** Polygons with a hole that are accepted, offset without the inward flag: the points of the hole are
written behind the end of the list. -/
theorem offset_hole_ub (len : Vec ℚ → ℚ) {input : List Pt} {P : PolyList} (h : polygonsCtor (pointVector input) = .ok P)
    (hh : ∃ e ∈ P.enclosures, e.inner ≠ []) (inward : Int) (hi : inward ≠ 1) (d : ℚ) (count : Nat) :
    countOffset len input inward d = .ub ∧ getOffset len input inward d count = .ub := by
  have hc : ∀ e ∈ P.enclosures, ∀ x ∈ e.outer :: e.inner, ClosedRing x := by
    unfold polygonsCtor at h
    obtain ⟨r, h1, h2⟩ := Res.bind_eq_ok.1 h
    cases h2
    exact rings_of_loop h1
  have hn : (P.enclosures.map fun e => e.outer.length).sum ≤ P.numNodes := by
    unfold polygonsCtor at h
    obtain ⟨r, h1, h2⟩ := Res.bind_eq_ok.1 h
    cases h2
    simp only
    clear hc hh h h1
    generalize r.1 = es
    induction es with
    | nil => simp
    | cons e es ih =>
      cases es with
      | nil => simp [countNodes, Enclosure.numberOfPoints]; omega
      | cons f fs =>
        rw [countNodes]
        simp only [List.map_cons, List.sum_cons, Enclosure.numberOfPoints] at ih ⊢
        · omega
        · simp
  have hoff : offsetCopy len P d (decide (inward = 1)) = .ub := by
    unfold offsetCopy
    rw [decide_eq_false hi]
    simp only [Bool.false_eq_true, if_false, Nat.add_zero]
    have := enclosuresLoop_ub len d P.enclosures (fun e he r hr => by have := (hc e he r hr).1; omega) 0
      (List.replicate P.numNodes outerSep) (by rw [List.length_replicate]; omega) hh
    rw [List.length_replicate] at this
    rw [this]
    rfl
  unfold countOffset getOffset
  rw [h, Res.ok_bind, hoff, Res.ok_bind, hoff]
  exact ⟨rfl, rfl⟩

/-! ## C80: snapping a polygon -/

/-- **C80, partial.** One polygon without holes: every node from `start` to `fin`, going up and around, is replaced by its
nearest point on the land boundary, both zero meaning all nodes, and the other nodes stay. Missing: polygons with holes and
several polygons, for which it is false (`snap_beyond_ub`). -/
theorem snap_exact_partial (nearest : Pt → Pt) {r : List Pt} (hr : Readable r) (hn : NoRepeats r) {start fin : Nat} (hs : start < r.length)
    (hf : fin < r.length) :
    snapPolygon nearest r start fin = .ok (r.mapIdx fun k p => if InRange start fin k then nearest p else p) := by
  have hsep : ∀ a ∈ ([(r, [])] : List Area), a.Separable := by
    intro a ha
    rw [List.mem_singleton] at ha
    subst ha
    refine ⟨fun x hx => ?_, by simp⟩
    simp only [Area.rings, List.mem_singleton] at hx
    subst hx
    exact hr.1
  have hc : ∀ a ∈ ([(r, [])] : List Area), ∀ x ∈ a.rings, ClosedRing x := by
    intro a ha x hx
    rw [List.mem_singleton] at ha
    subst ha
    simp only [Area.rings, List.mem_singleton] at hx
    subst hx
    exact hr.2
  have e0 : startOf ([(r, [])] : List Area) 0 = 0 := by simp [startOf]
  have hidx : ∀ s e, s < r.length → e < r.length → ∃ P : PolyList, polygonsCtor r = .ok P ∧ P.enclosures = [⟨r, []⟩] ∧
      P.index s e = .ok (0, s, if s = 0 ∧ e = 0 then r.length - 1 else e) := by
    intro s e hs he
    obtain ⟨P, h1, -, -, h4⟩ := polygon_index_finds_vertices [(r, [])] hsep hc 0 (r, []) rfl s e hs he
    rw [e0] at h4
    simp only [Nat.zero_add] at h4
    rw [flat_one] at h1
    have h5 := polygonsCtor_ok _ hsep hc
    rw [flat_one, h1] at h5
    cases h5
    exact ⟨_, h1, rfl, h4⟩
  obtain ⟨P, p1, p2, p3⟩ := hidx start fin hs hf
  obtain ⟨P', q1, -, q3⟩ := hidx start (if start = 0 ∧ fin = 0 then r.length - 1 else fin) hs (by split <;> omega)
  rw [p1] at q1
  cases q1
  have h4 := hr.2.1
  unfold snapPolygon
  rw [if_neg (by omega), if_neg (by omega), if_neg (by omega), pointVector_eq hn, p1, Res.ok_bind]
  simp only [Int.toNat_natCast]
  have hsnap : snapPolygons nearest P start fin = .ok (0, r.mapIdx fun k p => if InRange start fin k then nearest p else p) := by
    unfold snapPolygons
    rw [p2]
    simp only
    rw [q3, Res.ok_bind, vget_ok (by simp), Res.ok_bind]
    simp only [List.getElem_cons_zero]
    have hlast : (if start = 0 ∧ (if start = 0 ∧ fin = 0 then r.length - 1 else fin) = 0 then r.length - 1 else if start = 0 ∧ fin = 0 then r.length - 1 else fin)
        = (if start = 0 ∧ fin = 0 then r.length - 1 else fin) := by
      by_cases c : start = 0 ∧ fin = 0
      · rw [if_pos c, if_neg (by omega)]
      · rw [if_neg c, if_neg c]
    rw [hlast, snapRing_ok nearest hr.2.2.1 hs (by split <;> omega), Res.ok_bind]
    congr 2
    apply List.ext_getElem?
    intro k
    rw [List.getElem?_mapIdx, List.getElem?_mapIdx]
    by_cases hk : k < r.length
    · rw [List.getElem?_eq_getElem hk]
      simp only [Option.map_some]
      congr 1
      apply if_congr _ rfl rfl
      unfold InRange
      split <;> omega
    · rw [List.getElem?_eq_none (by omega)]
      rfl
  rw [hsnap, Res.ok_bind]
  unfold lookUp
  rw [p3, Res.ok_bind, if_pos rfl, Res.ok_bind, copyBack_ok _ _ _ (by simp) (by simp)]
  congr 1
  rw [Nat.zero_add, List.take_zero, List.nil_append, List.drop_zero, List.drop_length, List.append_nil, List.take_of_length_le (by simp)]

theorem square_readable : Readable square := by
  refine ⟨⟨by simp [square], ?_⟩, by decide, ?_, ⟨_, _, rfl, rfl, by decide +kernel⟩⟩
  · show ∀ p ∈ square, _
    decide +kernel
  · show ∀ p ∈ square, _
    decide +kernel

theorem noRepeats_of_check {l : List Pt} (h : (l.zip l.tail).all (fun x => !(isEqual x.2.x x.1.x && isEqual x.2.y x.1.y)) = true) : NoRepeats l := by
  intro k p q hp hq
  have := List.all_eq_true.1 h (p, q) (by
    rw [List.mem_iff_getElem?]
    refine ⟨k, ?_⟩
    rw [List.getElem?_zip_eq_some]
    exact ⟨hp, by rw [List.getElem?_tail]; exact hq⟩)
  simpa only [Bool.not_eq_true'] using this

theorem square_noRepeats : NoRepeats square := noRepeats_of_check (by decide +kernel)

example : snapPolygon (fun p => ⟨p.x, 20⟩) square 2 3 = .ok [⟨0, 0⟩, ⟨10, 0⟩, ⟨10, 20⟩, ⟨0, 20⟩, ⟨0, 0⟩] := by
  rw [show (2 : Int) = ((2 : Nat) : Int) from rfl, show (3 : Int) = ((3 : Nat) : Int) from rfl,
    snap_exact_partial _ square_readable square_noRepeats (by decide) (by decide)]
  decide +kernel

example : ∃ o : List Pt, o.length = 5 ∧ Loop (o.map toVec) ∧ (Readable o → getOffset unitLen square 0 1 5 = .ok o) := by
  obtain ⟨o, o', h1, -, h2, -, -, -, h3, -⟩ := offset_written_partial unitLen square_readable square_noRepeats square_loop square_lengths square_noSpike 1
  exact ⟨o, h1, h2, fun h => (h3 h 0 (by decide)).2⟩

theorem withoutRepeats_length (p : Pt) (l : List Pt) : (withoutRepeats p l).length ≤ l.length := by
  induction l generalizing p with
  | nil => simp [withoutRepeats]
  | cons q l ih =>
    rw [withoutRepeats]
    split
    · have := ih p
      simp only [List.length_cons]
      omega
    · have := ih q
      simp only [List.length_cons]
      omega

theorem pointVector_length (l : List Pt) : (pointVector l).length ≤ l.length := by
  cases l with
  | nil => simp [pointVector]
  | cons p l =>
    have := withoutRepeats_length p l
    simp only [pointVector, List.length_cons]
    omega

theorem startOf_zero {as : List Area} {k : Nat} (hk : k < as.length) (h : startOf as k = 0) : k = 0 := by
  cases as with
  | nil => simp at hk
  | cons a as =>
    cases k with
    | zero => rfl
    | succ k => rw [startOf_succ] at h; omega

/-- **C80, negation.** When the list of coordinates is longer than the outer ring that is snapped — there are several polygons,
or a hole, or a point is repeated — the nodes are read behind the end of this ring. -/
theorem snap_beyond_ub (nearest : Pt → Pt) {coordinates : List Pt} (as : List Area) (hv : pointVector coordinates = flat as)
    (h : ∀ a ∈ as, a.Separable) (hc : ∀ a ∈ as, ∀ r ∈ a.rings, ClosedRing r) (k : Nat) (a : Area) (hk : as[k]? = some a)
    (s e : Nat) (hs : s < a.1.length) (he : e < a.1.length) (hlong : a.1.length < coordinates.length) :
    snapPolygon nearest coordinates ((startOf as k + s : Nat) : Int) ((startOf as k + e : Nat) : Int) = .ub := by
  have hlen := pointVector_length coordinates
  rw [hv] at hlen
  have hek := flat_getElem as k e a hk he
  rw [List.getElem?_eq_getElem he] at hek
  have hfin := (List.getElem?_eq_some_iff.1 hek).1
  have hka := (List.getElem?_eq_some_iff.1 hk).1
  have hctor := polygonsCtor_ok as h hc
  have hidx : ∀ e, e < a.1.length → PolyList.index ⟨as.map fun a => ⟨a.1, a.2⟩, outerSpans 0 as, (flat as).length⟩ (startOf as k + s) (startOf as k + e)
      = .ok (k, s, if startOf as k + s = 0 ∧ startOf as k + e = 0 then a.1.length - 1 else e) := by
    intro e he
    obtain ⟨P, h1, -, -, h4⟩ := polygon_index_finds_vertices as h hc k a hk s e hs he
    rw [hctor] at h1
    cases h1
    exact h4
  have hring : ClosedRing a.1 := hc a (List.mem_of_getElem? hk) a.1 (by simp [Area.rings])
  unfold snapPolygon
  rw [if_neg (by omega), if_neg (by omega), if_neg (by omega), hv, hctor, Res.ok_bind]
  simp only [Int.toNat_natCast]
  have hsnap : ∃ ring : List Pt, ring.length = a.1.length ∧
      snapPolygons nearest ⟨as.map fun a => ⟨a.1, a.2⟩, outerSpans 0 as, (flat as).length⟩ (startOf as k + s) (startOf as k + e) = .ok (k, ring) := by
    cases has : as with
    | nil => rw [has] at hka; simp at hka
    | cons b bs =>
      obtain ⟨last, l1, l2⟩ : ∃ last, last < a.1.length ∧
          (if startOf as k + s = 0 ∧ startOf as k + e = 0 then b.1.length - 1 else startOf as k + e) = startOf as k + last := by
        split
        · rename_i c
          have hk0 := startOf_zero hka (by omega)
          subst hk0
          rw [has] at hk
          cases hk
          exact ⟨a.1.length - 1, by omega, by omega⟩
        · exact ⟨e, he, rfl⟩
      rw [← has]
      unfold snapPolygons
      have hm : (as.map fun a => (⟨a.1, a.2⟩ : Enclosure)) = ⟨b.1, b.2⟩ :: bs.map fun a => ⟨a.1, a.2⟩ := by rw [has]; rfl
      have hi := hidx last l1
      have hg : vget (as.map fun a => (⟨a.1, a.2⟩ : Enclosure)) k = .ok ⟨a.1, a.2⟩ := by
        unfold vget
        rw [List.getElem?_map, hk]
        rfl
      rw [hm] at hi hg ⊢
      simp only
      rw [l2, hi, Res.ok_bind, hg, Res.ok_bind]
      rw [snapRing_ok nearest hring.2.1 hs (by simp only; split <;> omega), Res.ok_bind]
      exact ⟨_, by rw [List.length_mapIdx], rfl⟩
  obtain ⟨ring, r1, r2⟩ := hsnap
  rw [r2, Res.ok_bind]
  unfold lookUp
  rw [hidx e he, Res.ok_bind, if_pos rfl, Res.ok_bind]
  exact copyBack_ub _ _ _ (by omega) (by simp only; omega)

/-! ## C81: selecting points -/

/-- **C81, partial.** With no selecting polygon every point gets the value one. With selecting polygons it is the first one
alone that counts: a point gets one when it lies in its outer ring and in none of its holes, and zero otherwise. Values behind
the last point stay. Missing: the other polygons, and lists in which a point is repeated (`included_ignores_others`,
`included_repeats_shift`). -/
theorem included_exact_partial (inside : List Pt → Pt → Bool) (as : List Area) (hsel : NoRepeats (flat as)) (h : ∀ a ∈ as, a.Separable)
    (hc : ∀ a ∈ as, ∀ r ∈ a.rings, ClosedRing r) {points : List Pt} (hp : NoRepeats points) (hv : ∀ p ∈ points, p.isValid = true)
    {values : List ℚ} (hl : points.length ≤ values.length) :
    ∃ out : List ℚ, includedPoints inside (flat as) points values = .ok out ∧ out.length = values.length ∧
      (∀ k : Nat, points.length ≤ k → out[k]? = values[k]?) ∧
      ∀ (k : Nat) (p : Pt), points[k]? = some p →
        (out[k]? = some 1 ∧ ∀ a ∈ as.head?, InArea inside ⟨a.1, a.2⟩ p) ∨ (out[k]? = some 0 ∧ ∃ a ∈ as.head?, ¬ InArea inside ⟨a.1, a.2⟩ p) := by
  obtain ⟨f, hf, hspec⟩ : ∃ f : Pt → Bool, (∀ p, isPointInPolygon inside (as.map fun a => (⟨a.1, a.2⟩ : Enclosure)) p 0 = .ok (f p)) ∧
      ∀ p, p.isValid = true → (f p = true ↔ ∀ a ∈ as.head?, InArea inside ⟨a.1, a.2⟩ p) := by
    cases as with
    | nil => exact ⟨fun _ => true, fun p => rfl, fun p _ => by simp⟩
    | cons a as =>
      refine ⟨enclosureContains inside ⟨a.1, a.2⟩, fun p => ?_, fun p hp => ?_⟩
      · unfold isPointInPolygon
        simp [vget]
      · unfold enclosureContains
        rw [decide_eq_true_iff, region_exterior inside hp]
        simp
  refine ⟨points.map (fun p => if f p then 1 else 0) ++ values.drop points.length, ?_, ?_, ?_, ?_⟩
  · unfold includedPoints
    rw [pointVector_eq hsel, polygonsCtor_ok as h hc, Res.ok_bind, pointVector_eq hp]
    simp only
    rw [includedLoop_ok inside _ f hf points 0 values (by omega), List.take_zero, List.nil_append, Nat.zero_add]
  · rw [List.length_append, List.length_map, List.length_drop]
    omega
  · intro k hk
    rw [List.getElem?_append_right (by rw [List.length_map]; exact hk), List.length_map, List.getElem?_drop]
    congr 1
    omega
  · intro k p hkp
    have hk := (List.getElem?_eq_some_iff.1 hkp).1
    rw [List.getElem?_append_left (by rw [List.length_map]; exact hk), List.getElem?_map, hkp]
    have hv := hspec p (hv p (List.mem_of_getElem? hkp))
    simp only [Option.map_some]
    cases hfp : f p with
    | true => exact .inl ⟨rfl, hv.1 hfp⟩
    | false =>
      right
      refine ⟨rfl, ?_⟩
      by_contra hn
      push Not at hn
      rw [hv.2 hn] at hfp
      cases hfp

theorem square_area : (∀ a ∈ ([(square, [])] : List Area), a.Separable) ∧ ∀ a ∈ ([(square, [])] : List Area), ∀ r ∈ a.rings, ClosedRing r := by
  constructor
  · intro a ha
    rw [List.mem_singleton] at ha
    subst ha
    refine ⟨fun x hx => ?_, by simp⟩
    simp only [Area.rings, List.mem_singleton] at hx
    subst hx
    exact square_readable.1
  · intro a ha x hx
    rw [List.mem_singleton] at ha
    subst ha
    simp only [Area.rings, List.mem_singleton] at hx
    subst hx
    exact square_readable.2

example : ∃ out : List ℚ, includedPoints ringInside (flat [(square, [])]) [⟨5, 5⟩, ⟨15, 5⟩] [7, 7, 7] = .ok out ∧ out.length = 3 := by
  obtain ⟨out, h1, h2, -⟩ := included_exact_partial ringInside [(square, [])] (by rw [flat_one]; exact square_noRepeats) square_area.1 square_area.2
    (points := [⟨5, 5⟩, ⟨15, 5⟩]) (noRepeats_of_check (by decide +kernel)) (by decide +kernel) (values := [7, 7, 7]) (by decide)
  exact ⟨out, h1, h2⟩

end Verif.PolyEdit
