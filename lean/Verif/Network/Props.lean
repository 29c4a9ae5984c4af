import Verif.Network.Lemmas
import Verif.Polygons.RefineProps
/-!
# C28: discretization of 1D networks

`lengthAt`, `OnLine` and `GapsAtMost` (`Lemmas.lean`) are the specification, with `edgesOf` below.
-/
namespace Verif.Network

open Verif.Polygons

/-! ## Setting a network -/

theorem startChainages_ok (dist : Pt → Pt → ℚ) (lines : List (List Pt)) (h : ∀ l ∈ lines, 2 ≤ l.length) :
    startChainages dist lines = .ok (lines.map fun l => [0, lengthAt dist l (l.length - 1)]) := by
  induction lines with
  | nil => rfl
  | cons l ls ih =>
    have h2 := h l List.mem_cons_self
    have e : lengthAt dist l 0 = 0 := lengthTo_zero _ _
    simp only [startChainages, nodal_get dist h2 (show 0 < l.length by omega), nodal_length dist h2,
      nodal_get dist h2 (show l.length - 1 < l.length by omega), ih (fun x hx => h x (List.mem_cons_of_mem _ hx)),
      Res.ok_bind, List.map_cons, e]

/-- A network of polylines with at least two points starts with the chainages 0 and the length of each polyline. -/
theorem create_ok (dist : Pt → Pt → ℚ) (lines : List (List Pt)) (h : ∀ l ∈ lines, 2 ≤ l.length) :
    create dist lines = .ok ⟨lines, lines.map fun l => [0, lengthAt dist l (l.length - 1)]⟩ := by
  unfold create
  rw [startChainages_ok dist lines h, Res.ok_bind]

/-- A polyline with fewer than two points makes the constructor read the front of an empty vector. -/
theorem create_short_line_undefined (dist : Pt → Pt → ℚ) (before after : List (List Pt)) (l : List Pt)
    (hb : ∀ x ∈ before, 2 ≤ x.length) (hl : l.length < 2) : create dist (before ++ l :: after) = .ub := by
  have : startChainages dist (before ++ l :: after) = .ub := by
    induction before with
    | nil =>
      simp only [List.nil_append, startChainages, nodalChainages_short dist hl]
      rfl
    | cons x xs ih =>
      have h2 := hb x List.mem_cons_self
      simp only [List.cons_append, startChainages, nodal_get dist h2 (show 0 < x.length by omega), nodal_length dist h2,
        nodal_get dist h2 (show x.length - 1 < x.length by omega),
        ih (fun y hy => hb y (List.mem_cons_of_mem _ hy)), Res.ok_bind]
      rfl
  unfold create
  rw [this]
  rfl

/-! ### Lists with separators -/

theorem splitFrom_chunk {α : Type} {isS : α → Bool} (chunk l rest : List α) (hl : ∀ x ∈ l, isS x = false) :
    splitFrom isS chunk (l ++ rest) = splitFrom isS (chunk ++ l) rest := by
  induction l generalizing chunk with
  | nil => simp
  | cons a l ih =>
    simp only [List.cons_append, splitFrom, hl a List.mem_cons_self, Bool.false_eq_true, if_false]
    rw [ih _ (fun x hx => hl x (List.mem_cons_of_mem _ hx))]
    simp

/-- Polylines joined with separators are read back, if none is empty. -/
theorem split_joined {α : Type} {isS : α → Bool} {sep : α} (hsep : isS sep = true) (ls : List (List α))
    (hne : ∀ l ∈ ls, l ≠ []) (hno : ∀ l ∈ ls, ∀ x ∈ l, isS x = false) :
    split isS (List.intercalate [sep] ls) = ls ∧ split isS (List.intercalate [sep] ls ++ [sep]) = (if ls = [] then [[]] else ls) := by
  unfold split
  have key : ∀ (ls : List (List α)) (l : List α), l ≠ [] → (∀ x ∈ l, isS x = false) → (∀ l ∈ ls, l ≠ []) →
      (∀ l ∈ ls, ∀ x ∈ l, isS x = false) →
      splitFrom isS [] (List.intercalate [sep] (l :: ls)) = l :: ls ∧
      splitFrom isS [] (List.intercalate [sep] (l :: ls) ++ [sep]) = l :: ls := by
    intro ls
    induction ls with
    | nil =>
      intro l hl hx _ _
      have e : List.intercalate [sep] [l] = l := by simp [List.intercalate]
      rw [e]
      constructor
      · have := splitFrom_chunk (isS := isS) [] l [] hx
        rw [List.append_nil] at this
        rw [this]
        simp [splitFrom, hl]
      · rw [splitFrom_chunk [] l [sep] hx]
        simp [splitFrom, hsep]
    | cons m ls ih =>
      intro l hl hx h1 h2
      have e : List.intercalate [sep] (l :: m :: ls) = l ++ (sep :: List.intercalate [sep] (m :: ls)) := by
        simp [List.intercalate, List.intersperse]
      obtain ⟨i1, i2⟩ := ih m (h1 m List.mem_cons_self) (h2 m List.mem_cons_self)
        (fun x hx => h1 x (List.mem_cons_of_mem _ hx)) (fun x hx => h2 x (List.mem_cons_of_mem _ hx))
      rw [e]
      constructor
      · rw [splitFrom_chunk _ _ _ hx]
        simp [splitFrom, hsep, i1]
      · rw [List.append_assoc, splitFrom_chunk _ _ _ hx]
        simp only [List.cons_append, splitFrom, hsep, if_true, List.nil_append, i2]
  cases ls with
  | nil => simp [List.intercalate, splitFrom, hsep]
  | cons l ls =>
    have := key ls l (hne l List.mem_cons_self) (hno l List.mem_cons_self)
      (fun x hx => hne x (List.mem_cons_of_mem _ hx)) (fun x hx => hno x (List.mem_cons_of_mem _ hx))
    rw [if_neg (by simp)]
    exact this

/-- Two separators in a row in the list of polylines: undefined behaviour. -/
theorem repeated_separator_undefined (dist : Pt → Pt → ℚ) :
    networkSet dist missingDouble [⟨0, 0⟩, ⟨1, 0⟩, outerSep, outerSep, ⟨2, 0⟩, ⟨3, 0⟩] = .ub := by
  have e : split (isSep missingDouble) [⟨0, 0⟩, ⟨1, 0⟩, outerSep, outerSep, ⟨2, 0⟩, ⟨3, 0⟩] =
      [[⟨0, 0⟩, ⟨1, 0⟩]] ++ [] :: [[⟨2, 0⟩, ⟨3, 0⟩]] := by decide +kernel
  unfold networkSet
  rw [e]
  exact create_short_line_undefined dist _ _ [] (by simp) (by simp)

/-! ## Chainages at an interval -/

/-- Computing chainages at an interval keeps every chainage, adds only chainages between given ones, and leaves no gap larger
than the interval. -/
theorem interval_fills {o : ℚ} (ho : 0 < o) {cs r : List ℚ} (h : offsetLine o cs = .ok r) :
    (∃ new, r.Perm (cs ++ new)) ∧ GapsAtMost o (sort r) ∧ (∀ x ∈ r, ∃ lo ∈ cs, ∃ hi ∈ cs, lo ≤ x ∧ x ≤ hi) := by
  unfold offsetLine at h
  obtain ⟨new, hn, h⟩ := Res.bind_eq_ok.1 h
  obtain ⟨w, hperm, hsorted, hgap, -, hin⟩ := intervals_ok ho (sort_sorted cs) hn
  have hr : r = sort cs ++ new := (Res.ok.inj h).symm
  refine ⟨⟨new, ?_⟩, ?_, ?_⟩
  · rw [hr]; exact (sort_perm cs).append_right new
  · rw [hr, sort_eq hperm hsorted]; exact hgap
  · intro x hx
    rw [hr] at hx
    rcases List.mem_append.1 hx with hx | hx
    · exact ⟨x, mem_sort.1 hx, x, mem_sort.1 hx, le_refl _, le_refl _⟩
    · obtain ⟨lo, hlo, hi, hhi, hle⟩ := hin x hx
      exact ⟨lo, mem_sort.1 hlo, hi, mem_sort.1 hhi, hle⟩

/-- It succeeds for every positive interval, if the number of pieces fits. -/
theorem interval_succeeds {o : ℚ} (ho : 0 < o) {cs : List ℚ} {T : ℚ} (hT : T / o ≤ 2 ^ 32 - 1)
    (hmax : ∀ a ∈ cs, ∀ b ∈ cs, b - a ≤ T) : ∃ r, offsetLine o cs = .ok r := by
  obtain ⟨new, hn⟩ := intervals_success ho (sort_sorted cs) hT
    (fun a ha b hb => hmax a (mem_sort.1 ha) b (mem_sort.1 hb))
  exact ⟨_, by unfold offsetLine; rw [hn, Res.ok_bind]⟩

/-- The chainages added between two neighbours divide the gap into equal pieces, no more than necessary: a piece is at most
the interval and, if the gap was as large as the interval, more than half of it. -/
theorem interval_pieces {o a b : ℚ} (ho : 0 < o) (hab : a ≤ b) {x : List ℚ} (h : between o a b = .ok x) :
    ∃ piece, (∀ (k : Nat) c, x[k]? = some c → c = a + (k + 1 : Nat) * piece) ∧ b = a + (x.length + 1 : Nat) * piece ∧
      piece ≤ o ∧ (o ≤ b - a → o < 2 * piece) ∧ (b - a < o → x = []) := by
  have hshort : b - a < o → x = [] := by
    intro hlt
    unfold between at h
    rw [if_pos hlt] at h
    exact (Res.ok.inj h).symm
  obtain ⟨k, h', rfl, h0, hle, hb, hhalf⟩ := between_ok ho hab h
  refine ⟨h', ?_, by rw [arith_length]; exact hb, hle, hhalf, hshort⟩
  intro i c hc
  have hi : i < k := by
    have := (List.getElem?_eq_some_iff.1 hc).1
    rwa [arith_length] at this
  rw [arith_get _ _ _ _ hi] at hc
  rw [← Option.some.inj hc]
  push_cast
  ring

/-- An interval of zero is undefined behaviour, a negative one too, as soon as two chainages differ. -/
theorem interval_not_positive_undefined {o a b : ℚ} (ho : o ≤ 0) (hab : a + 1 - o ≤ b) : between o a b = .ub := by
  unfold between
  rw [if_neg (by linarith)]
  split
  · rfl
  · rename_i hne
    have hneg : o < 0 := lt_of_le_of_ne ho hne
    simp only []
    rw [if_pos]
    left
    have : (b - a) / o ≤ ((-1 : Int) : ℚ) := by
      push_cast
      rw [div_le_iff_of_neg hneg]
      linarith
    have := Int.ceil_le.2 this
    omega

/-! ## Points -/

/-- Chainages between 0 and the length of the polyline give points on the polyline at these lengths, in increasing order,
provided no side lies between two neighbouring chainages.  Missing: sides that are skipped, where it is false
(`skipped_side_leaves_line`). -/
theorem points_on_line_partial {dist : Pt → Pt → ℚ} {line : List Pt} (hs : Sides dist line) (h2 : 2 ≤ line.length)
    {cs : List ℚ} (hlow : ∀ c ∈ cs, 0 ≤ c) (hhigh : ∀ c ∈ cs, c ≤ lengthAt dist line (line.length - 1))
    (hcov : ∀ k, 1 ≤ k → k + 1 < line.length → ∃ c ∈ cs, lengthAt dist line k < c ∧ c ≤ lengthAt dist line (k + 1)) :
    ∃ ps, discretize dist line cs = .ok ps ∧ List.Forall₂ (OnLine dist line) (sort cs) ps :=
  discretize_ok hs h2 hlow hhigh hcov

/-- A polyline with one side needs no condition. -/
theorem points_on_segment {dist : Pt → Pt → ℚ} {a b : Pt} (hpos : 0 < dist a b) {cs : List ℚ}
    (hlow : ∀ c ∈ cs, 0 ≤ c) (hhigh : ∀ c ∈ cs, c ≤ dist a b) :
    ∃ ps, discretize dist [a, b] cs = .ok ps ∧ List.Forall₂ (OnLine dist [a, b]) (sort cs) ps := by
  have hs : Sides dist [a, b] := by simp only [Sides, SidesPositive]; exact ⟨hpos, trivial⟩
  refine discretize_ok hs (by simp) hlow ?_ (fun k hk hkl => ?_)
  · have : lengthAt dist [a, b] ([a, b].length - 1) = dist a b := by simp [lengthAt, lengthTo]
    rw [this]; exact hhigh
  · simp at hkl
    omega

/-- A polyline of fewer than two points is rejected, whatever the chainages. -/
theorem discretize_rejects_short (dist : Pt → Pt → ℚ) (line : List Pt) (h : line.length < 2) (cs : List ℚ) :
    discretize dist line cs = .throw := by
  unfold discretize
  rw [if_pos h]

/-- There is a point for each chainage, and no access out of bounds, as long as no chainage is larger than the length. -/
theorem discretize_succeeds {dist : Pt → Pt → ℚ} {line : List Pt} (hs : Sides dist line) (h2 : 2 ≤ line.length)
    {cs : List ℚ} (hhigh : ∀ c ∈ cs, c ≤ lengthAt dist line (line.length - 1)) :
    ∃ ps, discretize dist line cs = .ok ps ∧ ps.length = cs.length := by
  obtain ⟨ps, hps, hl⟩ := place_not_ub hs h2 (sort cs) 0 (by omega) (fun c hc => hhigh c (mem_sort.1 hc))
  refine ⟨ps, by unfold discretize; rw [if_neg (by omega)]; exact hps, ?_⟩
  rw [hl, (sort_perm cs).length_eq]

/-- With the chainages a network starts with, 0 and the length, the last point of every polyline of three or more sides is
computed on the extension of its second side. -/
theorem skipped_side_leaves_line {dist : Pt → Pt → ℚ} {a b c d : Pt} {ps : List Pt} (hs : Sides dist (a :: b :: c :: d :: ps)) :
    discretize dist (a :: b :: c :: d :: ps) [0, lengthAt dist (a :: b :: c :: d :: ps) (ps.length + 3)] =
      .ok [a, pointAt b c ((lengthAt dist (a :: b :: c :: d :: ps) (ps.length + 3) - dist a b) / dist b c)] := by
  have h2 : 2 ≤ (a :: b :: c :: d :: ps).length := by simp
  have h01 : lengthAt dist (a :: b :: c :: d :: ps) 1 = dist a b := by simp [lengthAt, lengthTo]
  have h00 : lengthAt dist (a :: b :: c :: d :: ps) 0 = 0 := lengthTo_zero _ _
  have hab : 0 < dist a b := hs.1
  have hbc : 0 < dist b c := hs.2.1
  have hlt : lengthAt dist (a :: b :: c :: d :: ps) 1 < lengthAt dist (a :: b :: c :: d :: ps) (ps.length + 3) :=
    lengthTo_strict hs (by omega) (by simp)
  have hsorted : sort [0, lengthAt dist (a :: b :: c :: d :: ps) (ps.length + 3)] =
      [0, lengthAt dist (a :: b :: c :: d :: ps) (ps.length + 3)] := by
    refine sort_eq (List.Perm.refl _) ?_
    simp only [List.pairwise_cons, List.mem_singleton, forall_eq, List.not_mem_nil, false_implies, implies_true,
      List.Pairwise.nil, and_true]
    linarith
  unfold discretize
  rw [if_neg (by omega), hsorted]
  simp only [place, nodal_get dist h2 (show 0 + 1 < (a :: b :: c :: d :: ps).length by simp), Res.ok_bind, Nat.zero_add, h01]
  rw [if_neg (by linarith)]
  simp only [nodal_get dist h2 (show 0 < (a :: b :: c :: d :: ps).length by simp), Res.ok_bind, Nat.zero_add, h00,
    nodal_get dist h2 (show 1 < (a :: b :: c :: d :: ps).length by simp), h01]
  rw [if_pos (by linarith)]
  have e1 : vget (a :: b :: c :: d :: ps) 0 = .ok a := rfl
  have e2 : vget (a :: b :: c :: d :: ps) 1 = .ok b := rfl
  have e3 : vget (a :: b :: c :: d :: ps) (1 + 1) = .ok c := rfl
  have e4 : vget (edgeLengths dist (a :: b :: c :: d :: ps)) 0 = .ok (dist a b) := rfl
  have e5 : vget (edgeLengths dist (a :: b :: c :: d :: ps)) 1 = .ok (dist b c) := rfl
  simp only [e1, e2, e3, e4, e5, Res.ok_bind, nodal_get dist h2 (show 1 < (a :: b :: c :: d :: ps).length by simp), h01,
    if_neg (ne_of_gt hab), if_neg (ne_of_gt hbc)]
  rw [sub_zero, zero_div, pointAt_zero]

/-- Three sides of a square: the last point, which should be (0, 1), is at (1, 2). -/
theorem end_of_polyline_misplaced :
    (do let net ← create axisDist [[⟨0, 0⟩, ⟨1, 0⟩, ⟨1, 1⟩, ⟨0, 1⟩]]
        discretizations axisDist net) = .ok [[⟨0, 0⟩, ⟨1, 2⟩]] := by decide +kernel

/-- The whole computation for one polyline: if no side is shorter than the interval, the points are points of the polyline
at increasing lengths no more than the interval apart, from its start to its end.  `cs` are the chainages before: they
contain 0 and the length and lie in between.  Missing: shorter sides (`skipped_side_leaves_line`). -/
theorem discretize_at_interval_partial {dist : Pt → Pt → ℚ} {line : List Pt} (hs : Sides dist line)
    (h2 : 2 ≤ line.length) {o : ℚ} (ho : 0 < o)
    (hside : ∀ k, k + 1 < line.length → lengthAt dist line k + o ≤ lengthAt dist line (k + 1))
    {cs : List ℚ} (h0 : 0 ∈ cs) (hend : lengthAt dist line (line.length - 1) ∈ cs)
    (hrange : ∀ c ∈ cs, 0 ≤ c ∧ c ≤ lengthAt dist line (line.length - 1))
    (hsize : lengthAt dist line (line.length - 1) / o ≤ 2 ^ 32 - 1) :
    ∃ r ps, offsetLine o cs = .ok r ∧ discretize dist line r = .ok ps ∧ (∀ c ∈ cs, c ∈ r) ∧
      GapsAtMost o (sort r) ∧ List.Forall₂ (OnLine dist line) (sort r) ps ∧
      ps.head? = line.head? ∧ ps.getLast? = line.getLast? := by
  obtain ⟨r, hr⟩ := interval_succeeds ho (cs := cs) hsize
    (fun a ha b hb => by linarith [(hrange a ha).1, (hrange b hb).2])
  obtain ⟨⟨new, hperm⟩, hgap, hin⟩ := interval_fills ho hr
  have hkeep : ∀ c ∈ cs, c ∈ r := fun c hc => hperm.mem_iff.2 (List.mem_append_left _ hc)
  have hlow : ∀ c ∈ r, 0 ≤ c := fun c hc => by
    obtain ⟨lo, hlo, _, _, h, _⟩ := hin c hc
    exact le_trans (hrange lo hlo).1 h
  have hhigh : ∀ c ∈ r, c ≤ lengthAt dist line (line.length - 1) := fun c hc => by
    obtain ⟨_, _, hi, hhi, _, h⟩ := hin c hc
    exact le_trans h (hrange hi hhi).2
  have hsorted := sort_sorted r
  have e0 : lengthAt dist line 0 = 0 := lengthTo_zero _ _
  have hpos : 0 < lengthAt dist line (line.length - 1) := by
    have : lengthAt dist line 0 < _ := lengthTo_strict hs (show 0 < line.length - 1 by omega) (by omega)
    rwa [e0] at this
  -- the first entry is 0, the last one the length
  have hhead : (sort r).head? = some 0 := by
    have hm : (0 : ℚ) ∈ sort r := mem_sort.2 (hkeep 0 h0)
    cases hsr : sort r with
    | nil => rw [hsr] at hm; simp at hm
    | cons a t =>
      rw [hsr] at hm hsorted
      have ha : 0 ≤ a := hlow a (mem_sort.1 (by rw [hsr]; exact List.mem_cons_self))
      rcases List.mem_cons.1 hm with h | h
      · rw [← h]; rfl
      · have := (List.pairwise_cons.1 hsorted).1 0 h
        rw [le_antisymm this ha]; rfl
  have hlast : (sort r).getLast? = some (lengthAt dist line (line.length - 1)) := by
    have hm : lengthAt dist line (line.length - 1) ∈ sort r := mem_sort.2 (hkeep _ hend)
    have hne : sort r ≠ [] := fun h => by rw [h] at hm; simp at hm
    rw [List.getLast?_eq_getLast_of_ne_nil hne]
    congr 1
    apply le_antisymm
    · exact hhigh _ (mem_sort.1 (List.getLast_mem hne))
    · rw [← List.dropLast_concat_getLast hne] at hm hsorted
      rcases List.mem_append.1 hm with h | h
      · exact (List.pairwise_append.1 hsorted).2.2 _ h _ (by simp)
      · exact le_of_eq (List.mem_singleton.1 h)
  obtain ⟨ps, hps, hf⟩ := discretize_ok hs h2 hlow hhigh (fun k hk hkl => by
    obtain ⟨c, hc, h1, h2'⟩ := gaps_find hgap (x := lengthAt dist line k) hhead
      (by rw [← e0]; exact lengthAt_mono hs (by omega) (by omega))
      ⟨_, mem_sort.2 (hkeep _ hend), lengthTo_strict hs (by omega) (by omega)⟩
    exact ⟨c, mem_sort.1 hc, h1, le_trans h2' (hside k hkl)⟩)
  refine ⟨r, ps, hr, hps, hkeep, hgap, hf, ?_, ?_⟩
  · cases hsr : sort r with
    | nil => rw [hsr] at hhead; simp at hhead
    | cons c t =>
      rw [hsr] at hhead hf
      simp only [List.head?_cons, Option.some.injEq] at hhead
      cases hf with
      | cons h _ =>
        rw [hhead, ← e0] at h
        have := atLength_node hs (show 0 < line.length by omega) h
        rw [List.head?_cons, List.head?_eq_getElem?, this]
  · have hne : sort r ≠ [] := fun h => by rw [h] at hlast; simp at hlast
    have hpl := hf.length_eq
    have hlen : 0 < (sort r).length := List.length_pos_iff.2 hne
    have hg := hf.get (i := (sort r).length - 1) (by omega) (by omega)
    simp only [List.get_eq_getElem] at hg
    rw [List.getLast?_eq_getElem?, List.getElem?_eq_getElem (by omega)] at hlast
    rw [Option.some.inj hlast] at hg
    have := atLength_node hs (show line.length - 1 < line.length by omega) hg
    rw [List.getLast?_eq_getElem?, List.getLast?_eq_getElem?, this, List.getElem?_eq_getElem (by omega)]
    simp only [hpl]

/-! ## Fixed chainages -/

theorem fixBefore_end {start minSize off f : ℚ} {s : FixState} {finish : ℚ} {rest : List ℚ}
    (h : ∃ rest, s.cs = start :: finish :: rest ∧ (s.flag = true → rest ≠ [])) :
    ∃ rest, (fixBefore start minSize off f s).cs = start :: finish :: rest ∧
      ((fixBefore start minSize off f s).flag = true → rest ≠ []) := by
  obtain ⟨rest, hcs, hfl⟩ := h
  unfold fixBefore
  split
  · exact ⟨rest ++ [f - off], by simp [hcs], fun _ => by simp⟩
  · split
    · rename_i hflag
      have hne := hfl hflag
      refine ⟨rest.dropLast ++ [(f - off + s.prev) / 2], ?_, fun _ => by simp⟩
      simp only [hcs]
      rw [List.dropLast_cons_of_ne_nil (by simp), List.dropLast_cons_of_ne_nil hne]
      rfl
    · exact ⟨rest, hcs, hfl⟩

theorem fixAfter_end {finish' minSize off f : ℚ} {s : FixState} {start finish : ℚ}
    (h : ∃ rest, s.cs = start :: finish :: rest ∧ (s.flag = true → rest ≠ [])) :
    ∃ rest, (fixAfter finish' minSize off f s).cs = start :: finish :: rest ∧
      ((fixAfter finish' minSize off f s).flag = true → rest ≠ []) := by
  obtain ⟨rest, hcs, hfl⟩ := h
  unfold fixAfter
  split
  · exact ⟨rest ++ [f + off], by simp [hcs], fun _ => by simp⟩
  · exact ⟨rest, hcs, hfl⟩

theorem fixLoop_end {start finish minSize off : ℚ} (fixed : List ℚ) {s : FixState}
    (h : ∃ rest, s.cs = start :: finish :: rest ∧ (s.flag = true → rest ≠ [])) :
    ∃ rest, (fixLoop start finish minSize off fixed s).cs = start :: finish :: rest := by
  induction fixed generalizing s with
  | nil => obtain ⟨rest, h, -⟩ := h; exact ⟨rest, h⟩
  | cons f fs ih =>
    simp only [fixLoop, List.foldl_cons]
    exact ih (fixAfter_end (fixBefore_end (rest := []) h))

/-- Fixed chainages keep the first and the last chainage of a new polyline, unless the first fixed chainage is the start.
Missing: that case, where the end is lost (`fixed_at_start_loses_end`). -/
theorem fixed_keeps_ends_partial {minSize off start finish : ℚ} {fixed : List ℚ}
    (hne : ∀ f ∈ fixed.head?, isEqual start f = false) :
    ∃ rest, fixLine minSize off fixed [start, finish] = start :: finish :: rest := by
  cases fixed with
  | nil => exact ⟨[], rfl⟩
  | cons f fs =>
    simp only [fixLine]
    refine fixLoop_end (f :: fs) ⟨[], rfl, fun h => ?_⟩
    have := hne f rfl
    rw [this] at h
    cases h

/-- A fixed chainage at the start: the chainage of the end is replaced by one before the start. -/
theorem fixed_at_start_loses_end {minSize off finish : ℚ} (hoff : 0 < off) (hmin : 0 ≤ minSize) (hfin : 0 < finish) :
    ∃ cs, fixLine minSize off [0] [0, finish] = cs ∧ finish ∉ cs ∧ -off / 2 ∈ cs := by
  have hself : isEqual (0 : ℚ) 0 = true := isEqual_self 0
  have hb : fixBefore 0 minSize off 0 ⟨[0, finish], 0, true⟩ = ⟨[0, -off / 2], -off / 2, true⟩ := by
    unfold fixBefore
    rw [if_neg (by rintro ⟨h, _⟩; simp only [zero_sub, sub_zero] at h; linarith)]
    simp
  refine ⟨_, rfl, ?_, ?_⟩
  · simp only [fixLine, fixLoop, List.foldl_cons, List.foldl_nil, hself, hb]
    unfold fixAfter
    split
    · rename_i h
      simp only [zero_add] at h
      simp only [List.cons_append, List.nil_append, List.mem_cons, List.not_mem_nil, or_false, zero_add]
      rintro (h' | h' | h') <;> linarith [h.2]
    · simp only [List.mem_cons, List.not_mem_nil, or_false]
      rintro (h' | h') <;> linarith
  · simp only [fixLine, fixLoop, List.foldl_cons, List.foldl_nil, hself, hb]
    unfold fixAfter
    split <;> simp

/-- A fixed chainage beyond the end of the polyline is accepted and makes the discretization read out of bounds. -/
theorem fixed_beyond_end_undefined :
    (do let net ← create axisDist [[⟨0, 0⟩, ⟨10, 0⟩]]
        let net ← fixedChainages net [[20]] 1 1
        discretizations axisDist net) = .ub := by decide +kernel

/-- The lists of fixed chainages must match the polylines in number, and nothing else is refused. -/
theorem fixed_throws_iff (net : Net) (fixed : List (List ℚ)) (minSize off : ℚ) :
    (fixedChainages net fixed minSize off = .throw ↔ net.lines.length ≠ fixed.length) ∧
    fixedChainages net fixed minSize off ≠ .ub := by
  unfold fixedChainages
  split <;> simp_all

/-- The fixed chainages of a last polyline without any cannot be passed in the natural way: the empty list at the end is
dropped. -/
theorem empty_last_list_dropped :
    networkFixed ⟨[[⟨0, 0⟩, ⟨10, 0⟩], [⟨0, 5⟩, ⟨10, 5⟩]], [[0, 10], [0, 10]]⟩ [5, missingDouble] 1 1 = .throw := by
  decide +kernel

/-! ## The 1D mesh -/

/-- The edges a 1D mesh should have: consecutive points of each polyline, whose points are numbered from `start`. -/
def edgesOf : Nat → List (List Pt) → List (Nat × Nat)
  | _, [] => []
  | start, d :: ds => (List.range' start (d.length - 1)).map (fun i => (i, i + 1)) ++ edgesOf (start + d.length) ds

theorem meshStep_nil (s : MeshState) : meshStep s [] = s := rfl

theorem meshLoop_nodes (ds : List (List Pt)) (s : MeshState) :
    (ds.foldl meshStep s).nodes = s.nodes ++ ds.flatten := by
  induction ds generalizing s with
  | nil => simp
  | cons d ds ih =>
    rw [List.foldl_cons, ih]
    unfold meshStep
    split
    · rename_i h
      simp only [List.isEmpty_iff] at h
      simp [h]
    · simp

/-- The nodes of the mesh are the points of the polylines, one polyline after the other. -/
theorem mesh_nodes (ds : List (List Pt)) : (meshLoop ds).nodes = ds.flatten := by
  unfold meshLoop
  rw [meshLoop_nodes]
  rfl

theorem meshLoop_edges (ds : List (List Pt)) (s : MeshState) (h : s.nodes.length ≤ s.numNodes) :
    ∀ e ∈ (ds.foldl meshStep s).edges, e ∈ s.edges ∨ e ∈ edgesOf s.nodes.length ds := by
  induction ds generalizing s with
  | nil => intro e he; exact Or.inl he
  | cons d ds ih =>
    intro e he
    rw [List.foldl_cons] at he
    by_cases hd : d = []
    · subst hd
      rw [meshStep_nil] at he
      rcases ih s h e he with h1 | h1
      · exact Or.inl h1
      · right
        simpa [edgesOf] using h1
    · have hstep : meshStep s d = ⟨s.nodes ++ d, s.edges ++ (List.range' s.numNodes ((s.nodes ++ d).length - 1 - s.numNodes)).map (fun i => (i, i + 1)),
          s.numNodes + (s.nodes ++ d).length⟩ := by
        unfold meshStep
        rw [if_neg (by simpa using hd)]
      rw [hstep] at he
      rcases ih _ (by simp) e he with h1 | h1
      · rcases List.mem_append.1 h1 with h1 | h1
        · exact Or.inl h1
        · right
          obtain ⟨i, hi, rfl⟩ := List.mem_map.1 h1
          simp only [List.mem_range', List.length_append] at hi
          obtain ⟨j, hj, rfl⟩ := hi
          refine List.mem_append_left _ (List.mem_map.2 ⟨_, ?_, rfl⟩)
          rw [List.mem_range']
          exact ⟨s.numNodes + 1 * j - s.nodes.length, by omega, by omega⟩
      · right
        refine List.mem_append_right _ ?_
        simpa using h1

/-- Every edge joins consecutive points of one polyline; no edge joins two polylines. -/
theorem mesh_edges_within_polylines (ds : List (List Pt)) : ∀ e ∈ (meshLoop ds).edges, e ∈ edgesOf 0 ds := by
  intro e he
  rcases meshLoop_edges ds ⟨[], [], 0⟩ (by simp) e he with h | h
  · simp at h
  · exact h

/-- With at most two polylines the mesh joins consecutive points of every polyline.  Missing: more polylines, where it is
false (`third_polyline_not_joined`). -/
theorem mesh_joins_two_partial (d1 d2 : List Pt) :
    (meshLoop [d1]).edges = edgesOf 0 [d1] ∧ (meshLoop [d1, d2]).edges = edgesOf 0 [d1, d2] := by
  have one : ∀ d : List Pt, d ≠ [] → meshStep ⟨[], [], 0⟩ d =
      ⟨d, (List.range' 0 (d.length - 1)).map (fun i => (i, i + 1)), d.length⟩ := by
    intro d hd
    unfold meshStep
    rw [if_neg (by simpa using hd)]
    simp
  by_cases h1 : d1 = []
  · subst h1
    refine ⟨rfl, ?_⟩
    by_cases h2 : d2 = []
    · subst h2; rfl
    · simp [meshLoop, meshStep_nil, one d2 h2, edgesOf]
  · refine ⟨by simp [meshLoop, one d1 h1, edgesOf], ?_⟩
    by_cases h2 : d2 = []
    · subst h2; simp [meshLoop, meshStep_nil, one d1 h1, edgesOf]
    · simp only [meshLoop, List.foldl_cons, List.foldl_nil, one d1 h1]
      unfold meshStep
      rw [if_neg (by simpa using h2)]
      simp only [List.length_append, edgesOf, List.append_nil, Nat.zero_add]
      congr 3
      omega

theorem meshLoop_skips (ds : List (List Pt)) (s : MeshState) {k : Nat} (hk : k < s.numNodes) (h : s.nodes.length ≤ s.numNodes) (hno : (k, k + 1) ∉ s.edges) :
    (k, k + 1) ∉ (ds.foldl meshStep s).edges := by
  induction ds generalizing s with
  | nil => exact hno
  | cons d ds ih =>
    rw [List.foldl_cons]
    by_cases hd : d = []
    · subst hd; rw [meshStep_nil]; exact ih s hk h hno
    · unfold meshStep
      rw [if_neg (by simpa using hd)]
      refine ih _ (by simp only []; omega) (by simp) ?_
      simp only [List.mem_append, not_or]
      refine ⟨hno, fun hm => ?_⟩
      obtain ⟨i, hi, he⟩ := List.mem_map.1 hm
      simp only [List.mem_range', Prod.mk.injEq] at hi he
      obtain ⟨j, _, rfl⟩ := hi
      omega

/-- From the third polyline on edges are missing: in every network the first side of the third polyline is not in the mesh. -/
theorem third_polyline_not_joined (d1 d2 d3 : List Pt) (ds : List (List Pt)) (h1 : d1 ≠ []) (h2 : d2 ≠ [])
    (h3 : 2 ≤ d3.length) :
    (d1.length + d2.length, d1.length + d2.length + 1) ∈ edgesOf 0 (d1 :: d2 :: d3 :: ds) ∧
    (d1.length + d2.length, d1.length + d2.length + 1) ∉ (meshLoop (d1 :: d2 :: d3 :: ds)).edges := by
  have l1 := List.length_pos_iff.2 h1
  have l2 := List.length_pos_iff.2 h2
  constructor
  · simp only [edgesOf, Nat.zero_add]
    refine List.mem_append_right _ (List.mem_append_right _ (List.mem_append_left _ (List.mem_map.2 ⟨_, ?_, rfl⟩)))
    rw [List.mem_range']
    exact ⟨0, by omega, by omega⟩
  · unfold meshLoop
    simp only [List.foldl_cons]
    have hs : ∃ s, meshStep (meshStep ⟨[], [], 0⟩ d1) d2 = s ∧ s.numNodes = d1.length + (d1.length + d2.length) ∧
        s.nodes.length = d1.length + d2.length ∧ ∀ e ∈ s.edges, e ∈ edgesOf 0 [d1, d2] := by
      refine ⟨_, rfl, ?_, ?_, ?_⟩
      · simp [meshStep, h1, h2]
      · simp [meshStep, h1, h2]
      · exact mesh_edges_within_polylines [d1, d2]
    obtain ⟨s, hs, hn, hl, he⟩ := hs
    rw [hs]
    refine meshLoop_skips (d3 :: ds) s (by omega) (by omega) ?_
    intro hm
    have := he _ hm
    simp only [edgesOf, Nat.zero_add, List.append_nil, List.mem_append, List.mem_map, List.mem_range', Prod.mk.injEq] at this
    rcases this with ⟨i, ⟨j, hj, rfl⟩, hi, _⟩ | ⟨i, ⟨j, hj, rfl⟩, hi, _⟩ <;> omega

/-- Three polylines of one side each: the third is lost. -/
theorem third_polyline_lost :
    (do let net ← create axisDist [[⟨0, 0⟩, ⟨1, 0⟩], [⟨0, 1⟩, ⟨1, 1⟩], [⟨0, 2⟩, ⟨1, 2⟩]]
        toMesh axisDist net) =
      .ok ([⟨0, 0⟩, ⟨1, 0⟩, ⟨0, 1⟩, ⟨1, 1⟩, ⟨0, 2⟩, ⟨1, 2⟩], [(0, 1), (2, 3)]) := by decide +kernel

/-! ## A whole network -/

/-- The conditions on a polyline: sides no shorter than the interval, and not too many pieces. -/
structure Suitable (dist : Pt → Pt → ℚ) (o : ℚ) (line : List Pt) : Prop where
  two : 2 ≤ line.length
  sides : ∀ k, k + 1 < line.length → lengthAt dist line k + o ≤ lengthAt dist line (k + 1)
  positive : Sides dist line
  size : lengthAt dist line (line.length - 1) / o ≤ 2 ^ 32 - 1

/-- The points stand for the polyline: they lie on it at increasing lengths, no more than the interval apart, from its start to
its end. -/
def Represents (dist : Pt → Pt → ℚ) (o : ℚ) (line ps : List Pt) : Prop :=
  (∃ cs : List ℚ, cs.Pairwise (· ≤ ·) ∧ GapsAtMost o cs ∧ List.Forall₂ (OnLine dist line) cs ps) ∧
  ps.head? = line.head? ∧ ps.getLast? = line.getLast?

/-- Setting a network, computing chainages at an interval and discretizing, for polylines whose sides are not shorter than the
interval.  Missing: polylines with shorter sides (`skipped_side_leaves_line`). -/
theorem network_discretization_partial {dist : Pt → Pt → ℚ} {o : ℚ} (ho : 0 < o) (lines : List (List Pt))
    (h : ∀ l ∈ lines, Suitable dist o l) :
    ∃ net net' ds, create dist lines = .ok net ∧ offsettedChainages net o = .ok net' ∧
      discretizations dist net' = .ok ds ∧ List.Forall₂ (Represents dist o) lines ds := by
  have key : ∃ css ds, offsetLines o (lines.map fun l => [0, lengthAt dist l (l.length - 1)]) = .ok css ∧
      discretizeLines dist lines css = .ok ds ∧ List.Forall₂ (Represents dist o) lines ds := by
    induction lines with
    | nil => exact ⟨[], [], rfl, rfl, .nil⟩
    | cons l ls ih =>
      obtain ⟨css, ds, hcss, hds, hf⟩ := ih (fun x hx => h x (List.mem_cons_of_mem _ hx))
      have hl := h l List.mem_cons_self
      have hpos : 0 ≤ lengthAt dist l (l.length - 1) := by
        have := lengthAt_mono hl.positive (show 0 ≤ l.length - 1 by omega) (by have := hl.two; omega)
        rwa [show lengthAt dist l 0 = 0 from lengthTo_zero _ _] at this
      obtain ⟨r, ps, hr, hps, -, hgap, hon, hhead, hlast⟩ :=
        discretize_at_interval_partial hl.positive hl.two ho hl.sides (cs := [0, lengthAt dist l (l.length - 1)])
          (by simp) (by simp) (by
            intro c hc
            simp only [List.mem_cons, List.not_mem_nil, or_false] at hc
            rcases hc with rfl | rfl
            · exact ⟨le_refl _, hpos⟩
            · exact ⟨hpos, le_refl _⟩) hl.size
      refine ⟨r :: css, ps :: ds, ?_, ?_, .cons ⟨⟨sort r, sort_sorted r, hgap, hon⟩, hhead, hlast⟩ hf⟩
      · simp only [List.map_cons, offsetLines, hr, hcss, Res.ok_bind]
      · simp only [discretizeLines, hps, hds, Res.ok_bind]
  obtain ⟨css, ds, hcss, hds, hf⟩ := key
  refine ⟨_, ⟨lines, css⟩, ds, create_ok dist lines (fun l hl => (h l hl).two), ?_, hds, hf⟩
  unfold offsettedChainages
  simp only [hcss, Res.ok_bind]

/-! ## The hypotheses can be met -/

example : Suitable axisDist 2 [⟨0, 0⟩, ⟨4, 0⟩, ⟨4, 3⟩] := by
  refine ⟨by simp, ?_, ⟨by norm_num [axisDist], by norm_num [axisDist], trivial⟩, by decide +kernel⟩
  intro k hk
  simp only [List.length_cons, List.length_nil] at hk
  have : k = 0 ∨ k = 1 := by omega
  rcases this with rfl | rfl <;> decide +kernel

example : (do let net ← create axisDist [[⟨0, 0⟩, ⟨4, 0⟩, ⟨4, 3⟩], [⟨0, 1⟩, ⟨3, 1⟩]]
              let net ← offsettedChainages net 2
              toMesh axisDist net) =
    .ok ([⟨0, 0⟩, ⟨7 / 4, 0⟩, ⟨7 / 2, 0⟩, ⟨4, 5 / 4⟩, ⟨4, 3⟩, ⟨0, 1⟩, ⟨3 / 2, 1⟩, ⟨3, 1⟩],
      [(0, 1), (1, 2), (2, 3), (3, 4), (5, 6), (6, 7)]) := by decide +kernel

example : offsetLine 2 [0, 7, 5] = .ok [0, 5, 7, 5 / 3, 10 / 3] := by decide +kernel

example : fixLine 1 (1 / 2) [3, 4] [0, 10] = [0, 10, 5 / 2, 7 / 2, 9 / 2] := by decide +kernel

example : split (isSep missingDouble) [⟨0, 0⟩, ⟨1, 0⟩, outerSep, ⟨2, 0⟩, ⟨3, 0⟩] = [[⟨0, 0⟩, ⟨1, 0⟩], [⟨2, 0⟩, ⟨3, 0⟩]] := by
  decide +kernel

end Verif.Network
