import Mathlib.Algebra.Order.Field.Rat
import Mathlib.Data.Rat.Lemmas
import Mathlib.Tactic.NormNum
import Verif.GridOrtho.Rect
import Verif.GridOrtho.Sums
import Verif.GridOrtho.Runs
import Verif.Smooth.Witness
/-!
# C89: orthogonalisation of a curvilinear grid
-/
namespace Verif.GridOrtho
open Verif.Smooth (NodeType)
open Verif.Curvi
open Verif.CurviLine (Pt)

section
variable {K : Type} [Field K] [DecidableEq K]

/-- A node that is moved lies in the block; it is an inner node that is not frozen, or it lies on a grid line between two corners. -/
theorem moved_only {s : Setup K} {c : Nodes K} {n m : Nat} (h : compute s c n m ≠ c n m) :
    InBlock s n m ∧ ((s.types n m = .internal ∧ s.frozen n m = false ∧ n < s.up.1 ∧ m < s.up.2) ∨ BetweenH s n m ∨ BetweenV s n m) := by
  by_contra hn
  apply h
  refine outerRounds_keeps (I := fun p => p = c n m) ?_ ?_ ?_ rfl
  · intro t ω c' hq hc
    unfold relaxNode
    split
    · rename_i hty
      rw [mem_places] at hq
      obtain ⟨q1, q2, q3, q4⟩ := hq
      exact absurd ⟨⟨by omega, by omega, by omega, by omega⟩, Or.inl ⟨hty.1, hty.2, by omega, by omega⟩⟩ hn
    · exact hc
  · intro t side st e c' hb hi _
    exact absurd ⟨hi, Or.inr (Or.inl hb)⟩ hn
  · intro t side st e c' hb hi _
    exact absurd ⟨hi, Or.inr (Or.inr hb)⟩ hn

/-- Nodes outside of the block stay. -/
theorem outside_kept {s : Setup K} {c : Nodes K} {n m : Nat} (h : ¬ InBlock s n m) : compute s c n m = c n m := by
  by_contra hn
  exact h (moved_only hn).1

/-- Frozen nodes that are not on a grid line between two corners stay. -/
theorem frozen_kept_partial {s : Setup K} {c : Nodes K} {n m : Nat} (h : s.frozen n m = true) (h1 : ¬ BetweenH s n m) (h2 : ¬ BetweenV s n m) :
    compute s c n m = c n m := by
  by_contra hn
  rcases (moved_only hn).2 with h3 | h3 | h3
  · rw [h3.2.1] at h
    cases h
  · exact h1 h3
  · exact h2 h3

/-- Frozen inner nodes stay, and so does every node that is neither an inner node nor on a border: with the types that were computed for a grid, a node that is
moved is an inner node that is not frozen, or it is no inner node and lies on a border between two corners. -/
theorem frozen_inner_kept {P : Type} [PointLike P] {s : Setup K} {g g1 : Grid P} {types : Nat → Nat → NodeType} (hg : WF g) (hs : Smooth.setup g = .ok (g1, types))
    (eN : s.numN = g1.numN) (eM : s.numM = g1.numM) (ht : s.types = types) {c : Nodes K} {n m : Nat} (hn : n < s.numN) (hm : m < s.numM)
    (h : compute s c n m ≠ c n m) :
    InBlock s n m ∧ ((s.types n m = .internal ∧ s.frozen n m = false) ∨ (s.types n m ≠ .internal ∧ (BetweenH s n m ∨ BetweenV s n m))) := by
  obtain ⟨h1, h2⟩ := moved_only h
  refine ⟨h1, ?_⟩
  by_cases hi : s.types n m = .internal
  · have h3 := inner_free hg hs eN eM ht hn hm hi
    rcases h2 with h2 | h2 | h2
    · exact Or.inl ⟨h2.1, h2.2.1⟩
    · exact absurd h2 h3.1
    · exact absurd h2 h3.2
  · rcases h2 with h2 | h2
    · exact absurd h2.1 hi
    · exact Or.inr ⟨hi, h2⟩

/-- Undo gives back the nodes, and redo after it the result. -/
theorem undone {s : Setup K} {c : Nodes K} : restore s c (compute s c) = c ∧ restore s (compute s c) (restore s c (compute s c)) = compute s c := by
  have h : restore s c (compute s c) = c := by
    funext n m
    unfold restore
    split
    · rfl
    · rename_i hb
      exact outside_kept (by simpa [inBlock, InBlock] using hb)
  refine ⟨h, ?_⟩
  rw [h]
  funext n m
  unfold restore
  split
  · rfl
  · rename_i hb
    exact (outside_kept (by simpa [inBlock, InBlock] using hb)).symm

/-- Inner nodes on the first line of a block in the inside of a grid are not numbers afterwards. -/
theorem block_line_not_number {P : Type} [PointLike P] {s : Setup K} {g g1 : Grid P} {types : Nat → Nat → NodeType} (hg : WF g)
    (hs : Smooth.setup g = .ok (g1, types)) (eN : s.numN = g1.numN) (eM : s.numM = g1.numM) (ht : s.types = types) {c : Nodes K} {n m : Nat}
    (hint : s.types n m = .internal) (hline : n = s.lo.1 ∨ m = s.lo.2) (h1 : 1 ≤ n) (h2 : s.lo.1 ≤ n) (h3 : n < s.up.1) (h4 : n < s.numN - 1)
    (h5 : 1 ≤ m) (h6 : s.lo.2 ≤ m) (h7 : m < s.up.2) (h8 : m < s.numM - 1) (hf : s.frozen n m = false)
    (ho : 1 ≤ s.outer) (hb : 1 ≤ s.boundary) (hi : 1 ≤ s.inner) : compute s c n m = none := by
  obtain ⟨hH, hV⟩ := inner_free hg hs eN eM ht (by omega) (by omega) hint
  have hstep : ∀ t ω (c : Nodes K), relaxNode s (terms s t) ω c (n, m) n m = none := by
    intro t ω c
    unfold relaxNode
    rw [if_pos ⟨hint, hf⟩, put_same, terms_zero hline, relaxed_zero]
  have k1 : ∀ t ω (c : Nodes K), (n, m) ∈ places s → c n m = none → relaxNode s (terms s t) ω c (n, m) n m = none := fun t ω c _ _ => hstep t ω c
  obtain ⟨o, ho⟩ : ∃ o, s.outer = o + 1 := ⟨s.outer - 1, by omega⟩
  obtain ⟨b, hb⟩ : ∃ b, s.boundary = b + 1 := ⟨s.boundary - 1, by omega⟩
  obtain ⟨i, hi⟩ : ∃ i, s.inner = i + 1 := ⟨s.inner - 1, by omega⟩
  unfold compute
  rw [ho, outerRounds, hb, boundaryRounds]
  have e1 : solve s (terms s (atp s c)) c n m = none := by
    unfold solve
    rw [hi, solveRounds]
    refine solveRounds_keeps (I := fun p => p = none) (k1 _) ?_
    refine foldl_hit (I := fun c : Nodes K => c n m = none) (x := (n, m)) (fun b => hstep _ _ b) ?_ ?_
    · rw [mem_places]
      omega
    · rintro b ⟨i, j⟩ _ hb
      by_cases he : n = i ∧ m = j
      · obtain ⟨rfl, rfl⟩ := he
        exact hstep _ _ b
      · unfold relaxNode
        split
        · rw [put_other he]; exact hb
        · exact hb
  refine outerRounds_keeps (I := fun p => p = none) k1 (fun _ _ _ _ _ h => absurd h hH) (fun _ _ _ _ _ h => absurd h hV) ?_
  refine boundaryRounds_keeps (I := fun p => p = none) (k1 _) (fun _ _ _ _ h => absurd h hH) (fun _ _ _ _ h => absurd h hV) ?_
  exact vertical_keeps (I := fun p => p = none) (fun _ _ _ _ h => absurd h hV)
    (horizontal_keeps (I := fun p => p = none) (fun _ _ _ _ h => absurd h hH) e1)

end

section
variable {K : Type} [Field K] [LinearOrder K] [IsStrictOrderedRing K]

/-- A rectangular grid that is orthogonalised as a whole stays, if the closest point to a node of a border is the node. -/
theorem rectangle_kept {s : Setup K} {h k : K} (hw : Whole s) (hh : 0 < h) (hk : 0 < k) {root : K → K} (hroot : ∀ x, 0 < x → root (x * x) = x) {f : K}
    (hr : s.ratio = ratioOf root f s.lo s.up)
    (p1 : ∀ n m, n < s.numN → m = 0 ∨ m = s.numM - 1 → s.project m 0 (s.numN - 1) (rectangle h k n m) = rectangle h k n m)
    (p2 : ∀ n m, m < s.numM → n = 0 ∨ n = s.numN - 1 → s.project (s.numM + n) 0 (s.numM - 1) (rectangle h k n m) = rectangle h k n m) :
    compute s (rectangle h k) = rectangle h k := by
  have hN := hw.wide
  have hM := hw.high
  have ha : ∀ n m, n < s.numN - 1 → m < s.numM - 1 → atp s (rectangle h k) n m = some (k / h) := by
    intro n m hn hm
    rw [atp_whole hw hn hm, hr]
    refine ratioOf_rect hroot hh hk ?_ ?_ ?_ ?_
    · rw [hw.lo]; exact Nat.zero_le _
    · rw [hw.up]; exact hn
    · rw [hw.lo]; exact Nat.zero_le _
    · rw [hw.up]; exact hm
  refine compute_full (P := fun c => c = rectangle h k) (R := fun c => c = rectangle h k) hw ?_ ?_ ?_ ?_ ?_ (fun _ _ h => h) rfl
  · rintro c0 c ω n m rfl rfl a1 a2 a3 a4
    rw [rect_relaxed hh hk a1 a3 (ha _ _ a2 a4) (ha _ _ a2 (by omega)) (ha _ _ (by omega) a4) (ha _ _ (by omega) (by omega)), put_self]
  · rintro c0 c x rfl rfl a1 a2
    rw [rect_above_h hh hk a1 (ha _ _ (by omega) (by omega)) (ha _ _ a2 (by omega)), p1 x 0 (by omega) (Or.inl rfl), put_self]
  · rintro c0 c x rfl rfl a1 a2
    rw [rect_below_h hh hk a1 (by omega) (ha _ _ (by omega) (by omega)) (ha _ _ a2 (by omega)), p1 x _ (by omega) (Or.inr rfl), put_self]
  · rintro c0 c x rfl rfl a1 a2
    rw [rect_above_v hh hk a1 (ha _ _ (by omega) (by omega)) (ha _ _ (by omega) a2), p2 0 x (by omega) (Or.inl rfl), put_self]
  · rintro c0 c x rfl rfl a1 a2
    rw [rect_below_v hh hk (by omega) a1 (ha _ _ (by omega) (by omega)) (ha _ _ (by omega) a2), p2 _ x (by omega) (Or.inr rfl), put_self]

/-- The nodes of a grid that is orthogonalised as a whole stay numbers, if no two neighbouring nodes coincide when an outer round begins and a point on a spline
is a number. -/
theorem numbers_partial {s : Setup K} {c : Nodes K} (hw : Whole s) {root : K → K} {f : K} (h0 : 0 ≤ f) (h1 : f ≤ 1) (hr : s.ratio = ratioOf root f s.lo s.up)
    (hd : ∀ j, j < s.outer → ∀ n m, n < s.numN → m < s.numM →
      (n + 1 < s.numN → 0 < distance root (outerRounds s j c n m) (outerRounds s j c (n + 1) m)) ∧
      (m + 1 < s.numM → 0 < distance root (outerRounds s j c n m) (outerRounds s j c n (m + 1))))
    (hp : ∀ l st e p, p.isSome → (s.project l st e p).isSome) (hc : ∀ n m, n < s.numN → m < s.numM → (c n m).isSome) :
    ∀ n m, n < s.numN → m < s.numM → (compute s c n m).isSome := by
  have hN := hw.wide
  have hM := hw.high
  have hput : ∀ {c : Nodes K} {n m : Nat} {p : Pos K}, (∀ n m, n < s.numN → m < s.numM → (c n m).isSome) → p.isSome →
      ∀ i j, i < s.numN → j < s.numM → (put c n m p i j).isSome := by
    intro c n m p hc h i j hi hj
    unfold put
    split
    · exact h
    · exact hc i j hi hj
  have hR : ∀ j, j < s.outer → (∀ n m, n < s.numN → m < s.numM → (outerRounds s j c n m).isSome) →
      ∀ n m, n < s.numN - 1 → m < s.numM - 1 → Good (s.ratio (outerRounds s j c) n m) := by
    intro j hj hall n m hn hm
    have u1 : s.up.1 = s.numN - 1 := by rw [hw.up]
    have u2 : s.up.2 = s.numM - 1 := by rw [hw.up]
    have l1 : s.lo.1 = 0 := by rw [hw.lo]
    have l2 : s.lo.2 = 0 := by rw [hw.lo]
    rw [hr]
    refine ratioOf_good h0 h1 (fun i j hi hj => hall i j (by omega) (by omega)) (by omega) (by omega) (by omega) (by omega) ?_ ?_
    · intro i _ hi
      have d1 := (hd j hj i m (by omega) (by omega)).1 (by omega)
      have d2 := (hd j hj i (m + 1) (by omega) (by omega)).1 (by omega)
      unfold width
      positivity
    · intro i _ hi
      have d1 := (hd j hj n i (by omega) (by omega)).2 (by omega)
      have d2 := (hd j hj (n + 1) i (by omega) (by omega)).2 (by omega)
      unfold height
      positivity
  refine compute_full (P := fun c => ∀ n m, n < s.numN → m < s.numM → (c n m).isSome) (R := fun c => ∀ n m, n < s.numN - 1 → m < s.numM - 1 → Good (s.ratio c n m)) hw
    ?_ ?_ ?_ ?_ ?_ hR hc
  all_goals
    intro c0 c
    have ha : (∀ n m, n < s.numN - 1 → m < s.numM - 1 → Good (s.ratio c0 n m)) → ∀ n m, n < s.numN - 1 → m < s.numM - 1 → Good (atp s c0 n m) := by
      intro h0 n m hn hm
      rw [atp_whole hw hn hm]
      exact h0 n m hn hm
  · intro ω n m h0 h1 a1 a2 a3 a4
    exact hput h1 (relaxed_some (ha h0 _ _ a2 a4) (ha h0 _ _ a2 (by omega)) (ha h0 _ _ (by omega) a4) (ha h0 _ _ (by omega) (by omega))
      (h1 _ _ (by omega) (by omega)) (h1 _ _ (by omega) (by omega)) (h1 _ _ (by omega) (by omega)) (h1 _ _ (by omega) (by omega)) (h1 _ _ (by omega) (by omega)))
  · intro x h0 h1 a1 a2
    exact hput h1 (hp _ _ _ _ (wantedH_above_some (ha h0 _ _ (by omega) (by omega)) (ha h0 _ _ (by omega) (by omega))
      (h1 _ _ (by omega) (by omega)) (h1 _ _ (by omega) (by omega)) (h1 _ _ (by omega) (by omega))))
  · intro x h0 h1 a1 a2
    exact hput h1 (hp _ _ _ _ (wantedH_below_some (ha h0 _ _ (by omega) (by omega)) (ha h0 _ _ (by omega) (by omega))
      (h1 _ _ (by omega) (by omega)) (h1 _ _ (by omega) (by omega)) (h1 _ _ (by omega) (by omega))))
  · intro x h0 h1 a1 a2
    exact hput h1 (hp _ _ _ _ (wantedV_above_some (ha h0 _ _ (by omega) (by omega)) (ha h0 _ _ (by omega) (by omega))
      (h1 _ _ (by omega) (by omega)) (h1 _ _ (by omega) (by omega)) (h1 _ _ (by omega) (by omega))))
  · intro x h0 h1 a1 a2
    exact hput h1 (hp _ _ _ _ (wantedV_below_some (ha h0 _ _ (by omega) (by omega)) (ha h0 _ _ (by omega) (by omega))
      (h1 _ _ (by omega) (by omega)) (h1 _ _ (by omega) (by omega)) (h1 _ _ (by omega) (by omega))))

end

/-! ## Concrete grids -/

/-- The root of a fraction, exact for squares. -/
def fracRoot (q : ℚ) : ℚ := (Nat.sqrt q.num.natAbs : ℚ) / (Nat.sqrt q.den : ℚ)

theorem fracRoot_square (q : ℚ) (h : 0 < q) : fracRoot (q * q) = q := by
  unfold fracRoot
  rw [Rat.mul_self_num, Rat.mul_self_den, Int.natAbs_mul, Nat.sqrt_eq, Nat.sqrt_eq]
  have h1 : ((q.num.natAbs : ℕ) : ℚ) = ((q.num : ℤ) : ℚ) := by
    have : ((q.num.natAbs : ℕ) : ℤ) = q.num := Int.natAbs_of_nonneg (Rat.num_nonneg.2 h.le)
    rw [← Int.cast_natCast, this]
  rw [h1]
  exact Rat.num_div_den q

/-- The closest point on the straight grid lines of a grid with columns at `x` and rows one above another. -/
def straight (x : Nat → ℚ) (M l _start _stop : Nat) (p : Pos ℚ) : Pos ℚ :=
  if l < M then p.map fun q => (q.1, (l : ℚ)) else p.map fun q => (x (l - M), q.2)

/-- A grid of `N` by `M` nodes of which the nodes of a block are moved, with straight borders. -/
def plain (x : Nat → ℚ) (N M : Nat) (lo up : Nat × Nat) (frozen : Nat → Nat → Bool) (rounds : Nat) : Setup ℚ :=
  ⟨N, M, lo, up, fullTypes N M, frozen, fun _ _ => true, ratioOf fracRoot (1 / 2) lo up, straight x M, rounds, rounds, rounds⟩

/-- Columns that become wider. -/
def wider (n : Nat) : ℚ := n * n

/-- Nodes in such columns. -/
def spread : Nodes ℚ := fun n m => some (wider n, m)

/-- All nodes are frozen and a node on the border is moved. -/
theorem frozen_border_moved : ∃ (s : Setup Rat) (c : Nodes Rat) (n m : Nat), Whole s ∧ (∀ n m, s.frozen n m = true) ∧ compute s c n m ≠ c n m :=
  ⟨plain wider 3 3 (0, 0) (2, 2) (fun _ _ => true) 1, spread, 1, 0, ⟨by decide, by decide, rfl, rfl, fun _ _ _ _ => rfl, fun _ _ => rfl⟩, fun _ _ => rfl, by decide +kernel⟩

/-- The conditions of `moved_only` are met: without frozen nodes the middle node is moved. -/
example : compute (plain wider 3 3 (0, 0) (2, 2) (fun _ _ => false) 1) spread 1 1 ≠ some (1, 1) := by decide +kernel

/-- Those of `outside_kept`. -/
example : compute (plain wider 5 5 (1, 1) (3, 3) (fun _ _ => false) 1) spread 4 2 = spread 4 2 := outside_kept (by rintro ⟨_, h, _, _⟩; revert h; decide)

/-- The types of a grid, none if they cannot be computed. -/
def typesOf (g : Grid (Pt ℚ)) : Nat → Nat → NodeType :=
  match Smooth.setup g with
  | .ok (_, t) => t
  | _ => fun _ _ => .invalid

theorem setup_typesOf {g : Grid (Pt ℚ)} (hg : WF g) : ∃ g1, Smooth.setup g = .ok (g1, typesOf g) ∧ g.numN = g1.numN ∧ g.numM = g1.numM := by
  obtain ⟨g1, types, h, _, hs, _⟩ := Smooth.setup_ok g hg
  exact ⟨g1, by rw [typesOf, h], hs.numN.symm, hs.numM.symm⟩

/-- Five by five nodes without the last one. -/
def bitten : Grid (Pt ℚ) := Smooth.bump 5 5 4 4 ⟨-999, -999⟩

/-- Its inner nodes of the block from (1, 1) to (3, 3) are moved. -/
def inBitten (frozen : Nat → Nat → Bool) : Setup ℚ := { plain wider 5 5 (1, 1) (3, 3) frozen 1 with types := typesOf bitten }

/-- Those of `frozen_kept_partial` and `frozen_inner_kept`: a frozen inner node. -/
example : compute (inBitten fun n _ => n == 1) spread 1 1 = spread 1 1 := by
  by_contra h
  obtain ⟨g1, h1, h2, h3⟩ := setup_typesOf (g := bitten) ⟨by decide, by decide⟩
  rcases (frozen_inner_kept (g := bitten) (s := inBitten fun n _ => n == 1) ⟨by decide, by decide⟩ h1 h2 h3 rfl (by decide) (by decide) h).2 with h4 | h4
  · exact absurd h4.2 (by decide)
  · exact absurd (show (inBitten fun n _ => n == 1).types 1 1 = .internal by decide +kernel) h4.1

/-- Those of `undone`: something was changed. -/
example : compute (plain wider 3 3 (0, 0) (2, 2) (fun _ _ => false) 1) spread ≠ spread := fun h => absurd (congrFun (congrFun h 1) 1) (by decide +kernel)

/-- Those of `block_line_not_number`: a block in the inside of five by five nodes. -/
example : compute (inBitten fun _ _ => false) (rectangle 1 1) 1 2 = none := by
  obtain ⟨g1, h1, h2, h3⟩ := setup_typesOf (g := bitten) ⟨by decide, by decide⟩
  exact block_line_not_number (g := bitten) ⟨by decide, by decide⟩ h1 h2 h3 rfl (by decide +kernel) (Or.inl rfl) (by decide) (by decide) (by decide) (by decide)
    (by decide) (by decide) (by decide) (by decide) rfl (by decide) (by decide) (by decide)

/-- Grids without missing nodes have the types that `rectangle_kept` asks for. -/
theorem whole_types {P : Type} [PointLike P] {g g1 : Grid P} {types : Nat → Nat → NodeType} (hg : WF g)
    (hv : ∀ n m, n < g.numN → m < g.numM → valid (g.node n m) = true) (hs : Smooth.setup g = .ok (g1, types)) :
    ∀ n m, n < g.numN → m < g.numM → types n m = fullTypes g.numN g.numM n m := (setup_full hg hv hs).2

/-- Those of `rectangle_kept`. -/
example : compute (plain (fun n => n) 5 5 (0, 0) (4, 4) (fun _ _ => false) 3) (rectangle 1 1) = rectangle 1 1 := by
  refine rectangle_kept (s := plain (fun n => n) 5 5 (0, 0) (4, 4) (fun _ _ => false) 3) ⟨by decide, by decide, rfl, rfl, fun _ _ _ _ => rfl, fun _ _ => rfl⟩
    one_pos one_pos fracRoot_square rfl ?_ ?_
  · rintro n m hn (rfl | rfl) <;> simp [plain, straight, rectangle]
  · rintro n m hm (rfl | rfl) <;> simp [plain, straight, rectangle]

/-- Those of `numbers_partial`. -/
example : ∀ n m, n < 3 → m < 3 → (compute (plain wider 3 3 (0, 0) (2, 2) (fun _ _ => false) 2) spread n m).isSome := by
  refine numbers_partial (s := plain wider 3 3 (0, 0) (2, 2) (fun _ _ => false) 2) ⟨by decide, by decide, rfl, rfl, fun _ _ _ _ => rfl, fun _ _ => rfl⟩
    (by norm_num) (by norm_num) rfl ?_ ?_ (fun _ _ _ _ => rfl)
  · have h : ∀ j < 2, ∀ n < 3, ∀ m < 3, (n + 1 < 3 → 0 < distance fracRoot (outerRounds (plain wider 3 3 (0, 0) (2, 2) (fun _ _ => false) 2) j spread n m)
        (outerRounds (plain wider 3 3 (0, 0) (2, 2) (fun _ _ => false) 2) j spread (n + 1) m)) ∧
        (m + 1 < 3 → 0 < distance fracRoot (outerRounds (plain wider 3 3 (0, 0) (2, 2) (fun _ _ => false) 2) j spread n m)
        (outerRounds (plain wider 3 3 (0, 0) (2, 2) (fun _ _ => false) 2) j spread n (m + 1))) := by decide +kernel
    exact fun j hj n m hn hm => h j hj n hn m hm
  · intro l st e p hp
    simp only [plain, straight]
    split <;> simpa using hp

end Verif.GridOrtho
