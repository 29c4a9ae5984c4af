import Verif.Network.Model
import Verif.Polygons.LinearSupport
/-!
# Lemmas about 1D networks
-/
namespace Verif.Network

open Verif.Polygons

/-- The length of a polyline up to its node number `i`. -/
def lengthAt (dist : Pt → Pt → ℚ) (line : List Pt) (i : Nat) : ℚ := lengthTo (fun b a => dist a b) line i

/-- `p` is the point of the polyline at length `d` from its start. -/
def OnLine (dist : Pt → Pt → ℚ) (line : List Pt) (d : ℚ) (p : Pt) : Prop := AtLength (fun b a => dist a b) line d p

/-- All sides of the polyline have a positive length. -/
def Sides (dist : Pt → Pt → ℚ) (line : List Pt) : Prop := SidesPositive (fun b a => dist a b) line

/-- Neighbours in the list are at most `o` apart. -/
def GapsAtMost (o : ℚ) : List ℚ → Prop
  | a :: b :: l => b - a ≤ o ∧ GapsAtMost o (b :: l)
  | _ => True

/-! ## Sorting -/

theorem sort_perm (cs : List ℚ) : (sort cs).Perm cs := List.perm_insertionSort _ _

theorem sort_sorted (cs : List ℚ) : (sort cs).Pairwise (· ≤ ·) := List.pairwise_insertionSort _ _

theorem sort_eq {cs s : List ℚ} (hp : s.Perm cs) (hs : s.Pairwise (· ≤ ·)) : sort cs = s :=
  ((sort_perm cs).trans hp.symm).eq_of_pairwise (fun _ _ _ _ h1 h2 => le_antisymm h1 h2) (sort_sorted cs) hs

theorem mem_sort {cs : List ℚ} {c : ℚ} : c ∈ sort cs ↔ c ∈ cs := (sort_perm cs).mem_iff

/-! ## Nodal chainages -/

theorem runningSum_eq (dist : Pt → Pt → ℚ) (acc : ℚ) (line : List Pt) (h : line ≠ []) :
    runningSum acc (edgeLengths dist line) = cumulate (fun b a => dist a b) acc line := by
  induction line generalizing acc with
  | nil => exact absurd rfl h
  | cons a t ih =>
    cases t with
    | nil => rfl
    | cons b t =>
      simp only [edgeLengths, runningSum, cumulate]
      rw [ih _ (by simp)]

theorem nodalChainages_eq (dist : Pt → Pt → ℚ) {line : List Pt} (h : 2 ≤ line.length) :
    nodalChainages dist line = cumulate (fun b a => dist a b) 0 line := by
  match line, h with
  | a :: b :: t, _ =>
    unfold nodalChainages
    rw [if_neg (by simp [edgeLengths]), runningSum_eq dist 0 (a :: b :: t) (by simp)]

theorem nodalChainages_short (dist : Pt → Pt → ℚ) {line : List Pt} (h : line.length < 2) :
    nodalChainages dist line = [] := by
  match line, h with
  | [], _ => rfl
  | [a], _ => rfl

theorem nodal_get (dist : Pt → Pt → ℚ) {line : List Pt} (h : 2 ≤ line.length) {i : Nat} (hi : i < line.length) :
    vget (nodalChainages dist line) i = .ok (lengthAt dist line i) := by
  rw [nodalChainages_eq dist h, vget_eq_ok, cumulate_get _ _ _ _ hi, zero_add]
  rfl

theorem nodal_length (dist : Pt → Pt → ℚ) {line : List Pt} (h : 2 ≤ line.length) :
    (nodalChainages dist line).length = line.length := by
  rw [nodalChainages_eq dist h, cumulate_length]

theorem edgeLengths_get (dist : Pt → Pt → ℚ) (line : List Pt) (i : Nat) {a b : Pt} (ha : line[i]? = some a)
    (hb : line[i + 1]? = some b) : vget (edgeLengths dist line) i = .ok (dist a b) := by
  rw [vget_eq_ok]
  induction line generalizing i with
  | nil => simp at ha
  | cons c t ih =>
    cases t with
    | nil => simp at hb
    | cons d t =>
      cases i with
      | zero =>
        simp only [List.getElem?_cons_zero, List.getElem?_cons_succ, Option.some.injEq] at ha hb
        simp [edgeLengths, ha, hb]
      | succ i =>
        simp only [List.getElem?_cons_succ] at ha hb
        simp only [edgeLengths, List.getElem?_cons_succ]
        exact ih i (by simpa using ha) (by simpa using hb)

theorem lengthAt_mono {dist : Pt → Pt → ℚ} {line : List Pt} (hs : Sides dist line) {i j : Nat} (hij : i ≤ j)
    (hj : j < line.length) : lengthAt dist line i ≤ lengthAt dist line j := by
  rcases Nat.lt_or_eq_of_le hij with h | rfl
  · exact le_of_lt (lengthTo_strict hs h hj)
  · exact le_refl _

/-! ## Placing points -/

/-- Between any two neighbouring nodes of the polyline lies a chainage (or at the second of the two). -/
def Covers (dist : Pt → Pt → ℚ) (line : List Pt) (cs : List ℚ) (start : Nat) : Prop :=
  ∀ k, start ≤ k → k + 1 < line.length → ∃ c ∈ cs, lengthAt dist line k < c ∧ c ≤ lengthAt dist line (k + 1)

theorem place_ok {dist : Pt → Pt → ℚ} {line : List Pt} (hs : Sides dist line) (h2 : 2 ≤ line.length) (cs : List ℚ)
    (hsort : cs.Pairwise (· ≤ ·)) (cur : Nat) (hcur : cur + 1 < line.length)
    (hlow : ∀ c ∈ cs, lengthAt dist line cur ≤ c) (hhigh : ∀ c ∈ cs, c ≤ lengthAt dist line (line.length - 1))
    (hcov : Covers dist line cs (cur + 1)) :
    ∃ ps, place line (edgeLengths dist line) (nodalChainages dist line) cur cs = .ok ps ∧
      List.Forall₂ (OnLine dist line) cs ps := by
  induction cs generalizing cur with
  | nil => exact ⟨[], rfl, .nil⟩
  | cons c cs ih =>
    obtain ⟨hc, hsort'⟩ := List.pairwise_cons.1 hsort
    simp only [place, nodal_get dist h2 hcur, Res.ok_bind]
    have main : ∀ seg, seg + 1 < line.length → lengthAt dist line seg ≤ c → c ≤ lengthAt dist line (seg + 1) →
        (Covers dist line cs (seg + 1)) →
        ∃ ps, (do
          let n0 ← vget (nodalChainages dist line) seg
          let a ← vget line seg
          let b ← vget line (seg + 1)
          let len ← vget (edgeLengths dist line) seg
          if len = 0 then .ub
          else do
            let ps ← place line (edgeLengths dist line) (nodalChainages dist line) seg cs
            .ok (pointAt a b ((c - n0) / len) :: ps) : Res (List Pt)) = .ok ps ∧
          List.Forall₂ (OnLine dist line) (c :: cs) ps := by
      intro seg hseg hlo hhi hcov'
      have ha : line[seg]? = some line[seg] := List.getElem?_eq_getElem (by omega)
      have hb : line[seg + 1]? = some line[seg + 1] := List.getElem?_eq_getElem hseg
      have hpos : 0 < dist line[seg] line[seg + 1] := side_pos hs ha hb
      have hside : lengthAt dist line (seg + 1) = lengthAt dist line seg + dist line[seg] line[seg + 1] :=
        side_length (fun b a => dist a b) line seg ha hb
      obtain ⟨ps, hps, hf⟩ := ih hsort' seg hseg (fun x hx => le_trans hlo (hc x hx))
        (fun x hx => hhigh x (List.mem_cons_of_mem _ hx)) hcov'
      rw [nodal_get dist h2 (by omega), Res.ok_bind, vget_eq_ok.2 ha, Res.ok_bind, vget_eq_ok.2 hb, Res.ok_bind,
        edgeLengths_get dist line seg ha hb, Res.ok_bind, if_neg (ne_of_gt hpos), hps, Res.ok_bind]
      refine ⟨_, rfl, .cons ⟨seg, _, _, _, ha, hb, ?_, ?_, rfl, ?_⟩ hf⟩
      · exact div_nonneg (by linarith) (le_of_lt hpos)
      · rw [div_le_one hpos]; linarith
      · rw [div_mul_cancel₀ _ (ne_of_gt hpos)]
        show c = lengthAt dist line seg + _
        ring
    by_cases hgt : c > lengthAt dist line (cur + 1)
    · rw [if_pos hgt]
      have hlt : cur + 1 + 1 < line.length := by
        by_contra hge
        have e : line.length - 1 = cur + 1 := by omega
        have := hhigh c List.mem_cons_self
        rw [e] at this
        linarith
      obtain ⟨c', hc', h1, h2'⟩ := hcov (cur + 1) (le_refl _) hlt
      have hle : c ≤ lengthAt dist line (cur + 1 + 1) := by
        rcases List.mem_cons.1 hc' with rfl | hm
        · exact h2'
        · exact le_trans (hc c' hm) h2'
      refine main (cur + 1) hlt (le_of_lt hgt) hle ?_
      intro k hk hkl
      obtain ⟨c'', hc'', h3, h4⟩ := hcov k (by omega) hkl
      rcases List.mem_cons.1 hc'' with rfl | hm
      · have := lengthAt_mono hs hk (by omega : k < line.length)
        linarith
      · exact ⟨c'', hm, h3, h4⟩
    · rw [if_neg hgt]
      refine main cur hcur (hlow c List.mem_cons_self) (not_lt.1 hgt) ?_
      intro k hk hkl
      obtain ⟨c'', hc'', h3, h4⟩ := hcov k hk hkl
      rcases List.mem_cons.1 hc'' with rfl | hm
      · have := lengthAt_mono hs hk (by omega : k < line.length)
        linarith
      · exact ⟨c'', hm, h3, h4⟩

theorem discretize_ok {dist : Pt → Pt → ℚ} {line : List Pt} (hs : Sides dist line) (h2 : 2 ≤ line.length) {cs : List ℚ}
    (hlow : ∀ c ∈ cs, 0 ≤ c) (hhigh : ∀ c ∈ cs, c ≤ lengthAt dist line (line.length - 1)) (hcov : Covers dist line cs 1) :
    ∃ ps, discretize dist line cs = .ok ps ∧ List.Forall₂ (OnLine dist line) (sort cs) ps := by
  unfold discretize
  rw [if_neg (by omega)]
  refine place_ok hs h2 (sort cs) (sort_sorted cs) 0 (by omega) ?_ (fun c hc => hhigh c (mem_sort.1 hc)) ?_
  · intro c hc
    have : lengthAt dist line 0 = 0 := lengthTo_zero _ _
    rw [this]
    exact hlow c (mem_sort.1 hc)
  · intro k hk hkl
    obtain ⟨c, hc, h⟩ := hcov k hk hkl
    exact ⟨c, mem_sort.2 hc, h⟩

/-- No access out of bounds as long as no chainage is larger than the length. -/
theorem place_not_ub {dist : Pt → Pt → ℚ} {line : List Pt} (hs : Sides dist line) (h2 : 2 ≤ line.length) (cs : List ℚ)
    (cur : Nat) (hcur : cur + 1 < line.length) (hhigh : ∀ c ∈ cs, c ≤ lengthAt dist line (line.length - 1)) :
    ∃ ps, place line (edgeLengths dist line) (nodalChainages dist line) cur cs = .ok ps ∧ ps.length = cs.length := by
  induction cs generalizing cur with
  | nil => exact ⟨[], rfl, rfl⟩
  | cons c cs ih =>
    simp only [place, nodal_get dist h2 hcur, Res.ok_bind]
    have main : ∀ seg, seg + 1 < line.length →
        ∃ ps, (do
          let n0 ← vget (nodalChainages dist line) seg
          let a ← vget line seg
          let b ← vget line (seg + 1)
          let len ← vget (edgeLengths dist line) seg
          if len = 0 then .ub
          else do
            let ps ← place line (edgeLengths dist line) (nodalChainages dist line) seg cs
            .ok (pointAt a b ((c - n0) / len) :: ps) : Res (List Pt)) = .ok ps ∧ ps.length = (c :: cs).length := by
      intro seg hseg
      have ha : line[seg]? = some line[seg] := List.getElem?_eq_getElem (by omega)
      have hb : line[seg + 1]? = some line[seg + 1] := List.getElem?_eq_getElem hseg
      have hpos : 0 < dist line[seg] line[seg + 1] := side_pos hs ha hb
      obtain ⟨ps, hps, hf⟩ := ih seg hseg (fun x hx => hhigh x (List.mem_cons_of_mem _ hx))
      rw [nodal_get dist h2 (by omega), Res.ok_bind, vget_eq_ok.2 ha, Res.ok_bind, vget_eq_ok.2 hb, Res.ok_bind,
        edgeLengths_get dist line seg ha hb, Res.ok_bind, if_neg (ne_of_gt hpos), hps, Res.ok_bind]
      exact ⟨_, rfl, by simp [hf]⟩
    by_cases hgt : c > lengthAt dist line (cur + 1)
    · rw [if_pos hgt]
      refine main (cur + 1) ?_
      by_contra hge
      have e : line.length - 1 = cur + 1 := by omega
      have := hhigh c List.mem_cons_self
      rw [e] at this
      linarith
    · rw [if_neg hgt]
      exact main cur hcur

/-! ## Chainages at an interval -/

theorem arith_sorted {a d : ℚ} (hd : 0 ≤ d) (k : Nat) :
    (arith a d k).Pairwise (· ≤ ·) ∧ ∀ x ∈ arith a d k, a ≤ x ∧ x ≤ a + (k - 1 : Nat) * d := by
  induction k generalizing a with
  | zero => simp [arith]
  | succ k ih =>
    obtain ⟨h1, h2⟩ := ih (a := a + d)
    simp only [arith]
    refine ⟨List.pairwise_cons.2 ⟨fun x hx => by have := (h2 x hx).1; linarith, h1⟩, ?_⟩
    intro x hx
    rcases List.mem_cons.1 hx with rfl | hx
    · refine ⟨le_refl _, ?_⟩
      have : 0 ≤ ((k + 1 - 1 : Nat) : ℚ) * d := by positivity
      linarith
    · obtain ⟨h3, h4⟩ := h2 x hx
      refine ⟨by linarith, ?_⟩
      cases k with
      | zero => simp [arith] at hx
      | succ k =>
        simp only [Nat.add_sub_cancel] at *
        push_cast
        linarith

theorem range'_map_arith (a h : ℚ) (s k : Nat) :
    (List.range' s k).map (fun (j : Nat) => a + (j : ℚ) * h) = arith (a + s * h) h k := by
  induction k generalizing s with
  | zero => rfl
  | succ k ih =>
    rw [List.range'_succ, List.map_cons, ih]
    simp only [arith]
    congr 2
    push_cast
    ring

/-- What lies between two neighbours: an arithmetic progression with steps of at most the interval. -/
theorem between_ok {o a b : ℚ} (ho : 0 < o) (hab : a ≤ b) {x : List ℚ} (h : between o a b = .ok x) :
    ∃ k h', x = arith (a + h') h' k ∧ 0 ≤ h' ∧ h' ≤ o ∧ b = a + (k + 1 : Nat) * h' ∧ (o ≤ b - a → o < 2 * h') := by
  unfold between at h
  split at h
  · rename_i hlt
    refine ⟨0, b - a, by simpa [arith] using (Res.ok.inj h).symm, by linarith, le_of_lt hlt, ?_, fun h => by linarith⟩
    push_cast; ring
  · rename_i hge
    rw [if_neg (ne_of_gt ho)] at h
    simp only [] at h
    split at h
    · cases h
    · rename_i hn
      have hba : o ≤ b - a := not_lt.1 hge
      have hpos : 0 < (b - a) / o := div_pos (by linarith) ho
      have hn1 : 1 ≤ ⌈(b - a) / o⌉ := Int.one_le_ceil_iff.2 hpos
      obtain ⟨n, hnn⟩ : ∃ n : Nat, ⌈(b - a) / o⌉ = (n + 1 : Nat) := ⟨(⌈(b - a) / o⌉ - 1).toNat, by omega⟩
      rw [hnn] at h
      have hn0 : (0 : ℚ) < ((n + 1 : Nat) : ℚ) := by positivity
      have hle : (b - a) / o ≤ ((n + 1 : Nat) : ℚ) := by
        have := Int.le_ceil ((b - a) / o)
        rw [hnn] at this
        exact_mod_cast this
      have hlt : ((n + 1 : Nat) : ℚ) < (b - a) / o + 1 := by
        have := Int.ceil_lt_add_one ((b - a) / o)
        rw [hnn] at this
        exact_mod_cast this
      refine ⟨n, (b - a) / ((n + 1 : Nat) : ℚ), ?_, ?_, ?_, ?_, fun _ => ?_⟩
      · rw [← Res.ok.inj h, range'_map_arith]
        simp only [Int.cast_natCast, Int.toNat_natCast, Nat.add_sub_cancel, Nat.cast_one, one_mul]
      · exact div_nonneg (by linarith) (le_of_lt hn0)
      · rw [div_le_iff₀ hn0]
        rw [div_le_iff₀ ho] at hle
        linarith
      · rw [mul_div_cancel₀ _ (ne_of_gt hn0)]; ring
      · have h1 : ((n + 1 : Nat) : ℚ) * o < b - a + o := by
          have := mul_lt_mul_of_pos_right hlt ho
          rw [add_mul, div_mul_cancel₀ _ (ne_of_gt ho)] at this
          linarith
        rw [show 2 * ((b - a) / ((n + 1 : Nat) : ℚ)) = (2 * (b - a)) / ((n + 1 : Nat) : ℚ) by ring, lt_div_iff₀ hn0]
        linarith

theorem gaps_arith {o h' : ℚ} (hle : h' ≤ o) (k : Nat) (a : ℚ) {rest : List ℚ} {b : ℚ} (hb : b = a + (k + 1 : Nat) * h')
    (hr : GapsAtMost o (b :: rest)) : GapsAtMost o (a :: (arith (a + h') h' k ++ b :: rest)) := by
  induction k generalizing a with
  | zero =>
    simp only [arith, List.nil_append, GapsAtMost]
    refine ⟨?_, hr⟩
    push_cast at hb
    linarith
  | succ k ih =>
    simp only [arith, List.cons_append, GapsAtMost]
    refine ⟨by linarith, ih (a + h') ?_⟩
    rw [hb]
    push_cast
    ring

/-- The old chainages with the new ones in their places. -/
theorem intervals_ok {o : ℚ} (ho : 0 < o) {s new : List ℚ} (hs : s.Pairwise (· ≤ ·)) (h : intervals o s = .ok new) :
    ∃ w, w.Perm (s ++ new) ∧ w.Pairwise (· ≤ ·) ∧ GapsAtMost o w ∧ w.head? = s.head? ∧
      ∀ x ∈ new, ∃ lo ∈ s, ∃ hi ∈ s, lo ≤ x ∧ x ≤ hi := by
  induction s generalizing new with
  | nil => exact ⟨[], by simp [intervals] at h; simp [h], .nil, trivial, rfl,
      by simp [intervals] at h; simp [h]⟩
  | cons a t ih =>
    cases t with
    | nil =>
      simp only [intervals] at h
      exact ⟨[a], by simp [← Res.ok.inj h], List.pairwise_singleton _ _, trivial, rfl, by simp [← Res.ok.inj h]⟩
    | cons b t =>
      obtain ⟨ha, hs'⟩ := List.pairwise_cons.1 hs
      simp only [intervals] at h
      obtain ⟨x, hx, h⟩ := Res.bind_eq_ok.1 h
      obtain ⟨y, hy, h⟩ := Res.bind_eq_ok.1 h
      obtain ⟨w, hperm, hsorted, hgap, hhead, hin⟩ := ih hs' hy
      obtain ⟨k, h', rfl, h0, hle, hb, -⟩ := between_ok ho (ha b List.mem_cons_self) hx
      obtain ⟨w', rfl⟩ : ∃ w', w = b :: w' := by
        cases w with
        | nil => simp at hhead
        | cons c w' =>
          simp only [List.head?_cons, Option.some.injEq] at hhead
          exact ⟨w', by rw [hhead]⟩
      obtain ⟨hw1, hw2⟩ := List.pairwise_cons.1 hsorted
      have hxb : ∀ x ∈ arith (a + h') h' k, a ≤ x ∧ x ≤ b := by
        intro x hx
        obtain ⟨h1, h2⟩ := (arith_sorted (a := a + h') h0 k).2 x hx
        refine ⟨by linarith, ?_⟩
        cases k with
        | zero => simp [arith] at hx
        | succ k =>
          simp only [Nat.add_sub_cancel] at h2
          rw [hb]
          push_cast
          linarith
      refine ⟨a :: (arith (a + h') h' k ++ b :: w'), ?_, ?_, ?_, rfl, ?_⟩
      · rw [← Res.ok.inj h]
        refine List.Perm.cons a ?_
        refine (List.Perm.append_left _ hperm).trans ?_
        show (arith (a + h') h' k ++ ((b :: t) ++ y)).Perm ((b :: t) ++ (arith (a + h') h' k ++ y))
        rw [← List.append_assoc, ← List.append_assoc]
        exact List.perm_append_comm.append_right y
      · obtain ⟨s1, -⟩ := arith_sorted (a := a + h') h0 k
        have hbw : ∀ y ∈ b :: w', b ≤ y := by
          intro y hy
          rcases List.mem_cons.1 hy with rfl | hy
          · exact le_refl _
          · exact hw1 y hy
        refine List.pairwise_cons.2 ⟨?_, List.pairwise_append.2 ⟨s1, hsorted, ?_⟩⟩
        · intro y hy
          rcases List.mem_append.1 hy with hy | hy
          · exact (hxb y hy).1
          · exact le_trans (ha b List.mem_cons_self) (hbw y hy)
        · intro x hx y hy
          exact le_trans (hxb x hx).2 (hbw y hy)
      · exact gaps_arith hle k a hb hgap
      · intro x hx
        rw [← Res.ok.inj h] at hx
        rcases List.mem_append.1 hx with hx | hx
        · exact ⟨a, List.mem_cons_self, b, by simp, hxb x hx⟩
        · obtain ⟨lo, hlo, hi, hhi, hle⟩ := hin x hx
          exact ⟨lo, List.mem_cons_of_mem _ hlo, hi, List.mem_cons_of_mem _ hhi, hle⟩

theorem intervals_success {o : ℚ} (ho : 0 < o) {s : List ℚ} (hs : s.Pairwise (· ≤ ·)) {T : ℚ} (hT : T / o ≤ 2 ^ 32 - 1)
    (hmax : ∀ a ∈ s, ∀ b ∈ s, b - a ≤ T) : ∃ new, intervals o s = .ok new := by
  induction s with
  | nil => exact ⟨[], rfl⟩
  | cons a t ih =>
    cases t with
    | nil => exact ⟨[], rfl⟩
    | cons b t =>
      obtain ⟨ha, hs'⟩ := List.pairwise_cons.1 hs
      obtain ⟨y, hy⟩ := ih hs' (fun x hx z hz => hmax x (List.mem_cons_of_mem _ hx) z (List.mem_cons_of_mem _ hz))
      have hb : ∃ x, between o a b = .ok x := by
        unfold between
        split
        · exact ⟨_, rfl⟩
        · rw [if_neg (ne_of_gt ho)]
          simp only []
          rw [if_neg]
          · exact ⟨_, rfl⟩
          · have hab := ha b List.mem_cons_self
            have hle := hmax a List.mem_cons_self b (by simp)
            have h1 : 0 ≤ (b - a) / o := div_nonneg (by linarith) (le_of_lt ho)
            have h2 : (b - a) / o ≤ ((2 ^ 32 - 1 : Int) : ℚ) := by
              have e : ((2 ^ 32 - 1 : Int) : ℚ) = 2 ^ 32 - 1 := by norm_num
              rw [e]
              exact le_trans (div_le_div_of_nonneg_right hle (le_of_lt ho)) hT
            have h3 := Int.ceil_nonneg h1
            have h4 := Int.ceil_le.2 h2
            rintro (h | h)
            · omega
            · omega
      obtain ⟨x, hx⟩ := hb
      exact ⟨x ++ y, by simp only [intervals, hx, hy, Res.ok_bind]⟩

/-- In a list with small gaps that passes a point, some entry comes soon after the point. -/
theorem gaps_find {o : ℚ} {l : List ℚ} (hg : GapsAtMost o l) {x a : ℚ} (hh : l.head? = some a) (hax : a ≤ x)
    (hex : ∃ c ∈ l, x < c) : ∃ c ∈ l, x < c ∧ c ≤ x + o := by
  induction l generalizing a with
  | nil => simp at hh
  | cons a' t ih =>
    simp only [List.head?_cons, Option.some.injEq] at hh
    subst hh
    cases t with
    | nil =>
      obtain ⟨c, hc, h⟩ := hex
      rw [List.mem_singleton.1 hc] at h
      linarith
    | cons b t =>
      simp only [GapsAtMost] at hg
      by_cases hb : x < b
      · exact ⟨b, by simp, hb, by linarith [hg.1]⟩
      · obtain ⟨c, hc, h⟩ := hex
        have hc' : c ∈ b :: t := by
          rcases List.mem_cons.1 hc with rfl | hc
          · linarith
          · exact hc
        obtain ⟨c, hc, h⟩ := ih hg.2 rfl (not_lt.1 hb) ⟨c, hc', h⟩
        exact ⟨c, List.mem_cons_of_mem _ hc, h⟩

end Verif.Network
