import Verif.Ridge.Model
import Mathlib.Tactic.Ring
import Mathlib.Tactic.Linarith
import Mathlib.Tactic.LinearCombination
import Mathlib.Tactic.NormNum
/-!
# Ridges of gridded samples: lemmas
-/
namespace Verif.Ridge

section Fill
variable {α : Type}

/-- What two nested loops that each time set or leave their own element have done for the pairs in `V`. -/
structure Filled (idx : Nat → Nat → Nat) (u : Nat → Nat → Option α) (V : Nat → Nat → Prop) (l l' : List α) : Prop where
  len : l'.length = l.length
  hit : ∀ i j, V i j → l'[idx i j]? = match u i j with
    | none => l[idx i j]?
    | some a => some a
  miss : ∀ k, (∀ i j, V i j → idx i j ≠ k) → l'[k]? = l[k]?

theorem Filled.step {idx : Nat → Nat → Nat} {u : Nat → Nat → Option α} {V W : Nat → Nat → Prop} {l l' : List α} {i j : Nat}
    (h : Filled idx u V l l') (hlt : idx i j < l.length) (hnew : ∀ a b, V a b → idx a b ≠ idx i j)
    (hW : ∀ a b, W a b ↔ V a b ∨ (a = i ∧ b = j)) :
    Filled idx u W l (match u i j with
      | none => l'
      | some a => l'.set (idx i j) a) := by
  cases hu : u i j with
  | none =>
    refine ⟨h.len, ?_, ?_⟩
    · intro a b hab
      rcases (hW a b).1 hab with h1 | ⟨rfl, rfl⟩
      · exact h.hit a b h1
      · rw [hu]; exact h.miss _ hnew
    · intro k hk
      exact h.miss k (fun a b hab => hk a b ((hW a b).2 (Or.inl hab)))
  | some c =>
    refine ⟨by simp [h.len], ?_, ?_⟩
    · intro a b hab
      rcases (hW a b).1 hab with h1 | ⟨rfl, rfl⟩
      · simp only
        rw [List.getElem?_set_ne (Ne.symm (hnew a b h1))]; exact h.hit a b h1
      · simp only [hu]
        rw [List.getElem?_set_self (by rw [h.len]; exact hlt)]
    · intro k hk
      simp only
      rw [List.getElem?_set_ne (hk i j ((hW i j).2 (Or.inr ⟨rfl, rfl⟩)))]
      exact h.miss k (fun a b hab => hk a b ((hW a b).2 (Or.inl hab)))

theorem fill2 (idx : Nat → Nat → Nat) (u : Nat → Nat → Option α) (f : Nat → Nat → List α → Res (List α)) (a b c d : Nat) (l : List α)
    (hab : a ≤ b) (hcd : c ≤ d)
    (hlt : ∀ i j, a ≤ i → i < b → c ≤ j → j < d → idx i j < l.length)
    (hinj : ∀ i j i' j', a ≤ i → i < b → c ≤ j → j < d → a ≤ i' → i' < b → c ≤ j' → j' < d → idx i j = idx i' j' → i = i' ∧ j = j')
    (hf : ∀ i j l', a ≤ i → i < b → c ≤ j → j < d → l'.length = l.length → l'[idx i j]? = l[idx i j]? → f i j l' = .ok (match u i j with
      | none => l'
      | some v => l'.set (idx i j) v)) :
    ∃ l', forRange a b (fun i => forRange c d (f i)) l = .ok l' ∧ Filled idx u (fun i j => a ≤ i ∧ i < b ∧ c ≤ j ∧ j < d) l l' := by
  refine forRange_inv (fun n l' => Filled idx u (fun i j => a ≤ i ∧ i < n ∧ c ≤ j ∧ j < d) l l') hab ?_ ?_
  · exact ⟨rfl, fun i j h => absurd h.2.1 (by omega), fun _ _ => rfl⟩
  · intro i t hi1 hi2 ht
    obtain ⟨t', h1, h2⟩ := forRange_inv (f := f i) (fun n l' => Filled idx u (fun i' j' => (a ≤ i' ∧ i' < i ∧ c ≤ j' ∧ j' < d) ∨ (i' = i ∧ c ≤ j' ∧ j' < n)) l l') hcd (s := t)
      ⟨ht.len, fun i' j' h => ht.hit i' j' (by rcases h with h | h; exact h; exact absurd h.2.2 (by omega)),
        fun k hk => ht.miss k (fun i' j' h => hk i' j' (Or.inl h))⟩ (by
        intro j w hj1 hj2 hw
        have hfresh : ∀ i' j', ((a ≤ i' ∧ i' < i ∧ c ≤ j' ∧ j' < d) ∨ (i' = i ∧ c ≤ j' ∧ j' < j)) → idx i' j' ≠ idx i j := by
          intro i' j' h e
          rcases h with ⟨h1, h2, h3, h4⟩ | ⟨h1, h2, h3⟩
          · have := hinj i' j' i j h1 (by omega) h3 h4 hi1 hi2 hj1 hj2 e; omega
          · have := hinj i' j' i j (by omega) (by omega) h2 (by omega) hi1 hi2 hj1 hj2 e; omega
        refine ⟨_, hf i j w hi1 hi2 hj1 hj2 hw.len (hw.miss _ hfresh), hw.step (hlt i j hi1 hi2 hj1 hj2) hfresh ?_⟩
        intro i' j'; constructor
        · rintro (h | ⟨h1, h2, h3⟩)
          · exact Or.inl (Or.inl h)
          · rcases Nat.lt_succ_iff_lt_or_eq.1 h3 with h4 | h4
            · exact Or.inl (Or.inr ⟨h1, h2, h4⟩)
            · exact Or.inr ⟨h1, h4⟩
        · rintro ((h | ⟨h1, h2, h3⟩) | ⟨h1, h2⟩)
          · exact Or.inl h
          · exact Or.inr ⟨h1, h2, by omega⟩
          · exact Or.inr ⟨h1, by omega, by omega⟩)
    refine ⟨t', h1, h2.len, fun i' j' h => h2.hit i' j' ?_, fun k hk => h2.miss k (fun i' j' h => hk i' j' ?_)⟩
    · rcases Nat.lt_succ_iff_lt_or_eq.1 h.2.1 with h4 | h4
      · exact Or.inl ⟨h.1, h4, h.2.2⟩
      · exact Or.inr ⟨h4, h.2.2⟩
    · rcases h with h | h
      · exact ⟨h.1, by omega, h.2.2⟩
      · exact ⟨by omega, by omega, h.2.1, h.2.2⟩

end Fill

theorem cell_lt {n1 n2 i j : Nat} (hi : i < n1) (hj : j < n2) : i + n1 * j < n1 * n2 := by
  have : n1 * (j + 1) ≤ n1 * n2 := Nat.mul_le_mul_left _ hj
  rw [Nat.mul_add] at this; omega

theorem cell_inj {n1 i j i' j' : Nat} (hi : i < n1) (hi' : i' < n1) (h : i + n1 * j = i' + n1 * j') : i = i' ∧ j = j' := by
  have h1 : (i + n1 * j) % n1 = i := by rw [Nat.add_mul_mod_self_left, Nat.mod_eq_of_lt hi]
  have h2 : (i' + n1 * j') % n1 = i' := by rw [Nat.add_mul_mod_self_left, Nat.mod_eq_of_lt hi']
  have h3 : i = i' := by rw [← h1, h, h2]
  refine ⟨h3, ?_⟩
  subst h3
  exact Nat.eq_of_mul_eq_mul_left (by omega) (Nat.add_left_cancel h)

theorem cell_split {n1 n2 k : Nat} (hk : k < n1 * n2) : ∃ i j, i < n1 ∧ j < n2 ∧ k = i + n1 * j := by
  have h0 : 0 < n1 := by rcases Nat.eq_zero_or_pos n1 with h | h; · subst h; simp at hk
                         · exact h
  exact ⟨k % n1, k / n1, Nat.mod_lt _ h0, Nat.div_lt_of_lt_mul hk, (Nat.mod_add_div k n1).symm⟩

variable {K : Type} [Field K] [LinearOrder K]

theorem mget_ok {α : Type} {n1 n2 : Nat} {z : List α} {i j : Nat} {a : α} (hi : i < n1) (hj : j < n2) (h : z[i + n1 * j]? = some a) :
    mget n1 n2 z i j = .ok a := by
  have : i < n1 ∧ j < n2 := ⟨hi, hj⟩
  rw [mget, if_pos this]; exact vget_eq_ok.2 h

theorem mset_ok {α : Type} {n1 n2 : Nat} {z : List α} {i j : Nat} (a : α) (hi : i < n1) (hj : j < n2) (hz : z.length = n1 * n2) :
    mset n1 n2 z i j a = .ok (z.set (i + n1 * j) a) := by
  have : i < n1 ∧ j < n2 := ⟨hi, hj⟩
  rw [mset, if_pos this]; exact vset_ok a (by rw [hz]; exact cell_lt hi hj)

theorem pred_pos {n : Nat} (h : 0 < n) : pred n = n - 1 := by rw [pred, if_neg (by omega)]

omit [LinearOrder K] in
/-- The matrix of the values. -/
theorem values_eq {n1 n2 : Nat} {s : List (Sample K)} (hs : s.length = n1 * n2) : values n1 n2 s = .ok (s.map (·.value)) := by
  have hsome : ∀ i j, i < n1 → j < n2 → ∃ p, s[i + n1 * j]? = some p := fun i j hi hj =>
    ⟨_, List.getElem?_eq_getElem (by rw [hs]; exact cell_lt hi hj)⟩
  obtain ⟨l, h1, h2⟩ := fill2 (fun i j => i + n1 * j) (fun i j => (s[i + n1 * j]?).map (·.value))
    (fun i j (z : List K) => do
      let p ← vget s (i + n1 * j)
      mset n1 n2 z i j p.value) 0 n1 0 n2 (List.replicate (n1 * n2) 0) (Nat.zero_le _) (Nat.zero_le _)
    (fun i j _ hi _ hj => by rw [List.length_replicate]; exact cell_lt hi hj)
    (fun i j i' j' _ hi _ _ _ hi' _ _ e => cell_inj hi hi' e)
    (by
      intro i j l' _ hi _ hj hl _
      obtain ⟨p, hp⟩ := hsome i j hi hj
      rw [vget_eq_ok.2 hp, Res.ok_bind, mset_ok _ hi hj (by rw [hl, List.length_replicate]), hp]
      rfl)
  rw [values, h1]
  congr 1
  apply List.ext_getElem?
  intro k
  by_cases hk : k < n1 * n2
  · obtain ⟨i, j, hi, hj, rfl⟩ := cell_split hk
    obtain ⟨p, hp⟩ := hsome i j hi hj
    have := h2.hit i j ⟨Nat.zero_le _, hi, Nat.zero_le _, hj⟩
    rw [hp] at this
    rw [this, List.getElem?_map, hp]; rfl
  · rw [List.getElem?_eq_none (by rw [h2.len, List.length_replicate]; omega), List.getElem?_eq_none (by rw [List.length_map, hs]; omega)]

omit [Field K] [LinearOrder K] in
/-- The list that `collect` makes. -/
theorem collect_eq {nx ny : Nat} {s : List (Sample K)} {h : List (Option K)} (hs : s.length = ny * nx) (hh : h.length = ny * nx) :
    ∃ r, collect nx ny s h = .ok r ∧ r.length = ny * nx ∧ ∀ (k : Nat) (p : Sample K) (v : Option K), s[k]? = some p → h[k]? = some v →
      r[k]? = some ⟨p.x, p.y, v⟩ := by
  have hsome : ∀ i j, i < nx → j < ny → ∃ p v, s[ny * i + j]? = some p ∧ h[j + ny * i]? = some v := fun i j hi hj =>
    ⟨_, _, List.getElem?_eq_getElem (by rw [hs, Nat.add_comm]; exact cell_lt hj hi), List.getElem?_eq_getElem (by rw [hh]; exact cell_lt hj hi)⟩
  obtain ⟨r, h1, h2⟩ := fill2 (fun i j => ny * i + j) (fun i j => (s[ny * i + j]?).bind fun p => (h[j + ny * i]?).map fun v => (⟨p.x, p.y, v⟩ : Strength K))
    (fun i j (r : List (Strength K)) => do
      let v ← mget ny nx h j i
      let p ← vget r (ny * i + j)
      vset r (ny * i + j) { p with value := v }) 0 nx 0 ny (s.map fun p => ⟨p.x, p.y, some p.value⟩) (Nat.zero_le _) (Nat.zero_le _)
    (fun i j _ hi _ hj => by rw [List.length_map, hs, Nat.add_comm]; exact cell_lt hj hi)
    (fun i j i' j' _ hi _ hj _ hi' _ hj' e => by
      have := cell_inj (n1 := ny) hj hj' (by simp only [Nat.add_comm j, Nat.add_comm j']; exact e)
      exact ⟨this.2, this.1⟩)
    (by
      intro i j l' _ hi _ hj hl hold
      obtain ⟨p, v, hp, hv⟩ := hsome i j hi hj
      have hp' : l'[ny * i + j]? = some ⟨p.x, p.y, some p.value⟩ := by rw [hold, List.getElem?_map, hp]; rfl
      rw [mget_ok hj hi hv, Res.ok_bind, vget_eq_ok.2 hp', Res.ok_bind, vset_ok _ (by rw [hl, List.length_map, hs, Nat.add_comm]; exact cell_lt hj hi), hp, hv]
      rfl)
  refine ⟨r, h1, by rw [h2.len, List.length_map, hs], ?_⟩
  intro k p v hp hv
  have hk : k < ny * nx := by rw [← hh]; exact (List.getElem?_eq_some_iff.1 hv).1
  obtain ⟨j, i, hj, hi, rfl⟩ := cell_split hk
  have := h2.hit i j ⟨Nat.zero_le _, hi, Nat.zero_le _, hj⟩
  simp only [Nat.add_comm (ny * i)] at this
  rw [this, hp, hv]; rfl

/-- The matrix of the strengths. -/
theorem strengths_eq {env : Env K} {n1 n2 : Nat} {s : List (Sample K)} {z : List K} (u : Nat → Nat → Option (Option K)) (h1 : 3 ≤ n1) (h2 : 3 ≤ n2)
    (hu : ∀ i j, 1 ≤ i → i < n1 - 1 → 1 ≤ j → j < n2 - 1 → strengthAt env n1 n2 s z i j = .ok (u i j)) :
    ∃ h, strengths env n1 n2 s z = .ok h ∧ h.length = n1 * n2 ∧
      (∀ i j, 1 ≤ i → i < n1 - 1 → 1 ≤ j → j < n2 - 1 → h[i + n1 * j]? = some ((u i j).getD (some 0))) ∧
      ∀ i j, i < n1 → j < n2 → ¬ (1 ≤ i ∧ i < n1 - 1 ∧ 1 ≤ j ∧ j < n2 - 1) → h[i + n1 * j]? = some (some 0) := by
  obtain ⟨h, e1, e2⟩ := fill2 (fun i j => i + n1 * j) u
    (fun i j (h : List (Option K)) => do
      let v ← strengthAt env n1 n2 s z i j
      put n1 n2 h i j v) 1 (n1 - 1) 1 (n2 - 1) (List.replicate (n1 * n2) (some 0)) (by omega) (by omega)
    (fun i j _ hi _ hj => by rw [List.length_replicate]; exact cell_lt (by omega) (by omega))
    (fun i j i' j' _ hi _ _ _ hi' _ _ e => cell_inj (n1 := n1) (by omega) (by omega) e)
    (by
      intro i j l' hi1 hi2 hj1 hj2 hl _
      rw [hu i j hi1 hi2 hj1 hj2, Res.ok_bind]
      cases u i j with
      | none => rfl
      | some a => exact mset_ok a (by omega) (by omega) (by rw [hl, List.length_replicate]))
  have hn : ¬ (n1 < 3 ∨ n2 < 3) := by omega
  have hrep : ∀ i j, i < n1 → j < n2 → (List.replicate (n1 * n2) (some (0 : K)))[i + n1 * j]? = some (some 0) := fun i j hi hj =>
    List.getElem?_replicate_of_lt (cell_lt hi hj)
  refine ⟨h, by rw [strengths, if_neg hn, pred_pos (by omega), pred_pos (by omega), e1], by rw [e2.len, List.length_replicate], ?_, ?_⟩
  · intro i j hi1 hi2 hj1 hj2
    rw [e2.hit i j ⟨hi1, hi2, hj1, hj2⟩]
    cases u i j with
    | none => exact hrep i j (by omega) (by omega)
    | some a => rfl
  · intro i j hi hj hb
    rw [e2.miss _ (fun a b hab e => hb ?_)]
    · exact hrep i j hi hj
    · have := cell_inj (n1 := n1) (by omega) hi e
      rw [← this.1, ← this.2]; exact hab

/-- A sample with its smoothed value. -/
abbrev Node (K : Type) := Sample K × K

/-- `flux` without the memory accesses. -/
def fluxOf (q0 q1 q0L q0R q1L q1R : Node K) : Flux K :=
  if q0.1.x = -999 ∨ q0.1.y = -999 ∨ q1.1.x = -999 ∨ q1.1.y = -999 then ⟨.missing, 0, 0, 0, 0⟩ else
  let lx := 1 / 4 * (q0.1.x + q1.1.x + q0L.1.x + q1L.1.x)
  let ly := 1 / 4 * (q0.1.y + q1.1.y + q0L.1.y + q1L.1.y)
  let rx := 1 / 4 * (q0.1.x + q1.1.x + q0R.1.x + q1R.1.x)
  let ry := 1 / 4 * (q0.1.y + q1.1.y + q0R.1.y + q1R.1.y)
  ⟨if q0.2 = -999 ∨ q1.2 = -999 ∨ q0L.2 = -999 ∨ q0R.2 = -999 ∨ q1L.2 = -999 ∨ q1R.2 = -999 then .missing else
      slopeOf q0.1 q1.1 lx ly rx ry q1.2 (1 / 4 * (q0.2 + q1.2 + q0L.2 + q1L.2)) (1 / 4 * (q0.2 + q1.2 + q0R.2 + q1R.2)),
    2 * -(ry - ly), 2 * (rx - lx), triangle q0.1 lx ly rx ry, triangle q1.1 lx ly rx ry⟩

/-- The sample with its smoothed value at a position of the two lists. -/
def Has (s : List (Sample K)) (z : List K) (k : Nat) (q : Node K) : Prop := s[k]? = some q.1 ∧ z[k]? = some q.2

theorem flux_eq {s : List (Sample K)} {z : List K} {i0 i1 i0L i0R i1L i1R : Nat} {q0 q1 q0L q0R q1L q1R : Node K} (h0 : Has s z i0 q0)
    (h1 : Has s z i1 q1) (h0L : Has s z i0L q0L) (h0R : Has s z i0R q0R) (h1L : Has s z i1L q1L) (h1R : Has s z i1R q1R) :
    flux s z i0 i1 i0L i0R i1L i1R = .ok (fluxOf q0 q1 q0L q0R q1L q1R) := by
  rw [flux, vget_eq_ok.2 h0.1, Res.ok_bind, vget_eq_ok.2 h1.1, Res.ok_bind, vget_eq_ok.2 h1.2, Res.ok_bind, fluxOf]
  by_cases hc : q0.1.x = -999 ∨ q0.1.y = -999 ∨ q1.1.x = -999 ∨ q1.1.y = -999
  · rw [if_pos hc, if_pos hc]
  · rw [if_neg hc, if_neg hc, vget_eq_ok.2 h0L.1, Res.ok_bind, vget_eq_ok.2 h1L.1, Res.ok_bind, vget_eq_ok.2 h0R.1, Res.ok_bind,
      vget_eq_ok.2 h1R.1, Res.ok_bind, vget_eq_ok.2 h0.2, Res.ok_bind, vget_eq_ok.2 h0L.2, Res.ok_bind, vget_eq_ok.2 h0R.2, Res.ok_bind,
      vget_eq_ok.2 h1L.2, Res.ok_bind, vget_eq_ok.2 h1R.2, Res.ok_bind]

/-- The two lists hold the nodes `Q`. -/
def Holds (n1 n2 : Nat) (s : List (Sample K)) (z : List K) (Q : Nat → Nat → Node K) : Prop :=
  ∀ i j, i < n1 → j < n2 → Has s z (i + n1 * j) (Q i j)

def fluxIOf (Q : Nat → Nat → Node K) (i j : Nat) : Flux K :=
  fluxOf (Q i j) (Q (i + 1) j) (Q i (j + 1)) (Q i (j - 1)) (Q (i + 1) (j + 1)) (Q (i + 1) (j - 1))

def fluxJOf (n2 : Nat) (Q : Nat → Nat → Node K) (i j : Nat) : Flux K :=
  fluxOf (Q i j) (Q i (j + 1)) (Q (i - 1) j) (Q (min (i + 1) n2) j) (Q (i - 1) (j + 1)) (Q (min (i + 1) n2) (j + 1))

theorem fluxI_eq {n1 n2 : Nat} {s : List (Sample K)} {z : List K} {Q : Nat → Nat → Node K} (h : Holds n1 n2 s z Q) {i j : Nat} (hi : i + 1 < n1)
    (hj1 : 1 ≤ j) (hj2 : j + 1 < n2) : fluxI n1 n2 s z i j = .ok (fluxIOf Q i j) := by
  have hm : min (j + 1) n2 = j + 1 := by omega
  have hp : max (pred j) 0 = j - 1 := by rw [pred_pos (by omega)]; omega
  rw [fluxI, hm, hp]
  exact flux_eq (h _ _ (by omega) (by omega)) (h _ _ (by omega) (by omega)) (h _ _ (by omega) (by omega)) (h _ _ (by omega) (by omega))
    (h _ _ (by omega) (by omega)) (h _ _ (by omega) (by omega))

theorem fluxJ_eq {n1 n2 : Nat} {s : List (Sample K)} {z : List K} {Q : Nat → Nat → Node K} (h : Holds n1 n2 s z Q) {i j : Nat} (hj : j + 1 < n2)
    (hi1 : 1 ≤ i) (hi2 : i + 1 < n1) : fluxJ n1 n2 s z i j = .ok (fluxJOf n2 Q i j) := by
  have hp : max (pred i) 0 = i - 1 := by rw [pred_pos (by omega)]; omega
  rw [fluxJ, hp]
  exact flux_eq (h _ _ (by omega) (by omega)) (h _ _ (by omega) (by omega)) (h _ _ (by omega) (by omega)) (h _ _ (by omega) (by omega))
    (h _ _ (by omega) (by omega)) (h _ _ (by omega) (by omega))

/-- `strengthAt` without the memory accesses. -/
def strengthOf (env : Env K) (n2 : Nat) (Q : Nat → Nat → Node K) (i j : Nat) : Option (Option K) :=
  if skipped env (fluxIOf Q i j).slope then none else
  if skipped env (fluxIOf Q (i - 1) j).slope then none else
  if skipped env (fluxJOf n2 Q i j).slope then none else
  if skipped env (fluxJOf n2 Q i (j - 1)).slope then none else
  some (combine env (fluxIOf Q i j) (fluxIOf Q (i - 1) j) (fluxJOf n2 Q i j) (fluxJOf n2 Q i (j - 1)))

theorem strengthAt_eq {env : Env K} {n1 n2 : Nat} {s : List (Sample K)} {z : List K} {Q : Nat → Nat → Node K} (h : Holds n1 n2 s z Q) {i j : Nat}
    (hi1 : 1 ≤ i) (hi2 : i < n1 - 1) (hj1 : 1 ≤ j) (hj2 : j < n2 - 1) : strengthAt env n1 n2 s z i j = .ok (strengthOf env n2 Q i j) := by
  rw [strengthAt, strengthOf, fluxI_eq h (by omega) hj1 (by omega), Res.ok_bind]
  by_cases c1 : skipped env (fluxIOf Q i j).slope = true
  · rw [if_pos c1, if_pos c1]
  rw [if_neg c1, if_neg c1, fluxI_eq h (by omega) hj1 (by omega), Res.ok_bind]
  by_cases c2 : skipped env (fluxIOf Q (i - 1) j).slope = true
  · rw [if_pos c2, if_pos c2]
  rw [if_neg c2, if_neg c2, fluxJ_eq h (by omega) hi1 (by omega), Res.ok_bind]
  by_cases c3 : skipped env (fluxJOf n2 Q i j).slope = true
  · rw [if_pos c3, if_pos c3]
  rw [if_neg c3, if_neg c3, fluxJ_eq h (by omega) hi1 (by omega), Res.ok_bind]
  by_cases c4 : skipped env (fluxJOf n2 Q i (j - 1)).slope = true
  · rw [if_pos c4, if_pos c4]
  rw [if_neg c4, if_neg c4]

theorem get_of_lt {α : Type} {l : List α} {n1 n2 : Nat} (hl : l.length = n1 * n2) {i j : Nat} (hi : i < n1) (hj : j < n2) :
    ∃ a, l[i + n1 * j]? = some a := ⟨_, List.getElem?_eq_getElem (by rw [hl]; exact cell_lt hi hj)⟩

theorem smoothAt_ok {n1 n2 : Nat} {old z : List K} (ho : old.length = n1 * n2) (hz : z.length = n1 * n2) {i j : Nat} (hi1 : 1 ≤ i)
    (hi2 : i < n1 - 1) (hj1 : 1 ≤ j) (hj2 : j < n2 - 1) : ∃ z', smoothAt n1 n2 old i j z = .ok z' ∧ z'.length = n1 * n2 := by
  obtain ⟨c, hc⟩ := get_of_lt ho (i := i) (j := j) (by omega) (by omega)
  obtain ⟨l, hl⟩ := get_of_lt ho (i := i - 1) (j := j) (by omega) (by omega)
  obtain ⟨r, hr⟩ := get_of_lt ho (i := i + 1) (j := j) (by omega) (by omega)
  obtain ⟨d, hd⟩ := get_of_lt ho (i := i) (j := j - 1) (by omega) (by omega)
  obtain ⟨u, hu⟩ := get_of_lt ho (i := i) (j := j + 1) (by omega) (by omega)
  rw [smoothAt, mget_ok (by omega) (by omega) hc, Res.ok_bind]
  by_cases c1 : c = -999
  · rw [if_pos c1]; exact ⟨z, rfl, hz⟩
  rw [if_neg c1, mget_ok (by omega) (by omega) hl, Res.ok_bind, mget_ok (by omega) (by omega) hr, Res.ok_bind,
    mget_ok (by omega) (by omega) hd, Res.ok_bind, mget_ok (by omega) (by omega) hu, Res.ok_bind]
  by_cases c2 : l = -999 ∨ r = -999 ∨ d = -999 ∨ u = -999
  · rw [if_pos c2]; exact ⟨z, rfl, hz⟩
  rw [if_neg c2, mset_ok _ (by omega) (by omega) hz]
  exact ⟨_, rfl, by rw [List.length_set, hz]⟩

theorem smoothRound_ok {n1 n2 : Nat} {z : List K} (h1 : 0 < n1) (h2 : 0 < n2) (hz : z.length = n1 * n2) :
    ∃ z', smoothRound n1 n2 z = .ok z' ∧ z'.length = n1 * n2 := by
  rw [smoothRound, pred_pos h1, pred_pos h2]
  by_cases hs : n1 = 1 ∨ n2 = 1
  · refine ⟨z, ?_, hz⟩
    rcases hs with hs | hs
    · by_cases h3 : 1 ≤ n2 - 1
      · refine forRange_eq (fun _ => z) h3 ?_
        intro j _ _; exact forRange_empty (by omega) z
      · exact forRange_empty (by omega) z
    · exact forRange_empty (by omega) z
  · have h3 : 1 ≤ n2 - 1 := by omega
    have h4 : 1 ≤ n1 - 1 := by omega
    refine forRange_inv (fun _ (t : List K) => t.length = n1 * n2) h3 hz ?_
    intro j t hj1 hj2 ht
    refine forRange_inv (fun _ (t : List K) => t.length = n1 * n2) h4 ht ?_
    intro i w hi1 hi2 hw
    exact smoothAt_ok hz hw hi1 hi2 hj1 hj2

theorem smooth_ok {n1 n2 : Nat} (h1 : 0 < n1) (h2 : 0 < n2) : ∀ (k : Nat) {z : List K}, z.length = n1 * n2 →
    ∃ z', smooth n1 n2 k z = .ok z' ∧ z'.length = n1 * n2
  | 0, z, hz => ⟨z, rfl, hz⟩
  | k + 1, z, hz => by
    obtain ⟨z1, e1, l1⟩ := smoothRound_ok h1 h2 hz
    obtain ⟨z2, e2, l2⟩ := smooth_ok h1 h2 k l1
    exact ⟨z2, by rw [smooth, e1, Res.ok_bind, e2], l2⟩

/-- Every call with as many samples as the grid has places gives as many samples at the same places, with the computed strengths in the
interior. -/
theorem samplesHessian_eq {env : Env K} {s : List (Sample K)} {rounds nx ny : Nat} (hs : s.length = ny * nx)
    (hn : nx * ny ≤ missing) {z : List K} (hz : smooth ny nx rounds (s.map (·.value)) = .ok z) (u : Nat → Nat → Option (Option K))
    (hu : ∀ i j, 1 ≤ i → i < ny - 1 → 1 ≤ j → j < nx - 1 → strengthAt env ny nx s z i j = .ok (u i j)) :
    ∃ r, samplesHessian env s rounds nx ny = .ok r ∧ r.length = ny * nx ∧ ∀ i j (p : Sample K), i < ny → j < nx → s[i + ny * j]? = some p →
      r[i + ny * j]? = some ⟨p.x, p.y, if 1 ≤ i ∧ i < ny - 1 ∧ 1 ≤ j ∧ j < nx - 1 then (u i j).getD (some 0) else some 0⟩ := by
  have hthrow : ¬ nx * ny % (missing + 1) ≠ s.length := by
    rw [Nat.mod_eq_of_lt (by omega), hs, Nat.mul_comm]; exact fun h => h rfl
  rw [samplesHessian, if_neg hthrow, values_eq hs, Res.ok_bind, hz, Res.ok_bind]
  obtain ⟨h, e1, e2, e3⟩ : ∃ h, strengths env ny nx s z = .ok h ∧ h.length = ny * nx ∧ ∀ i j, i < ny → j < nx →
      h[i + ny * j]? = some (if 1 ≤ i ∧ i < ny - 1 ∧ 1 ≤ j ∧ j < nx - 1 then (u i j).getD (some 0) else some 0) := by
    by_cases hsm : ny < 3 ∨ nx < 3
    · refine ⟨_, by rw [strengths, if_pos hsm], List.length_replicate, ?_⟩
      intro i j hi hj
      have : ¬ (1 ≤ i ∧ i < ny - 1 ∧ 1 ≤ j ∧ j < nx - 1) := by omega
      rw [if_neg this]; exact List.getElem?_replicate_of_lt (cell_lt hi hj)
    · obtain ⟨h, e1, e2, e3, e4⟩ := strengths_eq u (by omega) (by omega) hu
      refine ⟨h, e1, e2, ?_⟩
      intro i j hi hj
      by_cases hin : 1 ≤ i ∧ i < ny - 1 ∧ 1 ≤ j ∧ j < nx - 1
      · rw [if_pos hin]; exact e3 i j hin.1 hin.2.1 hin.2.2.1 hin.2.2.2
      · rw [if_neg hin]; exact e4 i j hi hj hin
  rw [e1, Res.ok_bind]
  obtain ⟨r, f1, f2, f3⟩ := collect_eq hs e2
  exact ⟨r, f1, f2, fun i j p hi hj hp => f3 _ _ _ hp (e3 i j hi hj)⟩

/-- The nodes held by two lists. -/
def nodesOf (n1 : Nat) (s : List (Sample K)) (z : List K) (i j : Nat) : Node K :=
  ((s[i + n1 * j]?).getD ⟨0, 0, 0⟩, (z[i + n1 * j]?).getD 0)

omit [LinearOrder K] in
theorem holds_nodesOf {n1 n2 : Nat} {s : List (Sample K)} {z : List K} (hs : s.length = n1 * n2) (hz : z.length = n1 * n2) :
    Holds n1 n2 s z (nodesOf n1 s z) := by
  intro i j hi hj
  obtain ⟨p, hp⟩ := get_of_lt hs hi hj
  obtain ⟨v, hv⟩ := get_of_lt hz hi hj
  simp only [Has, nodesOf, hp, hv, Option.getD_some, and_self]

/-- Smoothing leaves values alone that grow evenly along the rows and along the columns. -/
theorem smooth_even [IsStrictOrderedRing K] {n1 n2 : Nat} (h1 : 0 < n1) (h2 : 0 < n2) {z : List K} (hz : z.length = n1 * n2) {a b c : K}
    (he : ∀ i j, i < n1 → j < n2 → z[i + n1 * j]? = some (a * i + b * j + c)) (k : Nat) : smooth n1 n2 k z = .ok z := by
  have hr : smoothRound n1 n2 z = .ok z := by
    rw [smoothRound, pred_pos h1, pred_pos h2]
    by_cases h3 : 1 ≤ n2 - 1
    · refine forRange_eq (fun _ => z) h3 ?_
      intro j hj1 hj2
      by_cases h4 : 1 ≤ n1 - 1
      · refine forRange_eq (fun _ => z) h4 ?_
        intro i hi1 hi2
        obtain ⟨i, rfl⟩ : ∃ i', i = i' + 1 := ⟨i - 1, by omega⟩
        obtain ⟨j, rfl⟩ : ∃ j', j = j' + 1 := ⟨j - 1, by omega⟩
        rw [smoothAt, mget_ok (by omega) (by omega) (he _ _ (by omega) (by omega)), Res.ok_bind]
        split
        · rfl
        rw [mget_ok (by omega) (by omega) (he _ _ (by omega) (by omega)), Res.ok_bind,
          mget_ok (by omega) (by omega) (he _ _ (by omega) (by omega)), Res.ok_bind,
          mget_ok (by omega) (by omega) (he _ _ (by omega) (by omega)), Res.ok_bind,
          mget_ok (by omega) (by omega) (he _ _ (by omega) (by omega)), Res.ok_bind]
        split
        · rfl
        rw [mset_ok _ (by omega) (by omega) hz]
        congr 1
        obtain ⟨hlt, hv⟩ := List.getElem?_eq_some_iff.1 (he (i + 1) (j + 1) (by omega) (by omega))
        have hset := List.set_getElem_self (as := z) hlt
        rw [hv] at hset
        have hval : ((1 - 1 / 2) * (a * ((i + 1 : Nat) : K) + b * ((j + 1 : Nat) : K) + c) +
            1 / 2 * (a * ((i + 1 - 1 : Nat) : K) + b * ((j + 1 : Nat) : K) + c + (a * ((i + 1 + 1 : Nat) : K) + b * ((j + 1 : Nat) : K) + c) +
              (a * ((i + 1 : Nat) : K) + b * ((j + 1 - 1 : Nat) : K) + c) + (a * ((i + 1 : Nat) : K) + b * ((j + 1 + 1 : Nat) : K) + c)) / 4) =
            a * ((i + 1 : Nat) : K) + b * ((j + 1 : Nat) : K) + c := by
          simp only [Nat.add_sub_cancel, Nat.cast_add, Nat.cast_one]; ring
        rw [hval]; exact hset
      · exact forRange_empty (by omega) z
    · exact forRange_empty (by omega) z
  induction k with
  | zero => rfl
  | succ k ih => rw [smooth, hr, Res.ok_bind, ih]

section Slopes
variable [IsStrictOrderedRing K]

/-- The slope of values on a plane is the plane's, in whatever control volume. -/
theorem plane_slope {q0 q1 q0L q0R q1L q1R : Node K} {a b c : K}
    (h : ∀ q ∈ [q0, q1, q0L, q0R, q1L, q1R], q.1.value = a * q.1.x + b * q.1.y + c ∧ q.2 = q.1.value) :
    (fluxOf q0 q1 q0L q0R q1L q1R).slope = .missing ∨ (fluxOf q0 q1 q0L q0R q1L q1R).slope = .nan ∨
      (fluxOf q0 q1 q0L q0R q1L q1R).slope = .vec a b := by
  simp only [List.mem_cons, List.not_mem_nil, or_false, forall_eq_or_imp, forall_eq] at h
  obtain ⟨⟨v0, w0⟩, ⟨v1, w1⟩, ⟨v2, w2⟩, ⟨v3, w3⟩, ⟨v4, w4⟩, ⟨v5, w5⟩⟩ := h
  rw [fluxOf]
  split
  · exact Or.inl rfl
  simp only
  split
  · exact Or.inl rfl
  rw [slopeOf]
  split
  · exact Or.inr (Or.inl rfl)
  rename_i hv
  refine Or.inr (Or.inr ?_)
  rw [w0, w1, w2, w3, w4, w5, v0, v1, v2, v3, v4, v5]
  congr 1
  · rw [div_eq_iff hv, volume]; ring
  · rw [div_eq_iff hv, volume]; ring

omit [IsStrictOrderedRing K] in
theorem combine_flat {env : Env K} (he : env.eig (0, 0, 0, 0) = (0, 0)) {iR iL jR jL : Flux K} {a b : K} (h1 : iR.slope = .vec a b)
    (h2 : iL.slope = .vec a b) (h3 : jR.slope = .vec a b) (h4 : jL.slope = .vec a b) (hx : iR.sx - iL.sx + jR.sx - jL.sx = 0)
    (hy : iR.sy - iL.sy + jR.sy - jL.sy = 0) (ha : iL.areaR + iR.areaL + jL.areaR + jR.areaL ≠ 0) : combine env iR iL jR jL = some 0 := by
  have e : ∀ g x y z w r : K, x - y + z - w = 0 → (g * x - g * y + g * z - g * w) * r = 0 := fun g x y z w r h => by
    have : (g * x - g * y + g * z - g * w) * r = g * r * (x - y + z - w) := by ring
    rw [this, h, mul_zero]
  simp only [combine]
  rw [if_neg ha, h1, h2, h3, h4]
  simp only
  rw [e _ _ _ _ _ _ hx, e _ _ _ _ _ _ hx, e _ _ _ _ _ _ hy, e _ _ _ _ _ _ hy, he, larger]
  simp

/-- A sample of a function. -/
def node (f : K → K → K) (x y : K) : Node K := (⟨x, y, f x y⟩, f x y)

/-- The control volume between a sample and the one below it. -/
def down (f : K → K → K) (x y h : K) : Flux K :=
  fluxOf (node f x y) (node f x (y - h)) (node f (x + h) y) (node f (x - h) y) (node f (x + h) (y - h)) (node f (x - h) (y - h))

/-- The control volume between a sample and the one to the right, when the row used below is at the distance `k`. -/
def across (f : K → K → K) (x y h k : K) : Flux K :=
  fluxOf (node f x y) (node f (x + h) y) (node f x (y + h)) (node f x (y - k)) (node f (x + h) (y + h)) (node f (x + h) (y - k))

theorem abs_quarter {a b : K} (h : a = b) (hb : 0 ≤ b) : 1 / 2 * |a| = 1 / 2 * b := by rw [h, abs_of_nonneg hb]

theorem down_shape {f : K → K → K} {x y h : K} (hm : (down f x y h).slope ≠ .missing) :
    (down f x y h).sx = 0 ∧ (down f x y h).sy = -2 * h ∧ (down f x y h).areaL = h * h / 4 ∧ (down f x y h).areaR = h * h / 4 := by
  rw [down, fluxOf] at *
  split at hm
  · exact absurd rfl hm
  rename_i hc
  rw [if_neg hc]
  have h0 : 0 ≤ h * h / 2 := div_nonneg (mul_self_nonneg h) (by norm_num)
  refine ⟨?_, ?_, ?_, ?_⟩
  · simp only [node]; ring
  · simp only [node]; ring
  · simp only [node, triangle]
    rw [abs_quarter (b := h * h / 2) (by ring) h0]; ring
  · simp only [node, triangle]
    rw [abs_sub_comm, abs_quarter (b := h * h / 2) (by ring) h0]; ring

theorem across_shape {f : K → K → K} {x y h k : K} (hk : 0 ≤ h * (h + k)) (hm : (across f x y h k).slope ≠ .missing) :
    (across f x y h k).sx = h + k ∧ (across f x y h k).sy = 0 ∧ (across f x y h k).areaL = h * (h + k) / 8 ∧
      (across f x y h k).areaR = h * (h + k) / 8 := by
  rw [across, fluxOf] at *
  split at hm
  · exact absurd rfl hm
  rename_i hc
  rw [if_neg hc]
  have h0 : 0 ≤ h * (h + k) / 4 := div_nonneg hk (by norm_num)
  refine ⟨?_, ?_, ?_, ?_⟩
  · simp only [node]; ring
  · simp only [node]; ring
  · simp only [node, triangle]
    rw [abs_quarter (b := h * (h + k) / 4) (by ring) h0]; ring
  · simp only [node, triangle]
    rw [abs_sub_comm, abs_quarter (b := h * (h + k) / 4) (by ring) h0]; ring

omit [IsStrictOrderedRing K] in
theorem slopeOf_eq {p0 p1 : Sample K} {lx ly rx ry z1 zL zR gx gy : K} (hv : volume p0 p1 lx ly rx ry ≠ 0)
    (hx : -(ry - ly) * z1 + -(p1.y - p0.y) * zL + (ry - ly) * p0.value + (p1.y - p0.y) * zR = gx * volume p0 p1 lx ly rx ry)
    (hy : (rx - lx) * z1 + (p1.x - p0.x) * zL + -(rx - lx) * p0.value + -(p1.x - p0.x) * zR = gy * volume p0 p1 lx ly rx ry) :
    slopeOf p0 p1 lx ly rx ry z1 zL zR = .vec gx gy := by
  rw [slopeOf, if_neg hv, hx, hy, mul_div_cancel_right₀ _ hv, mul_div_cancel_right₀ _ hv]

/-- The slope of a quadratic function is exact in the middle. -/
theorem down_slope {A B C D E F x y h : K} (hh : h ≠ 0) :
    (down (fun x y => A * x * x + B * x * y + C * y * y + D * x + E * y + F) x y h).slope = .missing ∨
    (down (fun x y => A * x * x + B * x * y + C * y * y + D * x + E * y + F) x y h).slope =
      .vec (2 * A * x + B * (y - h / 2) + D) (B * x + 2 * C * (y - h / 2) + E) := by
  rw [down, fluxOf]
  split
  · exact Or.inl rfl
  simp only
  split
  · exact Or.inl rfl
  right
  have hv : h * h ≠ 0 := mul_ne_zero hh hh
  refine slopeOf_eq ?_ ?_ ?_
  · simp only [node, volume]; intro e; apply hv; linear_combination e
  · simp only [node, volume]; ring
  · simp only [node, volume]; ring

theorem across_slope {A B C D E F x y h : K} (hh : h ≠ 0) :
    (across (fun x y => A * x * x + B * x * y + C * y * y + D * x + E * y + F) x y h h).slope = .missing ∨
    (across (fun x y => A * x * x + B * x * y + C * y * y + D * x + E * y + F) x y h h).slope =
      .vec (2 * A * (x + h / 2) + B * y + D) (B * (x + h / 2) + 2 * C * y + E) := by
  rw [across, fluxOf]
  split
  · exact Or.inl rfl
  simp only
  split
  · exact Or.inl rfl
  right
  have hv : h * h ≠ 0 := mul_ne_zero hh hh
  refine slopeOf_eq ?_ ?_ ?_
  · simp only [node, volume]; intro e; apply hv; linear_combination e
  · simp only [node, volume]; ring
  · simp only [node, volume]; ring

/-- The slope of values on a plane when the row used below is at the distance `k`. -/
theorem across_plane {a b c x y h k : K} (hh : h ≠ 0) (hk : h + k ≠ 0) :
    (across (fun x y => a * x + b * y + c) x y h k).slope = .missing ∨
    (across (fun x y => a * x + b * y + c) x y h k).slope = .vec a b := by
  rcases plane_slope (q0 := node (fun x y => a * x + b * y + c) x y) (q1 := node (fun x y => a * x + b * y + c) (x + h) y)
    (q0L := node (fun x y => a * x + b * y + c) x (y + h)) (q0R := node (fun x y => a * x + b * y + c) x (y - k))
    (q1L := node (fun x y => a * x + b * y + c) (x + h) (y + h)) (q1R := node (fun x y => a * x + b * y + c) (x + h) (y - k)) (a := a) (b := b) (c := c)
    (by simp [node]) with e | e | e
  · exact Or.inl e
  · exfalso
    rw [fluxOf] at e
    split at e
    · cases e
    simp only at e
    split at e
    · cases e
    rw [slopeOf] at e
    split at e
    · rename_i hv
      have hne : h * (h + k) ≠ 0 := mul_ne_zero hh hk
      apply hne
      simp only [node, volume] at hv
      linear_combination 2 * hv
    · cases e
  · exact Or.inr e

end Slopes

end Verif.Ridge
