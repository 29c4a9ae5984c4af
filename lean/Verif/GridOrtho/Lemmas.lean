import Mathlib.Tactic.Ring
import Mathlib.Tactic.FieldSimp
import Mathlib.Tactic.LinearCombination
import Verif.GridOrtho.Spec
/-!
# What is moved
-/
namespace Verif.GridOrtho
open Verif.Smooth (NodeType)
variable {K : Type} [Field K] [DecidableEq K]

/-! ## Loops -/

theorem foldl_inv {α σ : Type} {f : σ → α → σ} {I : σ → Prop} : ∀ {l : List α} {a : σ}, I a → (∀ b x, x ∈ l → I b → I (f b x)) → I (l.foldl f a) := by
  intro l
  induction l with
  | nil => intro a h _; exact h
  | cons x l ih =>
    intro a h hs
    exact ih (hs a x (by simp) h) fun b y hy hb => hs b y (by simp [hy]) hb

theorem foldl_range {σ : Type} {f : σ → Nat → σ} {I : Nat → σ → Prop} {a : σ} (h0 : I 0 a) : ∀ {k : Nat}, (∀ i b, i < k → I i b → I (i + 1) (f b i)) →
    I k ((List.range k).foldl f a) := by
  intro k
  induction k with
  | zero => intro _; exact h0
  | succ k ih =>
    intro hs
    rw [List.range_succ, List.foldl_append]
    exact hs k _ (by omega) (ih fun i b hi hb => hs i b (by omega) hb)

/-- Once an element has been visited the property holds. -/
theorem foldl_hit {α σ : Type} {f : σ → α → σ} {I : σ → Prop} {x : α} (hx : ∀ b, I (f b x)) : ∀ {l : List α} {a : σ}, x ∈ l →
    (∀ b y, y ∈ l → I b → I (f b y)) → I (l.foldl f a) := by
  intro l
  induction l with
  | nil => intro a h _; simp at h
  | cons y l ih =>
    intro a h hs
    rcases List.mem_cons.1 h with rfl | h
    · rw [List.foldl_cons]
      exact foldl_inv (hx a) fun b z hz hb => hs b z (by simp [hz]) hb
    · rw [List.foldl_cons]
      exact ih h fun b z hz hb => hs b z (by simp [hz]) hb

omit [Field K] [DecidableEq K] in
theorem mem_places {s : Setup K} {q : Nat × Nat} : q ∈ places s ↔ max 1 s.lo.1 ≤ q.1 ∧ q.1 < min s.up.1 (s.numN - 1) ∧ max 1 s.lo.2 ≤ q.2 ∧
    q.2 < min s.up.2 (s.numM - 1) := by
  unfold places
  obtain ⟨n, m⟩ := q
  simp only [List.mem_flatMap, List.mem_map, List.mem_range'_1, Prod.mk.injEq]
  constructor
  · rintro ⟨i, hi, j, hj, rfl, rfl⟩
    omega
  · intro h
    exact ⟨n, by omega, m, by omega, rfl, rfl⟩

omit [Field K] [DecidableEq K] in
theorem put_other {c : Nodes K} {n m i j : Nat} {p : Pos K} (h : ¬ (i = n ∧ j = m)) : put c n m p i j = c i j := by
  unfold put
  rw [if_neg h]

omit [Field K] [DecidableEq K] in
theorem put_same {c : Nodes K} {n m : Nat} {p : Pos K} : put c n m p n m = p := by simp [put]

omit [Field K] [DecidableEq K] in
theorem put_self {c : Nodes K} {n m : Nat} : put c n m (c n m) = c := by
  funext i j
  unfold put
  split
  · rename_i h; rw [h.1, h.2]
  · rfl

/-! ## A property of one node that all steps keep -/

section
variable {s : Setup K} {n m : Nat} {I : Pos K → Prop}

/-- Steps of the inner nodes keep what they keep at the node. -/
theorem solveRounds_keeps {t : Nat → Nat → Option (Terms K)} (h : ∀ ω (c : Nodes K), (n, m) ∈ places s → I (c n m) → I (relaxNode s t ω c (n, m) n m)) :
    ∀ {k : Nat} {first : Bool} {ω : K} {c : Nodes K}, I (c n m) → I (solveRounds s t k first ω c n m) := by
  intro k
  induction k with
  | zero => intro _ _ c hc; exact hc
  | succ k ih =>
    intro first ω c hc
    rw [solveRounds]
    apply ih
    refine foldl_inv (I := fun c : Nodes K => I (c n m)) hc ?_
    rintro b ⟨i, j⟩ hq hb
    by_cases he : (i, j) = (n, m)
    · cases he
      exact h ω b hq hb
    · unfold relaxNode
      split
      · rw [put_other (by rintro ⟨rfl, rfl⟩; exact he rfl)]
        exact hb
      · exact hb

omit [Field K] [DecidableEq K] in
theorem closeRun_keeps {f : Side → Nat → Nat → Nodes K → Nat → Nodes K} {z : Scan K} {i : Nat} (hz : I (z.nodes n m))
    (h : ∀ side st c x, z.start = some st → st < x → x < i → I (c n m) → I (f side st i c x n m)) : I ((closeRun f z i).nodes n m) := by
  unfold closeRun
  split
  · rename_i st hst _
    refine foldl_inv (I := fun c : Nodes K => I (c n m)) hz ?_
    intro b x hx hb
    rw [List.mem_range'_1] at hx
    exact h _ st b x hst (by omega) (by omega) hb
  · rename_i st hst _
    refine foldl_inv (I := fun c : Nodes K => I (c n m)) hz ?_
    intro b x hx hb
    rw [List.mem_range'_1] at hx
    exact h _ st b x hst (by omega) (by omega) hb
  · exact hz

omit [Field K] [DecidableEq K] in
theorem closeRun_start {f : Side → Nat → Nat → Nodes K → Nat → Nodes K} {z : Scan K} {i : Nat} : (closeRun f z i).start = z.start := by
  unfold closeRun
  split <;> rfl

theorem horizontal_keeps {t : Nat → Nat → Option K} (h : ∀ side st e (c : Nodes K), BetweenH s n m → InBlock s n m → I (c n m) →
    I (s.project m st e (wantedH t c side n m))) {c : Nodes K} (hc : I (c n m)) : I (horizontal s t c n m) := by
  unfold horizontal
  refine foldl_inv (I := fun c : Nodes K => I (c n m)) hc ?_
  intro c j hj hc
  refine (foldl_range (I := fun k (z : Scan K) => I (z.nodes n m) ∧ ∀ st, z.start = some st → st < k ∧ (s.types st j = .bottomLeft ∨ s.types st j = .upperLeft) ∧
    ∀ i, st < i → i < k → s.types i j ≠ .bottomLeft ∧ s.types i j ≠ .upperLeft) ⟨hc, by simp⟩ ?_).1
  intro i z hi hz
  have hlast : s.types i j ≠ .bottomLeft → s.types i j ≠ .upperLeft → ∀ st, z.start = some st → st < i + 1 ∧ (s.types st j = .bottomLeft ∨ s.types st j = .upperLeft) ∧
      ∀ k, st < k → k < i + 1 → s.types k j ≠ .bottomLeft ∧ s.types k j ≠ .upperLeft := by
    intro t1 t2 st hst
    obtain ⟨a1, a2, a3⟩ := hz.2 st hst
    refine ⟨by omega, a2, fun k k1 k2 => ?_⟩
    by_cases hk : k = i
    · subst hk; exact ⟨t1, t2⟩
    · exact a3 k k1 (by omega)
  have hfirst : (s.types i j = .bottomLeft ∨ s.types i j = .upperLeft) → ∀ st, some i = some st → st < i + 1 ∧ (s.types st j = .bottomLeft ∨ s.types st j = .upperLeft) ∧
      ∀ k, st < k → k < i + 1 → s.types k j ≠ .bottomLeft ∧ s.types k j ≠ .upperLeft := by
    intro ht st e
    cases e
    exact ⟨by omega, ht, fun k k1 k2 => by omega⟩
  have hclose : (s.types i j = .bottomRight ∨ s.types i j = .upperRight) → I ((closeRun (fun side st e => projectH s t side j st e) z i).nodes n m) := by
    intro hty
    refine closeRun_keeps hz.1 ?_
    intro side st c x hs1 h1 h2 hI
    obtain ⟨a1, a2, a3⟩ := hz.2 st hs1
    unfold projectH
    split
    · rename_i hb
      by_cases he : n = x ∧ m = j
      · obtain ⟨rfl, rfl⟩ := he
        rw [put_same]
        have hb : InBlock s n m := by simpa [inBlock, InBlock] using hb
        exact h side st i c ⟨st, i, h1, h2, hi, a2, hty, a3⟩ hb hI
      · rw [put_other he]; exact hI
    · exact hI
  unfold stepH
  split
  · rename_i ht; exact ⟨hz.1, hfirst (Or.inl ht)⟩
  · rename_i ht; exact ⟨hz.1, hfirst (Or.inr ht)⟩
  · rename_i ht; exact ⟨hz.1, hlast (by rw [ht]; decide) (by rw [ht]; decide)⟩
  · rename_i ht; exact ⟨hz.1, hlast (by rw [ht]; decide) (by rw [ht]; decide)⟩
  · rename_i ht; exact ⟨hclose (Or.inl ht), by rw [closeRun_start]; exact hlast (by rw [ht]; decide) (by rw [ht]; decide)⟩
  · rename_i ht; exact ⟨hclose (Or.inr ht), by rw [closeRun_start]; exact hlast (by rw [ht]; decide) (by rw [ht]; decide)⟩
  · rename_i t1 t2 t3 t4 t5 t6; exact ⟨hz.1, hlast t1 t2⟩

theorem vertical_keeps {t : Nat → Nat → Option K} (h : ∀ side st e (c : Nodes K), BetweenV s n m → InBlock s n m → I (c n m) →
    I (s.project (s.numM + n) st e (wantedV t c side n m))) {c : Nodes K} (hc : I (c n m)) : I (vertical s t c n m) := by
  unfold vertical
  refine foldl_inv (I := fun c : Nodes K => I (c n m)) hc ?_
  intro c j hj hc
  refine (foldl_range (I := fun k (z : Scan K) => I (z.nodes n m) ∧ ∀ st, z.start = some st → st < k ∧ (s.types j st = .bottomLeft ∨ s.types j st = .bottomRight) ∧
    ∀ i, st < i → i < k → s.types j i ≠ .bottomLeft ∧ s.types j i ≠ .bottomRight) ⟨hc, by simp⟩ ?_).1
  intro i z hi hz
  have hlast : s.types j i ≠ .bottomLeft → s.types j i ≠ .bottomRight → ∀ st, z.start = some st → st < i + 1 ∧ (s.types j st = .bottomLeft ∨ s.types j st = .bottomRight) ∧
      ∀ k, st < k → k < i + 1 → s.types j k ≠ .bottomLeft ∧ s.types j k ≠ .bottomRight := by
    intro t1 t2 st hst
    obtain ⟨a1, a2, a3⟩ := hz.2 st hst
    refine ⟨by omega, a2, fun k k1 k2 => ?_⟩
    by_cases hk : k = i
    · subst hk; exact ⟨t1, t2⟩
    · exact a3 k k1 (by omega)
  have hfirst : (s.types j i = .bottomLeft ∨ s.types j i = .bottomRight) → ∀ st, some i = some st → st < i + 1 ∧ (s.types j st = .bottomLeft ∨ s.types j st = .bottomRight) ∧
      ∀ k, st < k → k < i + 1 → s.types j k ≠ .bottomLeft ∧ s.types j k ≠ .bottomRight := by
    intro ht st e
    cases e
    exact ⟨by omega, ht, fun k k1 k2 => by omega⟩
  have hclose : (s.types j i = .upperLeft ∨ s.types j i = .upperRight) → I ((closeRun (fun side st e => projectV s t side j st e) z i).nodes n m) := by
    intro hty
    refine closeRun_keeps hz.1 ?_
    intro side st c x hs1 h1 h2 hI
    obtain ⟨a1, a2, a3⟩ := hz.2 st hs1
    unfold projectV
    split
    · rename_i hb
      by_cases he : n = j ∧ m = x
      · obtain ⟨rfl, rfl⟩ := he
        rw [put_same]
        have hb : InBlock s n m := by simpa [inBlock, InBlock] using hb
        exact h side st i c ⟨st, i, h1, h2, hi, a2, hty, a3⟩ hb hI
      · rw [put_other he]; exact hI
    · exact hI
  unfold stepV
  split
  · rename_i ht; exact ⟨hz.1, hfirst (Or.inl ht)⟩
  · rename_i ht; exact ⟨hz.1, hfirst (Or.inr ht)⟩
  · rename_i ht; exact ⟨hz.1, hlast (by rw [ht]; decide) (by rw [ht]; decide)⟩
  · rename_i ht; exact ⟨hz.1, hlast (by rw [ht]; decide) (by rw [ht]; decide)⟩
  · rename_i ht; exact ⟨hclose (Or.inl ht), by rw [closeRun_start]; exact hlast (by rw [ht]; decide) (by rw [ht]; decide)⟩
  · rename_i ht; exact ⟨hclose (Or.inr ht), by rw [closeRun_start]; exact hlast (by rw [ht]; decide) (by rw [ht]; decide)⟩
  · rename_i t1 t2 t3 t4 t5 t6; exact ⟨hz.1, hlast t1 t2⟩

theorem boundaryRounds_keeps {t : Nat → Nat → Option K}
    (h1 : ∀ ω (c : Nodes K), (n, m) ∈ places s → I (c n m) → I (relaxNode s (terms s t) ω c (n, m) n m))
    (h2 : ∀ side st e (c : Nodes K), BetweenH s n m → InBlock s n m → I (c n m) → I (s.project m st e (wantedH t c side n m)))
    (h3 : ∀ side st e (c : Nodes K), BetweenV s n m → InBlock s n m → I (c n m) → I (s.project (s.numM + n) st e (wantedV t c side n m))) :
    ∀ {k : Nat} {c : Nodes K}, I (c n m) → I (boundaryRounds s t k c n m) := by
  intro k
  induction k with
  | zero => intro c hc; exact hc
  | succ k ih =>
    intro c hc
    rw [boundaryRounds]
    exact ih (vertical_keeps h3 (horizontal_keeps h2 (solveRounds_keeps h1 hc)))

theorem outerRounds_keeps
    (h1 : ∀ t ω (c : Nodes K), (n, m) ∈ places s → I (c n m) → I (relaxNode s (terms s t) ω c (n, m) n m))
    (h2 : ∀ t side st e (c : Nodes K), BetweenH s n m → InBlock s n m → I (c n m) → I (s.project m st e (wantedH t c side n m)))
    (h3 : ∀ t side st e (c : Nodes K), BetweenV s n m → InBlock s n m → I (c n m) → I (s.project (s.numM + n) st e (wantedV t c side n m))) :
    ∀ {k : Nat} {c : Nodes K}, I (c n m) → I (outerRounds s k c n m) := by
  intro k
  induction k with
  | zero => intro c hc; exact hc
  | succ k ih =>
    intro c hc
    rw [outerRounds]
    exact ih (boundaryRounds_keeps (h1 _) (h2 _) (h3 _) hc)

end

/-! ## Not a number -/

theorem terms_zero {s : Setup K} {t : Nat → Nat → Option K} {n m : Nat} (h : n = s.lo.1 ∨ m = s.lo.2) : terms s t n m = some ⟨0, 0, 0, 0, 0⟩ := by
  unfold terms
  rw [if_neg (by omega)]

theorem relaxed_zero {ω : K} {c : Nodes K} {n m : Nat} : relaxed (some ⟨0, 0, 0, 0, 0⟩) ω c n m = none := by
  unfold relaxed quot
  simp

theorem relaxed_none {t : Option (Terms K)} {ω : K} {c : Nodes K} {n m : Nat} (h : c n m = none) : relaxed t ω c n m = none := by
  unfold relaxed
  simp [h]

end Verif.GridOrtho
