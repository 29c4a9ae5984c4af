import Verif.Api.StepLemmas
namespace Verif.Api
open Verif.Undo

variable {π V : Type}

/-- Pointers and objects of one kernel. -/
abbrev KS (V : Type) := (Field → Option Addr) × (Addr → V)

def put1 (h : Addr → V) (a : Addr) (v : V) : Addr → V := fun b => if b = a then v else h b

def holds (o : Field → Option Addr) (a : Addr) : Bool := Field.all.any (fun f => o f == some a)

theorem holds_iff {o : Field → Option Addr} {a : Addr} : holds o a = true ↔ ∃ f, o f = some a := by
  simp only [holds, List.any_eq_true, beq_iff_eq]
  exact ⟨fun ⟨f, _, h⟩ => ⟨f, h⟩, fun ⟨f, h⟩ => ⟨f, f.mem_all, h⟩⟩

/-- Restoring one action of a kernel; defined when an edit action refers to an object
held by the kernel. -/
def ksR (sem : Sem π V) : Prim π → KS V → Option (Prim π × KS V)
  | .edit a p, (o, h) => if holds o a then
      some (.edit a (sem.doRestore p (h a)).1, (o, put1 h a (sem.doRestore p (h a)).2)) else none
  | .snap q, (o, h) => some (.snap o, (q, h))

def ksC (sem : Sem π V) : Prim π → KS V → Option (Prim π × KS V)
  | .edit a p, (o, h) => if holds o a then
      some (.edit a (sem.doCommit p (h a)).1, (o, put1 h a (sem.doCommit p (h a)).2)) else none
  | .snap q, (o, h) => some (.snap o, (q, h))

def ksRL (sem : Sem π V) : List (Prim π) → KS V → Option (List (Prim π) × KS V)
  | [], w => some ([], w)
  | x :: xs, w => (ksR sem x w).bind fun r => (ksRL sem xs r.2).map fun rs => (r.1 :: rs.1, rs.2)

def ksCL (sem : Sem π V) : List (Prim π) → KS V → Option (List (Prim π) × KS V)
  | [], w => some ([], w)
  | x :: xs, w => (ksCL sem xs w).bind fun rs => (ksC sem x rs.2).map fun r => (r.1 :: rs.1, r.2)

/-- Pointers and objects of kernel `k` in an API state. -/
def St.ks (s : St π V) (k : Int) : KS V :=
  (match s.kernels k with | some K => K.obj | none => fun _ => none, s.heap k)

def St.setKs (s : St π V) (k : Int) (K : Kernel) (w : KS V) : St π V :=
  { s with kernels := upd s.kernels k (some { K with obj := w.1 }), heap := upd s.heap k w.2 }

theorem owned_of_holds {s : St π V} {k K a} (h : s.kernels k = some K) (h2 : holds K.obj a = true) :
    s.owned k a = true := by
  obtain ⟨f, hf⟩ := holds_iff.1 h2
  exact owned_of_obj h hf

theorem restoreList_ks (sem : Sem π V) (k : Int) : ∀ (data : List (Prim π)) (s : St π V) (K : Kernel) d w,
    s.kernels k = some K → ksRL sem data (K.obj, s.heap k) = some (d, w) →
    restoreList sem k data s = .ok (d, s.setKs k K w)
  | [], s, K, d, w, hK, h => by
    simp only [ksRL, Option.some.injEq, Prod.mk.injEq] at h
    obtain ⟨rfl, rfl⟩ := h
    simp only [restoreList, St.setKs, upd_self]
    rw [← hK, upd_self]
  | .edit a p :: xs, s, K, d, w, hK, h => by
    simp only [ksRL, ksR] at h
    split at h
    · rename_i hh
      simp only [Option.bind_some, Option.map_eq_some_iff] at h
      obtain ⟨⟨ds, w'⟩, h1, h2⟩ := h
      simp only [Prod.mk.injEq] at h2
      obtain ⟨rfl, rfl⟩ := h2
      have ih := restoreList_ks sem k xs (s.write k a (sem.doRestore p (s.heap k a)).2) K ds w' hK
        (by
          simp only [St.write, upd_same]; exact h1)
      simp only [restoreList, restorePrim, owned_of_holds hK hh, if_true, Res.ok_bind, ih]
      simp [St.setKs, St.write]
    · simp at h
  | .snap q :: xs, s, K, d, w, hK, h => by
    simp only [ksRL, ksR, Option.bind_some, Option.map_eq_some_iff] at h
    obtain ⟨⟨ds, w'⟩, h1, h2⟩ := h
    simp only [Prod.mk.injEq] at h2
    obtain ⟨rfl, rfl⟩ := h2
    have ih := restoreList_ks sem k xs (s.setKernel k { K with obj := q }) { K with obj := q } ds w'
      (by simp [St.setKernel]) h1
    simp only [restoreList, restorePrim, hK, Res.ok_bind, ih]
    simp [St.setKs, St.setKernel]

theorem commitList_ks (sem : Sem π V) (k : Int) : ∀ (data : List (Prim π)) (s : St π V) (K : Kernel) d w,
    s.kernels k = some K → ksCL sem data (K.obj, s.heap k) = some (d, w) →
    commitList sem k data s = .ok (d, s.setKs k K w)
  | [], s, K, d, w, hK, h => by
    simp only [ksCL, Option.some.injEq, Prod.mk.injEq] at h
    obtain ⟨rfl, rfl⟩ := h
    simp only [commitList, St.setKs, upd_self]
    rw [← hK, upd_self]
  | x :: xs, s, K, d, w, hK, h => by
    simp only [ksCL, Option.bind_eq_some_iff, Option.map_eq_some_iff] at h
    obtain ⟨⟨ds, o, hp⟩, h1, ⟨x', w'⟩, h2, h3⟩ := h
    simp only [Prod.mk.injEq] at h3
    obtain ⟨rfl, rfl⟩ := h3
    have ih := commitList_ks sem k xs s K ds (o, hp) hK h1
    simp only [commitList, ih, Res.ok_bind]
    have hk' : (s.setKs k K (o, hp)).kernels k = some { K with obj := o } := by simp [St.setKs]
    have hh' : (s.setKs k K (o, hp)).heap k = hp := by simp [St.setKs]
    cases x with
    | edit a p =>
      simp only [ksC] at h2
      split at h2
      · rename_i hh
        simp only [Option.some.injEq, Prod.mk.injEq] at h2
        obtain ⟨rfl, rfl⟩ := h2
        simp only [commitPrim, owned_of_holds hk' hh, if_true, Res.ok_bind, hh']
        simp [St.setKs, St.write]; rfl
      · simp at h2
    | snap q =>
      simp only [ksC, Option.some.injEq, Prod.mk.injEq] at h2
      obtain ⟨rfl, rfl⟩ := h2
      simp only [commitPrim, hk', Res.ok_bind]
      simp [St.setKs, St.setKernel]

/-! ### Objects out of reach do not matter -/

/-- `h` below address `n`, `g` from there on. -/
def mix (n : Nat) (h g : Addr → V) : Addr → V := fun a => if a < n then h a else g a

theorem mix_lt {n a : Nat} (h g : Addr → V) (ha : a < n) : mix n h g a = h a := by simp [mix, ha]

theorem mix_put1 {n a : Nat} (h g : Addr → V) (v : V) (ha : a < n) :
    put1 (mix n h g) a v = mix n (put1 h a v) g := by
  funext b; unfold put1 mix
  by_cases hb : b = a
  · subst hb; simp [ha]
  · simp [hb]

theorem mix_self (n : Nat) (h : Addr → V) : mix n h h = h := by funext a; simp [mix]

def objBelow (n : Nat) (o : Field → Option Addr) : Prop := ∀ f a, o f = some a → a < n

def primBelow (n : Nat) : Prim π → Prop
  | .edit a _ => a < n
  | .snap q => objBelow n q

theorem objBelow.mono {n m : Nat} {o} (h : objBelow n o) (hm : n ≤ m) : objBelow m o :=
  fun f a e => Nat.lt_of_lt_of_le (h f a e) hm

theorem primBelow.mono {n m : Nat} {x : Prim π} (h : primBelow n x) (hm : n ≤ m) : primBelow m x := by
  cases x with
  | edit a p => exact Nat.lt_of_lt_of_le h hm
  | snap q => exact objBelow.mono h hm

theorem ksR_mix (sem : Sem π V) {n : Nat} {x : Prim π} {o h x' o' h'} (g : Addr → V)
    (hx : primBelow n x) (ho : objBelow n o) (hr : ksR sem x (o, h) = some (x', (o', h'))) :
    ksR sem x (o, mix n h g) = some (x', (o', mix n h' g)) ∧ primBelow n x' ∧ objBelow n o' := by
  cases x with
  | edit a p =>
    simp only [ksR] at hr ⊢
    split at hr
    · rename_i hh
      simp only [Option.some.injEq, Prod.mk.injEq] at hr
      obtain ⟨rfl, rfl, rfl⟩ := hr
      have ha : a < n := hx
      rw [if_pos hh, mix_lt _ _ ha, mix_put1 _ _ _ ha]
      exact ⟨rfl, ha, ho⟩
    · simp at hr
  | snap q =>
    simp only [ksR, Option.some.injEq, Prod.mk.injEq] at hr ⊢
    obtain ⟨rfl, rfl, rfl⟩ := hr
    exact ⟨⟨rfl, rfl, rfl⟩, ho, hx⟩

theorem ksC_mix (sem : Sem π V) {n : Nat} {x : Prim π} {o h x' o' h'} (g : Addr → V)
    (hx : primBelow n x) (ho : objBelow n o) (hr : ksC sem x (o, h) = some (x', (o', h'))) :
    ksC sem x (o, mix n h g) = some (x', (o', mix n h' g)) ∧ primBelow n x' ∧ objBelow n o' := by
  cases x with
  | edit a p =>
    simp only [ksC] at hr ⊢
    split at hr
    · rename_i hh
      simp only [Option.some.injEq, Prod.mk.injEq] at hr
      obtain ⟨rfl, rfl, rfl⟩ := hr
      have ha : a < n := hx
      rw [if_pos hh, mix_lt _ _ ha, mix_put1 _ _ _ ha]
      exact ⟨rfl, ha, ho⟩
    · simp at hr
  | snap q =>
    simp only [ksC, Option.some.injEq, Prod.mk.injEq] at hr ⊢
    obtain ⟨rfl, rfl, rfl⟩ := hr
    exact ⟨⟨rfl, rfl, rfl⟩, ho, hx⟩

theorem ksRL_mix (sem : Sem π V) {n : Nat} (g : Addr → V) : ∀ {data : List (Prim π)} {o h d o' h'},
    (∀ x ∈ data, primBelow n x) → objBelow n o → ksRL sem data (o, h) = some (d, (o', h')) →
    ksRL sem data (o, mix n h g) = some (d, (o', mix n h' g)) ∧ (∀ x ∈ d, primBelow n x) ∧
      objBelow n o'
  | [], o, h, d, o', h', _, ho, hr => by
    simp only [ksRL, Option.some.injEq, Prod.mk.injEq] at hr ⊢
    obtain ⟨rfl, rfl, rfl⟩ := hr
    exact ⟨⟨rfl, rfl, rfl⟩, by simp, ho⟩
  | x :: xs, o, h, d, o', h', hx, ho, hr => by
    simp only [ksRL, Option.bind_eq_some_iff, Option.map_eq_some_iff] at hr
    obtain ⟨⟨x1, o1, h1⟩, e1, ⟨d1, w1⟩, e2, e3⟩ := hr
    simp only [Prod.mk.injEq] at e3
    obtain ⟨rfl, rfl⟩ := e3
    obtain ⟨a1, a2, a3⟩ := ksR_mix sem g (hx x List.mem_cons_self) ho e1
    obtain ⟨b1, b2, b3⟩ := ksRL_mix sem g (fun y hy => hx y (List.mem_cons_of_mem _ hy)) a3 e2
    refine ⟨by simp only [ksRL, a1, Option.bind_some, b1, Option.map_some], ?_, b3⟩
    intro y hy
    rcases List.mem_cons.1 hy with rfl | hy
    · exact a2
    · exact b2 y hy

theorem ksCL_mix (sem : Sem π V) {n : Nat} (g : Addr → V) : ∀ {data : List (Prim π)} {o h d o' h'},
    (∀ x ∈ data, primBelow n x) → objBelow n o → ksCL sem data (o, h) = some (d, (o', h')) →
    ksCL sem data (o, mix n h g) = some (d, (o', mix n h' g)) ∧ (∀ x ∈ d, primBelow n x) ∧
      objBelow n o'
  | [], o, h, d, o', h', _, ho, hr => by
    simp only [ksCL, Option.some.injEq, Prod.mk.injEq] at hr ⊢
    obtain ⟨rfl, rfl, rfl⟩ := hr
    exact ⟨⟨rfl, rfl, rfl⟩, by simp, ho⟩
  | x :: xs, o, h, d, o', h', hx, ho, hr => by
    simp only [ksCL, Option.bind_eq_some_iff, Option.map_eq_some_iff] at hr
    obtain ⟨⟨d1, o1, h1⟩, e1, ⟨x1, w1⟩, e2, e3⟩ := hr
    simp only [Prod.mk.injEq] at e3
    obtain ⟨rfl, rfl⟩ := e3
    obtain ⟨a1, a2, a3⟩ := ksCL_mix sem g (fun y hy => hx y (List.mem_cons_of_mem _ hy)) ho e1
    obtain ⟨b1, b2, b3⟩ := ksC_mix sem g (hx x List.mem_cons_self) a3 e2
    refine ⟨by simp only [ksCL, a1, Option.bind_some, b1, Option.map_some], ?_, b3⟩
    intro y hy
    rcases List.mem_cons.1 hy with rfl | hy
    · exact b2
    · exact a2 y hy

/-! ### Records and copies -/

def ksView (w : KS V) : Field → Option V := fun f => (w.1 f).map w.2

/-- `data` (committed) leads from `w` back to `w1` and `d`, which leads to `w` again. -/
def Rec (sem : Sem π V) (data d : List (Prim π)) (w w1 : KS V) : Prop :=
  ksRL sem data w = some (d, w1) ∧ ksCL sem d w1 = some (data, w)

theorem Rec.mix {sem : Sem π V} {n : Nat} (g : Addr → V) {data d : List (Prim π)} {w w1 : KS V}
    (h : Rec sem data d w w1) (hd : ∀ x ∈ data, primBelow n x) (ho : objBelow n w.1) :
    Rec sem data d (w.1, Verif.Api.mix n w.2 g) (w1.1, Verif.Api.mix n w1.2 g) ∧
      (∀ x ∈ d, primBelow n x) ∧ objBelow n w1.1 := by
  obtain ⟨o, hp⟩ := w
  obtain ⟨o1, hp1⟩ := w1
  obtain ⟨a1, a2, a3⟩ := ksRL_mix sem g hd ho h.1
  obtain ⟨b1, _, _⟩ := ksCL_mix sem g a2 a3 h.2
  exact ⟨⟨a1, b1⟩, a2, a3⟩

theorem ksView_mix {n : Nat} (g : Addr → V) {w : KS V} (ho : objBelow n w.1) :
    ksView (w.1, mix n w.2 g) = ksView w := by
  funext f
  simp only [ksView]
  cases h : w.1 f with
  | none => rfl
  | some a => simp [mix_lt _ _ (ho f a h)]

/-- Different fields point to different objects. -/
def Distinct (o : Field → Option Addr) : Prop := ∀ f g a, o f = some a → o g = some a → f = g

/-- The committed records lead from `w` through the copies of the past. -/
def Past (sem : Sem π V) (n : Nat) : (Int → KS V) → List (Record (List (Prim π))) →
    List (Int × (Field → V)) → Prop
  | _, [], [] => True
  | w, r :: rs, p :: ps => r.id = p.1 ∧ r.target = p.1 ∧ r.act.state = .committed ∧
      (∀ x ∈ r.act.data, primBelow n x) ∧ objBelow n (w p.1).1 ∧
      ∃ d w1, Rec sem r.act.data d (w p.1) w1 ∧ (∀ f, ksView w1 f = some (p.2 f)) ∧ Distinct w1.1 ∧
        Past sem n (upd w p.1 w1) rs ps
  | _, _, _ => False

/-- The undone records lead from `w` through the copies of the future. -/
def Future (sem : Sem π V) (n : Nat) : (Int → KS V) → List (Record (List (Prim π))) →
    List (Int × (Field → V)) → Prop
  | _, [], [] => True
  | w, r :: rs, p :: ps => r.id = p.1 ∧ r.target = p.1 ∧ r.act.state = .restored ∧
      (∀ x ∈ r.act.data, primBelow n x) ∧ objBelow n (w p.1).1 ∧
      ∃ d w1, Rec sem d r.act.data w1 (w p.1) ∧ (∀ f, ksView w1 f = some (p.2 f)) ∧ Distinct w1.1 ∧
        Future sem n (upd w p.1 w1) rs ps
  | _, _, _ => False

theorem Past.length {sem : Sem π V} {n} : ∀ {w rs ps}, Past sem n w rs ps → rs.length = ps.length
  | _, [], [], _ => rfl
  | _, _ :: _, _ :: _, ⟨_, _, _, _, _, _, _, _, _, _, h⟩ => by simp [Past.length h]

theorem Future.length {sem : Sem π V} {n} : ∀ {w rs ps}, Future sem n w rs ps → rs.length = ps.length
  | _, [], [], _ => rfl
  | _, _ :: _, _ :: _, ⟨_, _, _, _, _, _, _, _, _, _, h⟩ => by simp [Future.length h]

theorem Past.take {sem : Sem π V} {n} : ∀ {w rs ps}, Past sem n w rs ps → ∀ m,
    Past sem n w (rs.take m) (ps.take m)
  | _, [], [], _, m => by simp [Past]
  | _, _ :: _, _ :: _, _, 0 => by simp [Past]
  | _, _ :: _, _ :: _, ⟨h1, h2, h3, h4, h5, d, w1, h6, h7, h7', h8⟩, m + 1 => by
    simp only [List.take_succ_cons]; exact ⟨h1, h2, h3, h4, h5, d, w1, h6, h7, h7', h8.take m⟩

theorem Past.filter {sem : Sem π V} {n} (k : Int) (t : KS V) : ∀ {w rs ps}, Past sem n w rs ps →
    Past sem n (upd w k t) (rs.filter (fun r => r.id ≠ k)) (ps.filter (fun p => p.1 ≠ k))
  | _, [], [], _ => by simp [Past]
  | w, r :: rs, p :: ps, ⟨h1, h2, h3, h4, h5, d, w1, h6, h7, h7', h8⟩ => by
    have ih := h8.filter k t
    by_cases hk : p.1 = k
    · have hr : r.id = k := by rw [h1, hk]
      rw [List.filter_cons_of_neg (by simp [hr]), List.filter_cons_of_neg (by simp [hk])]
      rw [hk, upd_upd] at ih; exact ih
    · have hr : r.id ≠ k := by rw [h1]; exact hk
      rw [List.filter_cons_of_pos (by simp [hr]), List.filter_cons_of_pos (by simp [hk])]
      refine ⟨h1, h2, h3, h4, ?_, d, w1, ?_, h7, h7', ?_⟩
      · rw [upd_ne _ _ hk]; exact h5
      · rw [upd_ne _ _ hk]; exact h6
      · rw [upd_comm _ hk] at ih; exact ih

theorem Future.filter {sem : Sem π V} {n} (k : Int) (t : KS V) : ∀ {w rs ps}, Future sem n w rs ps →
    Future sem n (upd w k t) (rs.filter (fun r => r.id ≠ k)) (ps.filter (fun p => p.1 ≠ k))
  | _, [], [], _ => by simp [Future]
  | w, r :: rs, p :: ps, ⟨h1, h2, h3, h4, h5, d, w1, h6, h7, h7', h8⟩ => by
    have ih := h8.filter k t
    by_cases hk : p.1 = k
    · have hr : r.id = k := by rw [h1, hk]
      rw [List.filter_cons_of_neg (by simp [hr]), List.filter_cons_of_neg (by simp [hk])]
      rw [hk, upd_upd] at ih; exact ih
    · have hr : r.id ≠ k := by rw [h1]; exact hk
      rw [List.filter_cons_of_pos (by simp [hr]), List.filter_cons_of_pos (by simp [hk])]
      refine ⟨h1, h2, h3, h4, ?_, d, w1, ?_, h7, h7', ?_⟩
      · rw [upd_ne _ _ hk]; exact h5
      · rw [upd_ne _ _ hk]; exact h6
      · rw [upd_comm _ hk] at ih; exact ih

/-- Objects from address `n` on may change, and the bound may grow. -/
theorem Past.grow {sem : Sem π V} {n m : Nat} (hm : n ≤ m) : ∀ {w w' : Int → KS V} {rs ps},
    Past sem n w rs ps →
    (∀ k, (w' k).1 = (w k).1 ∧ ∀ a, a < n → (w' k).2 a = (w k).2 a) → Past sem m w' rs ps
  | _, _, [], [], _, _ => trivial
  | w, w', r :: rs, p :: ps, ⟨h1, h2, h3, h4, h5, d, w1, h6, h7, h7', h8⟩, hw => by
    obtain ⟨e1, e2⟩ := hw p.1
    obtain ⟨g, hg⟩ : ∃ g, g = (w' p.1).2 := ⟨_, rfl⟩
    have hwk : w' p.1 = ((w p.1).1, mix n (w p.1).2 g) := by
      apply Prod.ext
      · exact e1
      · funext a; simp only [mix]; split
        · exact e2 a ‹_›
        · rw [hg]
    obtain ⟨a1, a2, a3⟩ := h6.mix g h4 h5
    refine ⟨h1, h2, h3, fun x hx => (h4 x hx).mono hm, ?_, d, (w1.1, mix n w1.2 g), ?_, ?_, h7', ?_⟩
    · rw [e1]; exact h5.mono hm
    · rw [hwk]; exact a1
    · intro f; rw [ksView_mix _ a3]; exact h7 f
    · refine h8.grow hm ?_
      intro k
      by_cases hk : k = p.1
      · subst hk; simp only [upd_same]
        exact ⟨trivial, fun a ha => mix_lt _ _ ha⟩
      · rw [upd_ne _ _ hk, upd_ne _ _ hk]; exact hw k

theorem Future.grow {sem : Sem π V} {n m : Nat} (hm : n ≤ m) : ∀ {w w' : Int → KS V} {rs ps},
    Future sem n w rs ps →
    (∀ k, (w' k).1 = (w k).1 ∧ ∀ a, a < n → (w' k).2 a = (w k).2 a) → Future sem m w' rs ps
  | _, _, [], [], _, _ => trivial
  | w, w', r :: rs, p :: ps, ⟨h1, h2, h3, h4, h5, d, w1, h6, h7, h7', h8⟩, hw => by
    obtain ⟨e1, e2⟩ := hw p.1
    obtain ⟨g, hg⟩ : ∃ g, g = (w' p.1).2 := ⟨_, rfl⟩
    have hwk : w' p.1 = ((w p.1).1, mix n (w p.1).2 g) := by
      apply Prod.ext
      · exact e1
      · funext a; simp only [mix]; split
        · exact e2 a ‹_›
        · rw [hg]
    have h6' : ksCL sem r.act.data (w p.1) = some (d, w1) ∧ ksRL sem d w1 = some (r.act.data, w p.1) :=
      ⟨h6.2, h6.1⟩
    obtain ⟨a1, a2, a3⟩ := ksCL_mix sem g (o := (w p.1).1) (h := (w p.1).2) (o' := w1.1)
      (h' := w1.2) h4 h5 h6'.1
    obtain ⟨b1, _, _⟩ := ksRL_mix sem g (o := w1.1) (h := w1.2) (o' := (w p.1).1)
      (h' := (w p.1).2) a2 a3 h6'.2
    refine ⟨h1, h2, h3, fun x hx => (h4 x hx).mono hm, ?_, d, (w1.1, mix n w1.2 g), ?_, ?_, h7', ?_⟩
    · rw [e1]; exact h5.mono hm
    · rw [hwk]
      exact ⟨b1, a1⟩
    · intro f; rw [ksView_mix _ a3]; exact h7 f
    · refine h8.grow hm ?_
      intro k
      by_cases hk : k = p.1
      · subst hk; simp only [upd_same]
        exact ⟨trivial, fun a ha => mix_lt _ _ ha⟩
      · rw [upd_ne _ _ hk, upd_ne _ _ hk]; exact hw k

end Verif.Api
