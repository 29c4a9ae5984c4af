import Verif.Ortho.Lemmas
/-!
# Lemmas: the order of the nodes in the parallel loops does not matter
-/
namespace Verif.Ortho
open Verif.Mesh
variable {K : Type} [Field K] [LinearOrder K] {σ : Type}

theorem bind_assoc' {α β γ : Type} (r : Res α) (f : α → Res β) (g : β → Res γ) : (r >>= f) >>= g = r >>= fun a => f a >>= g := by
  cases r <;> rfl

/-- Does not throw. -/
def NoThrow {α : Type} (r : Res α) : Prop := r ≠ .throw

theorem noThrow_ok {α : Type} (a : α) : NoThrow (Res.ok a) := by intro h; cases h
theorem noThrow_ub {α : Type} : NoThrow (Res.ub : Res α) := by intro h; cases h

theorem noThrow_vget {α : Type} (l : List α) (i : Nat) : NoThrow (vget l i) := by
  unfold vget; split
  · exact noThrow_ok _
  · exact noThrow_ub

theorem noThrow_vset {α : Type} (l : List α) (i : Nat) (a : α) : NoThrow (vset l i a) := by
  unfold vset; split
  · exact noThrow_ok _
  · exact noThrow_ub

theorem noThrow_bind {α β : Type} {r : Res α} {f : α → Res β} (h : NoThrow r) (hf : ∀ a, NoThrow (f a)) : NoThrow (r >>= f) := by
  cases r with
  | ok a => exact hf a
  | throw => exact absurd rfl h
  | ub => exact noThrow_ub

theorem noThrow_loopN {f : Nat → σ → Res σ} (hf : ∀ i s, NoThrow (f i s)) (k i : Nat) (s : σ) : NoThrow (loopN f k i s) := by
  induction k generalizing i s with
  | zero => exact noThrow_ok _
  | succ k ih => exact noThrow_bind (hf i s) (fun s => ih _ s)

theorem noThrow_forRange {f : Nat → σ → Res σ} (hf : ∀ i s, NoThrow (f i s)) (lo hi : Nat) (s : σ) : NoThrow (forRange lo hi f s) :=
  noThrow_loopN hf _ _ _

/-! ## Steps that commute -/

/-- Either order of the two steps gives the same. -/
def Comm (I : σ → Prop) (f g : σ → Res σ) : Prop := ∀ s, I s → (f s >>= g) = (g s >>= f)

/-- The step keeps `I`. -/
def Keeps (I : σ → Prop) (f : σ → Res σ) : Prop := ∀ s s', I s → f s = .ok s' → I s'

theorem Comm.symm {I : σ → Prop} {f g : σ → Res σ} (h : Comm I f g) : Comm I g f := fun s hs => (h s hs).symm

theorem comm_seq {I : σ → Prop} {f g g' : σ → Res σ} (h1 : Comm I f g) (h2 : Comm I f g') (hk : Keeps I g) :
    Comm I f (fun s => g s >>= g') := by
  intro s hs
  have e1 : (f s >>= fun s => g s >>= g') = (f s >>= g) >>= g' := (bind_assoc' _ _ _).symm
  have e2 : ((g s >>= g') >>= f) = g s >>= fun s => g' s >>= f := bind_assoc' _ _ _
  show (f s >>= fun s => g s >>= g') = ((g s >>= g') >>= f)
  rw [e1, h1 s hs, e2, bind_assoc']
  cases hg : g s with
  | ok s1 => exact h2 s1 (hk s s1 hs hg)
  | throw => rfl
  | ub => rfl

theorem comm_ok (I : σ → Prop) (f : σ → Res σ) : Comm I f (fun s => .ok s) := by
  intro s _
  rw [Res.ok_bind]
  cases f s <;> rfl

theorem comm_ub {I : σ → Prop} {f : σ → Res σ} (hf : ∀ s, NoThrow (f s)) : Comm I f (fun _ => .ub) := by
  intro s _
  rw [Res.ub_bind]
  cases h : f s with
  | ok s1 => rfl
  | throw => exact absurd h (hf s)
  | ub => rfl

theorem comm_loopN {I : σ → Prop} {f : σ → Res σ} {g : Nat → σ → Res σ} {k i : Nat} (h : ∀ j, i ≤ j → j < i + k → Comm I f (g j)) (hk : ∀ j, Keeps I (g j)) :
    Comm I f (loopN g k i) := by
  induction k generalizing i with
  | zero => exact comm_ok I f
  | succ k ih =>
    exact comm_seq (h i (Nat.le_refl _) (by omega)) (ih (fun j a b => h j (by omega) (by omega))) (hk i)

theorem comm_forRange {I : σ → Prop} {f : σ → Res σ} {g : Nat → σ → Res σ} {lo hi : Nat} (h : ∀ j, lo ≤ j → j < hi → Comm I f (g j)) (hk : ∀ j, Keeps I (g j)) :
    Comm I f (forRange lo hi g) := comm_loopN (fun j a b => h j a (by omega)) hk

theorem keeps_loopN {I : σ → Prop} {g : Nat → σ → Res σ} (hk : ∀ j, Keeps I (g j)) (k i : Nat) : Keeps I (loopN g k i) :=
  fun _ _ hs h => loopN_pres I h hs (fun j s s' _ _ a b => hk j s s' a b)

theorem overNodes_perm {I : σ → Prop} {f : Nat → σ → Res σ} (hk : ∀ n, Keeps I (f n)) (hc : ∀ m n, m ≠ n → Comm I (f m) (f n)) {l l' : List Nat}
    (hp : l.Perm l') (hnd : l.Nodup) : ∀ s, I s → overNodes f l s = overNodes f l' s := by
  induction hp with
  | nil => intro s _; rfl
  | cons n _ ih =>
    intro s hs
    simp only [overNodes]
    cases h : f n s with
    | ok s1 => exact ih (List.nodup_cons.1 hnd).2 s1 (hk n s s1 hs h)
    | throw => rfl
    | ub => rfl
  | swap m n l =>
    intro s hs
    have hmn : n ≠ m := by
      intro h; subst h
      simp at hnd
    simp only [overNodes]
    rw [← bind_assoc', ← bind_assoc', hc n m hmn s hs]
  | trans h1 _ ih1 ih2 =>
    intro s hs
    rw [ih1 hnd s hs, ih2 ((h1.nodup_iff).1 hnd) s hs]

/-- Steps that either write or are undefined. -/
theorem comm_of_write {I : σ → Prop} {f g : σ → Res σ} {cf cg : σ → Prop} [DecidablePred cf] [DecidablePred cg] {wf wg : σ → σ}
    (hf : ∀ s, f s = if cf s then .ok (wf s) else .ub) (hg : ∀ s, g s = if cg s then .ok (wg s) else .ub)
    (h1 : ∀ s, cf s → (cg (wf s) ↔ cg s)) (h2 : ∀ s, cg s → (cf (wg s) ↔ cf s)) (h3 : ∀ s, wg (wf s) = wf (wg s)) : Comm I f g := by
  intro s _
  rw [hf, hg]
  by_cases a : cf s
  · by_cases b : cg s
    · rw [if_pos a, if_pos b, Res.ok_bind, Res.ok_bind, hf, hg, if_pos ((h1 s a).2 b), if_pos ((h2 s b).2 a), h3]
    · rw [if_pos a, if_neg b, Res.ok_bind, Res.ub_bind, hg, if_neg (fun h => b ((h1 s a).1 h))]
  · by_cases b : cg s
    · rw [if_neg a, if_pos b, Res.ok_bind, Res.ub_bind, hf, if_neg (fun h => a ((h2 s b).1 h))]
    · rw [if_neg a, if_neg b]; rfl

/-! ## The new positions -/

/-- The new position of node `n`, if it is updated. -/
def newPosition (M : Metric K) (s : System K) (nodes : List (Pt K)) (n : Nat) : Res (Option (Pt K)) := do
  let a ← increments M s nodes n
  if a.wx ≤ 1 / 100000000 ∨ a.wy ≤ 1 / 100000000 then .ok none
  else do
    let rx ← vget s.rhs (n * 2)
    let ry ← vget s.rhs (n * 2 + 1)
    let p ← vget nodes n
    .ok (some ⟨3 / 4 * (p.x + (a.dx + rx) / a.wx) + 1 / 4 * p.x, 3 / 4 * (p.y + (a.dy + ry) / a.wy) + 1 / 4 * p.y⟩)

omit [LinearOrder K] in
theorem noThrow_increments (M : Metric K) (s : System K) (nodes : List (Pt K)) (n : Nat) : NoThrow (increments M s nodes n) := by
  unfold increments
  refine noThrow_bind (noThrow_vget _ _) (fun o => noThrow_bind (noThrow_vget _ _) (fun e => noThrow_forRange ?_ _ _ _))
  intro i s
  unfold addTerm
  exact noThrow_bind (noThrow_vget _ _) (fun _ => noThrow_bind (noThrow_vget _ _) (fun _ => noThrow_bind (noThrow_vget _ _)
    (fun _ => noThrow_bind (noThrow_vget _ _) (fun _ => noThrow_ok _))))

theorem noThrow_newPosition (M : Metric K) (s : System K) (nodes : List (Pt K)) (n : Nat) : NoThrow (newPosition M s nodes n) := by
  unfold newPosition
  refine noThrow_bind (noThrow_increments M s nodes n) (fun a => ?_)
  split
  · exact noThrow_ok _
  · exact noThrow_bind (noThrow_vget _ _) (fun _ => noThrow_bind (noThrow_vget _ _) (fun _ => noThrow_bind (noThrow_vget _ _) (fun _ => noThrow_ok _)))

theorem updateNode_eq (M : Metric K) (s : System K) (nodes : List (Pt K)) (n : Nat) (coords : List (Pt K)) :
    updateNode M s nodes n coords = newPosition M s nodes n >>= fun o => match o with
      | none => .ok coords
      | some v => vset coords n v := by
  unfold updateNode newPosition
  rw [bind_assoc']
  congr 1
  funext a
  split
  · rfl
  · rw [bind_assoc']; congr 1; funext rx
    rw [bind_assoc']; congr 1; funext ry
    rw [bind_assoc']; rfl

theorem updateNode_comm (M : Metric K) (s : System K) (nodes : List (Pt K)) {m n : Nat} (hmn : m ≠ n) :
    Comm (fun _ => True) (updateNode M s nodes m) (updateNode M s nodes n) := by
  have key : ∀ k, (updateNode M s nodes k = fun c => .ok c) ∨ (updateNode M s nodes k = fun _ => .ub) ∨ ∃ v, updateNode M s nodes k = fun c => vset c k v := by
    intro k
    cases h : newPosition M s nodes k with
    | ok o =>
      cases o with
      | none => left; funext c; rw [updateNode_eq, h]; rfl
      | some v => right; right; refine ⟨v, ?_⟩; funext c; rw [updateNode_eq, h]; rfl
    | throw => exact absurd h (noThrow_newPosition M s nodes k)
    | ub => right; left; funext c; rw [updateNode_eq, h]; rfl
  rcases key n with h | h | ⟨v, h⟩
  · rw [h]; exact comm_ok _ _
  · rw [h]
    refine comm_ub (fun c => ?_)
    rw [updateNode_eq]
    refine noThrow_bind (noThrow_newPosition _ _ _ _) (fun o => ?_)
    cases o with
    | none => exact noThrow_ok _
    | some v => exact noThrow_vset _ _ _
  · rcases key m with h' | h' | ⟨v', h'⟩
    · rw [h']; exact (comm_ok _ _).symm
    · rw [h', h]; exact (comm_ub (fun c => noThrow_vset _ _ _)).symm
    · rw [h, h']
      refine comm_of_write (cf := fun c : List (Pt K) => m < c.length) (cg := fun c : List (Pt K) => n < c.length) (wf := fun c => c.set m v') (wg := fun c => c.set n v)
        (fun c => rfl) (fun c => rfl) ?_ ?_ ?_
      · intro c _; simp
      · intro c _; simp
      · intro c; exact List.set_comm v' v hmn

/-! ## The terms -/

/-- The bounds of the rows. -/
def HasRows (first last : List Nat) (s : System K) : Prop := s.first = first ∧ s.last = last

omit [Field K] [LinearOrder K] in
theorem store_eq (i k : Nat) (ww : K) (s : System K) : store i k ww s =
    if i < s.nodes.length ∧ i < s.weight.length then .ok { s with nodes := s.nodes.set i k, weight := s.weight.set i ww } else .ub := by
  unfold store vset
  by_cases h1 : i < s.nodes.length
  · by_cases h2 : i < s.weight.length
    · rw [if_pos h1, Res.ok_bind, if_pos h2, Res.ok_bind, if_pos ⟨h1, h2⟩]
    · rw [if_pos h1, Res.ok_bind, if_neg h2, Res.ub_bind, if_neg (fun h => h2 h.2)]
  · rw [if_neg h1, Res.ub_bind, if_neg (fun h => h1 h.1)]

omit [Field K] [LinearOrder K] in
theorem store_comm {I : System K → Prop} {i j k k' : Nat} {w w' : K} (h : i ≠ j) : Comm I (store i k w) (store j k' w') := by
  refine comm_of_write (cf := fun s : System K => i < s.nodes.length ∧ i < s.weight.length) (cg := fun s : System K => j < s.nodes.length ∧ j < s.weight.length)
    (store_eq i k w) (store_eq j k' w') ?_ ?_ ?_
  · intro s _; simp
  · intro s _; simp
  · intro s
    simp only
    rw [List.set_comm k k' h, List.set_comm w w' h]

/-- Write the right-hand side of node `n`. -/
def storeRhs (n : Nat) (x y : K) (s : System K) : Res (System K) := do
  let r1 ← vset s.rhs (n * 2) x
  let r2 ← vset r1 (n * 2 + 1) y
  .ok { s with rhs := r2 }

omit [Field K] [LinearOrder K] in
theorem storeRhs_eq (n : Nat) (x y : K) (s : System K) : storeRhs n x y s =
    if n * 2 + 1 < s.rhs.length then .ok { s with rhs := (s.rhs.set (n * 2) x).set (n * 2 + 1) y } else .ub := by
  unfold storeRhs vset
  by_cases h1 : n * 2 < s.rhs.length
  · rw [if_pos h1, Res.ok_bind]
    by_cases h2 : n * 2 + 1 < s.rhs.length
    · rw [if_pos (by simpa using h2), Res.ok_bind, if_pos h2]
    · rw [if_neg (by simpa using h2), Res.ub_bind, if_neg h2]
  · rw [if_neg h1, Res.ub_bind, if_neg (by omega)]

omit [Field K] [LinearOrder K] in
theorem storeRhs_comm {I : System K → Prop} {m n : Nat} {x y x' y' : K} (h : m ≠ n) : Comm I (storeRhs m x y) (storeRhs n x' y') := by
  refine comm_of_write (cf := fun s : System K => m * 2 + 1 < s.rhs.length) (cg := fun s : System K => n * 2 + 1 < s.rhs.length)
    (storeRhs_eq m x y) (storeRhs_eq n x' y') ?_ ?_ ?_
  · intro s _; simp
  · intro s _; simp
  · intro s
    simp only
    congr 1
    apply List.ext_getElem?
    intro i
    simp only [List.getElem?_set, List.length_set]
    by_cases h1 : m * 2 = i <;> by_cases h2 : m * 2 + 1 = i <;> by_cases h3 : n * 2 = i <;> by_cases h4 : n * 2 + 1 = i <;>
      first
        | (exfalso; omega)
        | simp [h1, h2, h3, h4]

omit [Field K] [LinearOrder K] in
theorem store_storeRhs {I : System K → Prop} {i k n : Nat} {w x y : K} : Comm I (store i k w) (storeRhs n x y) := by
  refine comm_of_write (cf := fun s : System K => i < s.nodes.length ∧ i < s.weight.length) (cg := fun s : System K => n * 2 + 1 < s.rhs.length)
    (store_eq i k w) (storeRhs_eq n x y) ?_ ?_ ?_
  · intro s _; simp
  · intro s _; simp
  · intro s; rfl

omit [Field K] [LinearOrder K] in
theorem store_keeps (first last : List Nat) (i k : Nat) (w : K) : Keeps (HasRows first last) (store i k w) := by
  intro s s' hs h
  rw [store_eq] at h
  split at h
  · obtain rfl := Res.ok.inj h; exact hs
  · cases h

omit [Field K] [LinearOrder K] in
theorem storeRhs_keeps (first last : List Nat) (n : Nat) (x y : K) : Keeps (HasRows first last) (storeRhs n x y) := by
  intro s s' hs h
  rw [storeRhs_eq] at h
  split at h
  · obtain rfl := Res.ok.inj h; exact hs
  · cases h

/-- What an entry holds. -/
def entryOf (net : Net) (w : Weights K) (a : K) (t : Int) (n d nn : Nat) : Res (Nat × K) := do
  let ww ← smoothTerm w a t n nn
  if nn < d + 1 then do
    let x ← vget2 w.orth n (nn - 1)
    let k ← neighbour net n (nn - 1)
    .ok (k, ww + a * x)
  else do
    let k ← vget2 w.connected n nn
    .ok (k, ww)

theorem noThrow_vget2 {α : Type} (l : List (List α)) (i j : Nat) : NoThrow (vget2 l i j) := noThrow_bind (noThrow_vget _ _) (fun _ => noThrow_vget _ _)

theorem noThrow_entryOf (net : Net) (w : Weights K) (a : K) (t : Int) (n d nn : Nat) : NoThrow (entryOf net w a t n d nn) := by
  unfold entryOf
  refine noThrow_bind ?_ (fun ww => ?_)
  · unfold smoothTerm
    split
    · exact noThrow_bind (noThrow_vget2 _ _ _) (fun _ => noThrow_ok _)
    · exact noThrow_ok _
  · split
    · refine noThrow_bind (noThrow_vget2 _ _ _) (fun x => noThrow_bind ?_ (fun _ => noThrow_ok _))
      unfold neighbour
      exact noThrow_bind (noThrow_vget _ _) (fun _ => noThrow_bind (noThrow_vget _ _) (fun _ => noThrow_bind (noThrow_vget _ _) (fun _ => noThrow_ok _)))
    · exact noThrow_bind (noThrow_vget2 _ _ _) (fun _ => noThrow_ok _)

theorem termEntry_eq (net : Net) (w : Weights K) (a : K) (t : Int) (n d o nn : Nat) (s : System K) :
    termEntry net w a t n d o nn s = entryOf net w a t n d nn >>= fun e => store (o + (nn - 1)) e.1 e.2 s := by
  unfold termEntry entryOf
  rw [bind_assoc']
  congr 1
  funext ww
  split
  · rw [bind_assoc']; congr 1; funext x
    rw [bind_assoc']; rfl
  · rw [bind_assoc']; rfl

/-- An entry is a store or undefined. -/
theorem termEntry_cases (net : Net) (w : Weights K) (a : K) (t : Int) (n d o nn : Nat) :
    (termEntry net w a t n d o nn = fun _ => .ub) ∨ ∃ k ww, termEntry net w a t n d o nn = store (o + (nn - 1)) k ww := by
  cases h : entryOf net w a t n d nn with
  | ok e => right; refine ⟨e.1, e.2, ?_⟩; funext s; rw [termEntry_eq, h]; rfl
  | throw => exact absurd h (noThrow_entryOf _ _ _ _ _ _ _)
  | ub => left; funext s; rw [termEntry_eq, h]; rfl

omit [Field K] [LinearOrder K] in
theorem noThrow_store (i k : Nat) (w : K) (s : System K) : NoThrow (store i k w s) := by
  rw [store_eq]; split
  · exact noThrow_ok _
  · exact noThrow_ub

omit [Field K] [LinearOrder K] in
theorem noThrow_storeRhs (n : Nat) (x y : K) (s : System K) : NoThrow (storeRhs n x y s) := by
  rw [storeRhs_eq]; split
  · exact noThrow_ok _
  · exact noThrow_ub

theorem noThrow_termEntry (net : Net) (w : Weights K) (a : K) (t : Int) (n d o nn : Nat) (s : System K) : NoThrow (termEntry net w a t n d o nn s) := by
  rcases termEntry_cases net w a t n d o nn with h | ⟨k, ww, h⟩ <;> rw [h]
  · exact noThrow_ub
  · exact noThrow_store _ _ _ _

theorem termEntry_keeps (first last : List Nat) (net : Net) (w : Weights K) (a : K) (t : Int) (n d o nn : Nat) :
    Keeps (HasRows first last) (termEntry net w a t n d o nn) := by
  rcases termEntry_cases net w a t n d o nn with h | ⟨k, ww, h⟩ <;> rw [h]
  · intro s s' _ h; cases h
  · exact store_keeps _ _ _ _ _

/-- What `termsOfNode` does, once the bounds of the rows are known. -/
inductive TermStep (first last : List Nat) (net : Net) (w : Weights K) (n : Nat) (g : System K → Res (System K)) : Prop
  | nothing (h : ∀ s, HasRows first last s → g s = .ok s)
  | undefined (h : ∀ s, HasRows first last s → g s = .ub)
  | row (a : K) (t : Int) (d o e : Nat) (x y : K) (ho : first[n]? = some o) (he : last[n]? = some e)
      (h : ∀ s, HasRows first last s → g s = (forRange 1 (e - o) (termEntry net w a t n d o) s >>= storeRhs n x y))
  | broken (a : K) (t : Int) (d o e : Nat) (ho : first[n]? = some o) (he : last[n]? = some e)
      (h : ∀ s, HasRows first last s → g s = (forRange 1 (e - o) (termEntry net w a t n d o) s >>= fun _ => .ub))

theorem termsOfNode_step (first last : List Nat) (net : Net) (f : Factors K) (w : Weights K) (n : Nat) :
    TermStep first last net w n (termsOfNode net f w n) := by
  cases ht : net.types[n]? with
  | none => exact .undefined (fun s _ => by unfold termsOfNode vget; rw [ht]; rfl)
  | some t =>
    cases hl : net.adj[n]? with
    | none => exact .undefined (fun s _ => by unfold termsOfNode; rw [vget_eq_ok.2 ht, Res.ok_bind]; unfold vget; rw [hl]; rfl)
    | some l =>
      by_cases hm : movable t l.length = true
      · cases ho : first[n]? with
        | none =>
          refine .undefined (fun s hs => ?_)
          unfold termsOfNode
          rw [vget_eq_ok.2 ht, Res.ok_bind, vget_eq_ok.2 hl, Res.ok_bind, if_neg (by simp [hm]), hs.1]
          unfold vget; rw [ho]; rfl
        | some o =>
          cases he : last[n]? with
          | none =>
            refine .undefined (fun s hs => ?_)
            unfold termsOfNode
            rw [vget_eq_ok.2 ht, Res.ok_bind, vget_eq_ok.2 hl, Res.ok_bind, if_neg (by simp [hm]), hs.1, vget_eq_ok.2 ho, Res.ok_bind, hs.2]
            unfold vget; rw [he]; rfl
          | some e =>
            cases hr : w.rhs[n]? with
            | none =>
              refine .broken (localFactor f t) t l.length o e ho he (fun s hs => ?_)
              unfold termsOfNode
              rw [vget_eq_ok.2 ht, Res.ok_bind, vget_eq_ok.2 hl, Res.ok_bind, if_neg (by simp [hm]), hs.1, vget_eq_ok.2 ho, Res.ok_bind, hs.2,
                vget_eq_ok.2 he, Res.ok_bind]
              congr 1
              funext s1
              unfold vget; rw [hr]; rfl
            | some r =>
              refine .row (localFactor f t) t l.length o e (localFactor f t * r.1) (localFactor f t * r.2) ho he (fun s hs => ?_)
              unfold termsOfNode
              rw [vget_eq_ok.2 ht, Res.ok_bind, vget_eq_ok.2 hl, Res.ok_bind, if_neg (by simp [hm]), hs.1, vget_eq_ok.2 ho, Res.ok_bind, hs.2,
                vget_eq_ok.2 he, Res.ok_bind]
              congr 1
              funext s1
              rw [vget_eq_ok.2 hr, Res.ok_bind]
              rfl
      · refine .nothing (fun s _ => ?_)
        unfold termsOfNode
        rw [vget_eq_ok.2 ht, Res.ok_bind, vget_eq_ok.2 hl, Res.ok_bind, if_pos (by simp [hm])]

theorem comm_congr {I : σ → Prop} {f f' g g' : σ → Res σ} (hf : ∀ s, I s → f s = f' s) (hg : ∀ s, I s → g s = g' s) (kf : Keeps I f') (kg : Keeps I g')
    (h : Comm I f' g') : Comm I f g := by
  intro s hs
  rw [hf s hs, hg s hs]
  have e1 : (f' s >>= g) = (f' s >>= g') := by
    cases h1 : f' s with
    | ok s1 => exact hg s1 (kf s s1 hs h1)
    | throw => rfl
    | ub => rfl
  have e2 : (g' s >>= f) = (g' s >>= f') := by
    cases h1 : g' s with
    | ok s1 => exact hf s1 (kg s s1 hs h1)
    | throw => rfl
    | ub => rfl
  rw [e1, e2, h s hs]

theorem keeps_seq {I : σ → Prop} {f g : σ → Res σ} (hf : Keeps I f) (hg : Keeps I g) : Keeps I (fun s => f s >>= g) := by
  intro s s' hs h
  obtain ⟨s1, h1, h2⟩ := Res.bind_eq_ok.1 h
  exact hg s1 s' (hf s s1 hs h1) h2

theorem keeps_ok (I : σ → Prop) : Keeps I (fun s => .ok s) := by intro s s' hs h; obtain rfl := Res.ok.inj h; exact hs
theorem keeps_ub (I : σ → Prop) : Keeps I (fun _ => .ub) := by intro s s' hs h; cases h

/-- A step in normal form. -/
inductive Step (first last : List Nat) (net : Net) (w : Weights K) (n : Nat) : (System K → Res (System K)) → Prop
  | nothing : Step first last net w n (fun s => .ok s)
  | undefined : Step first last net w n (fun _ => .ub)
  | row (a : K) (t : Int) (d o e : Nat) (x y : K) (ho : first[n]? = some o) (he : last[n]? = some e) :
      Step first last net w n (fun s => forRange 1 (e - o) (termEntry net w a t n d o) s >>= storeRhs n x y)
  | broken (a : K) (t : Int) (d o e : Nat) (ho : first[n]? = some o) (he : last[n]? = some e) :
      Step first last net w n (fun s => forRange 1 (e - o) (termEntry net w a t n d o) s >>= fun _ => .ub)

theorem step_of {first last : List Nat} {net : Net} {w : Weights K} {n : Nat} {g : System K → Res (System K)} (h : TermStep first last net w n g) :
    ∃ g', Step first last net w n g' ∧ ∀ s, HasRows first last s → g s = g' s := by
  cases h with
  | nothing h => exact ⟨_, .nothing, h⟩
  | undefined h => exact ⟨_, .undefined, h⟩
  | row a t d o e x y ho he h => exact ⟨_, .row a t d o e x y ho he, h⟩
  | broken a t d o e ho he h => exact ⟨_, .broken a t d o e ho he, h⟩

theorem Step.keeps {first last : List Nat} {net : Net} {w : Weights K} {n : Nat} {g : System K → Res (System K)} (h : Step first last net w n g) :
    Keeps (HasRows first last) g := by
  cases h with
  | nothing => exact keeps_ok _
  | undefined => exact keeps_ub _
  | row a t d o e x y ho he => exact keeps_seq (keeps_loopN (fun j => termEntry_keeps _ _ _ _ _ _ _ _ _ _) _ _) (storeRhs_keeps _ _ _ _ _)
  | broken a t d o e ho he => exact keeps_seq (keeps_loopN (fun j => termEntry_keeps _ _ _ _ _ _ _ _ _ _) _ _) (keeps_ub _)

theorem Step.noThrow {first last : List Nat} {net : Net} {w : Weights K} {n : Nat} {g : System K → Res (System K)} (h : Step first last net w n g) (s : System K) :
    NoThrow (g s) := by
  cases h with
  | nothing => exact noThrow_ok _
  | undefined => exact noThrow_ub
  | row a t d o e x y ho he =>
    exact noThrow_bind (noThrow_forRange (fun i s => noThrow_termEntry _ _ _ _ _ _ _ _ _) _ _ _) (fun s => noThrow_storeRhs _ _ _ _)
  | broken a t d o e ho he =>
    exact noThrow_bind (noThrow_forRange (fun i s => noThrow_termEntry _ _ _ _ _ _ _ _ _) _ _ _) (fun s => noThrow_ub)

theorem termEntry_comm {I : System K → Prop} {net : Net} {w : Weights K} {a a' : K} {t t' : Int} {m n d d' o o' nn nn' : Nat}
    (h : o + (nn - 1) ≠ o' + (nn' - 1)) : Comm I (termEntry net w a t m d o nn) (termEntry net w a' t' n d' o' nn') := by
  rcases termEntry_cases net w a' t' n d' o' nn' with h1 | ⟨k, ww, h1⟩
  · rw [h1]; exact comm_ub (fun s => noThrow_termEntry _ _ _ _ _ _ _ _ _)
  · rw [h1]
    rcases termEntry_cases net w a t m d o nn with h2 | ⟨k', ww', h2⟩
    · rw [h2]; exact (comm_ub (fun s => noThrow_store _ _ _ _)).symm
    · rw [h2]; exact store_comm h

theorem termEntry_storeRhs {I : System K → Prop} {net : Net} {w : Weights K} {a x y : K} {t : Int} {m n d o nn : Nat} :
    Comm I (termEntry net w a t m d o nn) (storeRhs n x y) := by
  rcases termEntry_cases net w a t m d o nn with h2 | ⟨k', ww', h2⟩
  · rw [h2]; exact (comm_ub (fun s => noThrow_storeRhs _ _ _ _)).symm
  · rw [h2]; exact store_storeRhs

theorem Step.comm {first last : List Nat} {total : Nat} (hR : Rows first last total) {net : Net} {w : Weights K} {m n : Nat} (hmn : m ≠ n)
    {f g : System K → Res (System K)} (hf : Step first last net w m f) (hg : Step first last net w n g) : Comm (HasRows first last) f g := by
  -- two rows
  have disj : ∀ o e o' e', first[m]? = some o → last[m]? = some e → first[n]? = some o' → last[n]? = some e' → ∀ i j, 1 ≤ i → i < e - o → 1 ≤ j → j < e' - o' →
      o + (i - 1) ≠ o' + (j - 1) := by
    intro o e o' e' h1 h2 h3 h4 i j h5 h6 h7 h8
    rcases Nat.lt_or_gt_of_ne hmn with h | h
    · have := hR.next m n o' e h h2 h3; omega
    · have := hR.next n m o e' h h4 h1; omega
  have loops : ∀ a t d o e a' t' d' o' e', first[m]? = some o → last[m]? = some e → first[n]? = some o' → last[n]? = some e' →
      Comm (HasRows first last) (forRange 1 (e - o) (termEntry net w a t m d o)) (forRange 1 (e' - o') (termEntry net w a' t' n d' o')) := by
    intro a t d o e a' t' d' o' e' h1 h2 h3 h4
    refine comm_forRange (fun j hj1 hj2 => (comm_forRange (fun i hi1 hi2 => ?_) (fun i => termEntry_keeps _ _ _ _ _ _ _ _ _ _)).symm)
      (fun i => termEntry_keeps _ _ _ _ _ _ _ _ _ _)
    exact (termEntry_comm (disj o e o' e' h1 h2 h3 h4 i j hi1 hi2 hj1 hj2)).symm
  have loopRhs : ∀ a t (k : Nat) d o e x y (k' : Nat), Comm (HasRows first last) (forRange 1 (e - o) (termEntry net w a t k d o)) (storeRhs k' x y) := by
    intro a t k d o e x y k'
    exact (comm_forRange (fun j _ _ => termEntry_storeRhs.symm) (fun i => termEntry_keeps _ _ _ _ _ _ _ _ _ _)).symm
  have kl : ∀ a t (k : Nat) d o e, Keeps (HasRows first last) (forRange 1 (e - o) (termEntry net w a t k d o)) :=
    fun a t k d o e => keeps_loopN (fun j => termEntry_keeps _ _ _ _ _ _ _ _ _ _) _ _
  have nl : ∀ a t (k : Nat) d o e s, NoThrow (forRange 1 (e - o) (termEntry net w a t k d o) s) :=
    fun a t k d o e s => noThrow_forRange (fun i s => noThrow_termEntry _ _ _ _ _ _ _ _ _) _ _ _
  cases hg with
  | nothing => exact comm_ok _ _
  | undefined => exact comm_ub hf.noThrow
  | row a' t' d' o' e' x' y' h3 h4 =>
    refine comm_seq ?_ ?_ (kl _ _ _ _ _ _)
    · cases hf with
      | nothing => exact (comm_ok _ _).symm
      | undefined => exact (comm_ub (nl _ _ _ _ _ _)).symm
      | row a t d o e x y h1 h2 =>
        exact (comm_seq (loops a t d o e a' t' d' o' e' h1 h2 h3 h4).symm (loopRhs _ _ _ _ _ _ _ _ _) (kl _ _ _ _ _ _)).symm
      | broken a t d o e h1 h2 =>
        exact (comm_seq (loops a t d o e a' t' d' o' e' h1 h2 h3 h4).symm (comm_ub (nl _ _ _ _ _ _)) (kl _ _ _ _ _ _)).symm
    · cases hf with
      | nothing => exact (comm_ok _ _).symm
      | undefined => exact (comm_ub (noThrow_storeRhs _ _ _)).symm
      | row a t d o e x y h1 h2 =>
        exact (comm_seq (loopRhs a t m d o e x' y' n).symm (storeRhs_comm hmn.symm) (kl _ _ _ _ _ _)).symm
      | broken a t d o e h1 h2 =>
        exact (comm_seq (loopRhs a t m d o e x' y' n).symm (comm_ub (noThrow_storeRhs _ _ _)) (kl _ _ _ _ _ _)).symm
  | broken a' t' d' o' e' h3 h4 =>
    refine comm_seq ?_ (comm_ub hf.noThrow) (kl _ _ _ _ _ _)
    cases hf with
    | nothing => exact (comm_ok _ _).symm
    | undefined => exact (comm_ub (nl _ _ _ _ _ _)).symm
    | row a t d o e x y h1 h2 =>
      exact (comm_seq (loops a t d o e a' t' d' o' e' h1 h2 h3 h4).symm (loopRhs _ _ _ _ _ _ _ _ _) (kl _ _ _ _ _ _)).symm
    | broken a t d o e h1 h2 =>
      exact (comm_seq (loops a t d o e a' t' d' o' e' h1 h2 h3 h4).symm (comm_ub (nl _ _ _ _ _ _)) (kl _ _ _ _ _ _)).symm

theorem termsOfNode_comm {first last : List Nat} {total : Nat} (hR : Rows first last total) (net : Net) (f : Factors K) (w : Weights K) {m n : Nat} (hmn : m ≠ n) :
    Comm (HasRows first last) (termsOfNode net f w m) (termsOfNode net f w n) := by
  obtain ⟨g1, a1, a2⟩ := step_of (termsOfNode_step first last net f w m)
  obtain ⟨g2, b1, b2⟩ := step_of (termsOfNode_step first last net f w n)
  exact comm_congr a2 b2 a1.keeps b1.keeps (Step.comm hR hmn a1 b1)

theorem termsOfNode_keeps (first last : List Nat) (net : Net) (f : Factors K) (w : Weights K) (n : Nat) :
    Keeps (HasRows first last) (termsOfNode net f w n) := by
  obtain ⟨g1, a1, a2⟩ := step_of (termsOfNode_step first last net f w n)
  intro s s' hs h
  rw [a2 s hs] at h
  exact a1.keeps s s' hs h

/-! ## The whole computation -/

theorem prepare_perm {sched sched' : List Nat} (hp : sched.Perm sched') (hnd : sched.Nodup) (net : Net) (f : Factors K) (w : Weights K) (N : Nat) :
    prepare sched net f w N = prepare sched' net f w N := by
  unfold prepare allocate
  cases hb : rowBounds net w N with
  | ok b =>
    rw [Res.ok_bind, Res.ok_bind, Res.ok_bind]
    exact overNodes_perm (I := HasRows b.1 b.2.1) (fun n => termsOfNode_keeps _ _ net f w n) (fun m n h => termsOfNode_comm (rowBounds_rows hb).1 net f w h) hp hnd _ ⟨rfl, rfl⟩
  | throw => rfl
  | ub => rfl

theorem solve_perm {sched sched' : List Nat} (hp : sched.Perm sched') (hnd : sched.Nodup) (M : Metric K) (net : Net) (orig : List (Pt K)) (s : System K) (z : Positions K) :
    solve M sched net orig s z = solve M sched' net orig s z := by
  unfold solve
  rw [overNodes_perm (I := fun _ => True) (fun n s s' _ _ => trivial) (fun m n h => updateNode_comm M s z.nodes h) hp hnd z.coords trivial]

theorem iterate_perm {sched sched' : List Nat} (hp : sched.Perm sched') (hnd : sched.Nodup) (M : Metric K) (net : Net) (f : Factors K) (orig : List (Pt K)) (rounds : Nat)
    (ws : List (Weights K)) (z : Positions K) : iterate M sched net f orig rounds ws z = iterate M sched' net f orig rounds ws z := by
  induction ws generalizing z with
  | nil => rfl
  | cons w ws ih =>
    simp only [iterate]
    rw [prepare_perm hp hnd]
    congr 1
    funext s
    have : (fun (_ : Nat) => solve M sched net orig s) = fun _ => solve M sched' net orig s := by
      funext _ z; exact solve_perm hp hnd M net orig s z
    rw [this]
    congr 1
    funext z1
    exact ih z1

end Verif.Ortho
