import Verif.Undo.Spec
namespace Verif.Undo

variable {π S : Type}

@[simp] theorem upd_same (w : Int → S) (k : Int) (s : S) : upd w k s k = s := by simp [upd]
@[simp] theorem upd_ne (w : Int → S) {j k : Int} (s : S) (h : j ≠ k) : upd w k s j = w j := by
  simp [upd, h]
@[simp] theorem upd_upd (w : Int → S) (k : Int) (s t : S) : upd (upd w k s) k t = upd w k t := by
  funext j; simp only [upd]; split <;> rfl
@[simp] theorem upd_self (w : Int → S) (k : Int) : upd w k (w k) = w := by
  funext j; simp only [upd]; split <;> simp_all
theorem upd_comm (w : Int → S) {j k : Int} (h : j ≠ k) (s t : S) :
    upd (upd w j s) k t = upd (upd w k t) j s := by
  funext i; simp only [upd]; split <;> split <;> simp_all

theorem trim_eq_take {α} {n : Nat} {x : α} {l : List α} (h : l.length ≤ n) :
    trim n (x :: l) = (x :: l).take n := by
  unfold trim
  split
  · rename_i h'
    have : n = l.length := by simp at h'; omega
    subst this
    rw [List.dropLast_eq_take]; simp
  · rename_i h'
    rw [List.take_of_length_le]; omega

/-- The committed records match the snapshots of the past. -/
def PastRel (sem : Sem π S) : (Int → S) → List (Record π) → List (Int × S) → Prop
  | _, [], [] => True
  | w, r :: rs, p :: ps =>
    r.id = p.1 ∧ r.target = p.1 ∧ r.act.state = .committed ∧ Records sem r.act.data p.2 (w p.1) ∧
      PastRel sem (upd w p.1 p.2) rs ps
  | _, _, _ => False

/-- `b` (restored) leads from `s` to `s'` when committed. -/
def RecordsR (sem : Sem π S) (b : π) (s s' : S) : Prop :=
  ∃ a, sem.doCommit b s = (a, s') ∧ sem.doRestore a s' = (b, s)

def FutureRel (sem : Sem π S) : (Int → S) → List (Record π) → List (Int × S) → Prop
  | _, [], [] => True
  | w, r :: rs, p :: ps =>
    r.id = p.1 ∧ r.target = p.1 ∧ r.act.state = .restored ∧ RecordsR sem r.act.data (w p.1) p.2 ∧
      FutureRel sem (upd w p.1 p.2) rs ps
  | _, _, _ => False

theorem PastRel.length {sem : Sem π S} : ∀ {w rs ps}, PastRel sem w rs ps → rs.length = ps.length
  | _, [], [], _ => rfl
  | _, _ :: _, _ :: _, h => by simp [PastRel.length h.2.2.2.2]

theorem PastRel.take {sem : Sem π S} : ∀ {w rs ps}, PastRel sem w rs ps → ∀ n,
    PastRel sem w (rs.take n) (ps.take n)
  | _, [], [], _, n => by simp [PastRel]
  | _, _ :: _, _ :: _, h, 0 => by simp [PastRel]
  | _, _ :: _, _ :: _, ⟨h1, h2, h3, h4, h5⟩, n + 1 => by
    simp only [List.take_succ_cons]; exact ⟨h1, h2, h3, h4, h5.take n⟩

theorem PastRel.filter {sem : Sem π S} (k : Int) (t : S) : ∀ {w rs ps}, PastRel sem w rs ps →
    PastRel sem (upd w k t) (rs.filter (fun r => r.id ≠ k)) (ps.filter (fun p => p.1 ≠ k))
  | _, [], [], _ => by simp [PastRel]
  | w, r :: rs, p :: ps, ⟨h1, h2, h3, h4, h5⟩ => by
    have ih := h5.filter k t
    by_cases hk : p.1 = k
    · have hr : r.id = k := by rw [h1, hk]
      rw [List.filter_cons_of_neg (by simp [hr]), List.filter_cons_of_neg (by simp [hk])]
      rw [hk, upd_upd] at ih; exact ih
    · have hr : r.id ≠ k := by rw [h1]; exact hk
      rw [List.filter_cons_of_pos (by simp [hr]), List.filter_cons_of_pos (by simp [hk])]
      refine ⟨h1, h2, h3, ?_, ?_⟩
      · rw [upd_ne _ _ hk]; exact h4
      · rw [upd_comm _ hk] at ih; exact ih

theorem FutureRel.length {sem : Sem π S} : ∀ {w rs ps}, FutureRel sem w rs ps → rs.length = ps.length
  | _, [], [], _ => rfl
  | _, _ :: _, _ :: _, h => by simp [FutureRel.length h.2.2.2.2]

theorem FutureRel.filter {sem : Sem π S} (k : Int) (t : S) : ∀ {w rs ps}, FutureRel sem w rs ps →
    FutureRel sem (upd w k t) (rs.filter (fun r => r.id ≠ k)) (ps.filter (fun p => p.1 ≠ k))
  | _, [], [], _ => by simp [FutureRel]
  | w, r :: rs, p :: ps, ⟨h1, h2, h3, h4, h5⟩ => by
    have ih := h5.filter k t
    by_cases hk : p.1 = k
    · have hr : r.id = k := by rw [h1, hk]
      rw [List.filter_cons_of_neg (by simp [hr]), List.filter_cons_of_neg (by simp [hk])]
      rw [hk, upd_upd] at ih; exact ih
    · have hr : r.id ≠ k := by rw [h1]; exact hk
      rw [List.filter_cons_of_pos (by simp [hr]), List.filter_cons_of_pos (by simp [hk])]
      refine ⟨h1, h2, h3, ?_, ?_⟩
      · rw [upd_ne _ _ hk]; exact h4
      · rw [upd_comm _ hk] at ih; exact ih

/-- The simulation relation between the stack and the snapshot machine. -/
structure Sim (sem : Sem π S) (w : World π S) (m : Snap S) : Prop where
  data : w.data = m.world
  bound : w.stack.maxSize = m.bound
  past : PastRel sem w.data w.stack.committed m.past
  future : FutureRel sem w.data w.stack.restored m.future
  short : w.stack.committed.length ≤ w.stack.maxSize
  zero : w.stack.maxSize = 0 → w.stack.restored = []

theorem sim_init (sem : Sem π S) (n : Nat) (d : Int → S) :
    Sim sem (World.init n d : World π S) ⟨d, [], [], n⟩ :=
  ⟨rfl, rfl, trivial, trivial, by simp [World.init], fun _ => rfl⟩

theorem sim_undo {sem : Sem π S} {w : World π S} {m : Snap S} (h : Sim sem w m) :
    Sim sem (w.undo sem).1 m.undo.1 ∧ (w.undo sem).2 = m.undo.2 := by
  obtain ⟨⟨com, res, mx⟩, d⟩ := w
  obtain ⟨wd, past, fut, bd⟩ := m
  obtain ⟨hd, hb, hp, hf, hs, hz⟩ := h
  simp only at hd hb hp hf hs hz
  subst hd; subst hb
  cases com with
  | nil =>
    cases past with
    | nil => exact ⟨⟨rfl, rfl, trivial, hf, hs, hz⟩, rfl⟩
    | cons => exact hp.elim
  | cons r rs =>
    cases past with
    | nil => exact hp.elim
    | cons p ps =>
      obtain ⟨h1, h2, h3, ⟨b, hb1, hb2⟩, h5⟩ := hp
      obtain ⟨⟨st, a⟩, id, tgt⟩ := r
      obtain ⟨k, s⟩ := p
      simp only at h1 h2 h3 hb1 hb2 h5 hs
      subst h1 h2 h3
      simp only [World.undo, Snap.undo, Action.restore, hb1]
      refine ⟨⟨rfl, rfl, h5, ?_, by simp at hs ⊢; omega, ?_⟩, trivial⟩
      · refine ⟨rfl, rfl, rfl, ⟨a, ?_, by simpa using hb1⟩, ?_⟩
        · simpa using hb2
        · simpa using hf
      · intro h0; simp at h0; simp [h0] at hs

theorem sim_redo {sem : Sem π S} {w : World π S} {m : Snap S} (h : Sim sem w m) :
    Sim sem (w.redo sem).1 m.redo.1 ∧ (w.redo sem).2 = m.redo.2 := by
  obtain ⟨⟨com, res, mx⟩, d⟩ := w
  obtain ⟨wd, past, fut, bd⟩ := m
  obtain ⟨hd, hb, hp, hf, hs, hz⟩ := h
  simp only at hd hb hp hf hs hz
  subst hd; subst hb
  cases res with
  | nil =>
    cases fut with
    | nil => exact ⟨⟨rfl, rfl, hp, trivial, hs, hz⟩, rfl⟩
    | cons => exact hf.elim
  | cons r rs =>
    cases fut with
    | nil => exact hf.elim
    | cons p ps =>
      obtain ⟨h1, h2, h3, ⟨b, hb1, hb2⟩, h5⟩ := hf
      obtain ⟨⟨st, a⟩, id, tgt⟩ := r
      obtain ⟨k, s⟩ := p
      simp only at h1 h2 h3 hb1 hb2 h5 hs
      subst h1 h2 h3
      simp only [World.redo, Snap.redo, Action.commit, hb1]
      rw [trim_eq_take hs]
      refine ⟨⟨rfl, rfl, ?_, h5, by simp; omega, ?_⟩, trivial⟩
      · refine PastRel.take (rs := _ :: _) (ps := (_, _) :: _) ?_ mx
        refine ⟨rfl, rfl, rfl, ⟨a, ?_, by simpa using hb1⟩, ?_⟩
        · simpa using hb2
        · simpa using hp
      · intro h0; simp at h0; simp [h0] at hz

theorem sim_edit {sem : Sem π S} {w : World π S} {m : Snap S} (h : Sim sem w m) (k : Int)
    (e : Edit π S) (he : e.Lawful sem) :
    Sim sem (w.edit k e) (m.edit k (e.run (m.world k)).1 (e.run (m.world k)).2.isSome) := by
  obtain ⟨⟨com, res, mx⟩, d⟩ := w
  obtain ⟨wd, past, fut, bd⟩ := m
  obtain ⟨hd, hb, hp, hf, hs, hz⟩ := h
  simp only at hd hb hp hf hs hz
  subst hd; subst hb
  have hk := he (d k)
  simp only [World.edit, Snap.edit]
  rcases hr : e.run (d k) with ⟨s', oa⟩
  rw [hr] at hk
  cases oa with
  | none =>
    simp only at hk
    subst hk
    simp only [Option.map, Stack.add, Option.isSome, Bool.false_and, upd_self]
    exact ⟨rfl, rfl, hp, hf, hs, hz⟩
  | some a =>
    simp only at hk
    simp only [Option.map, Stack.add, Option.isSome, Bool.true_and]
    by_cases h0 : 0 < mx
    · simp only [gt_iff_lt, h0, if_true, decide_true, ne_eq, not_true_eq_false, if_false]
      rw [trim_eq_take hs]
      refine ⟨rfl, rfl, ?_, hf.filter k s', by simp; omega, ?_⟩
      · refine PastRel.take (rs := _ :: _) (ps := (_, _) :: _) ?_ mx
        exact ⟨rfl, rfl, rfl, by simpa using hk, by simpa using hp⟩
      · intro h0'; simp at h0'; omega
    · have : mx = 0 := by omega
      subst this
      simp only [gt_iff_lt, Nat.lt_irrefl, if_false, decide_false, Bool.false_eq_true]
      have hr0 := hz rfl
      have hc0 : com = [] := by simpa using hs
      subst hr0 hc0
      cases past with
      | cons => exact hp.elim
      | nil =>
        cases fut with
        | cons => exact hf.elim
        | nil => exact ⟨rfl, rfl, trivial, trivial, hs, hz⟩

theorem sim_step {sem : Sem π S} {w : World π S} {m : Snap S} (h : Sim sem w m) (o : Op π S)
    (ho : o.Lawful sem) :
    Sim sem (w.step sem o).1 (m.step o).1 ∧ (w.step sem o).2 = (m.step o).2 := by
  cases o with
  | undo => exact sim_undo h
  | redo => exact sim_redo h
  | edit k e => exact ⟨sim_edit h k e ho, rfl⟩
  | setMaximumSize n =>
    obtain ⟨hd, hb, hp, hf, hs, hz⟩ := h
    refine ⟨?_, rfl⟩
    simp only [World.step, Snap.step, Stack.setMaximumSize, Snap.setBound]
    by_cases h0 : n = 0
    · subst h0
      simp only [if_true]
      exact ⟨hd, rfl, by simp [PastRel], by simp [FutureRel], by simp, fun _ => rfl⟩
    · simp only [h0, if_false]
      split
      · exact ⟨hd, rfl, hp.take n, hf, by simp; omega, fun h => absurd h h0⟩
      · have hl := hp.length
        refine ⟨hd, rfl, ?_, hf, by simp; omega, fun h => absurd h h0⟩
        have := hp.take n
        rwa [List.take_of_length_le (by omega)] at this
  | clear =>
    obtain ⟨hd, hb, hp, hf, hs, hz⟩ := h
    exact ⟨⟨hd, hb, trivial, trivial, by simp [World.step, Stack.clear], fun _ => rfl⟩, rfl⟩
  | remove k =>
    obtain ⟨hd, hb, hp, hf, hs, hz⟩ := h
    refine ⟨⟨hd, hb, ?_, ?_, ?_, ?_⟩, rfl⟩
    · have := hp.filter k (w.data k); rw [upd_self] at this; exact this
    · have := hf.filter k (w.data k); rw [upd_self] at this; exact this
    · exact Nat.le_trans (List.length_filter_le _ _) hs
    · intro h0; simp only [World.step, Stack.remove] at *; simp [hz h0]

theorem sim_run {sem : Sem π S} : ∀ (os : List (Op π S)) {w : World π S} {m : Snap S},
    Sim sem w m → (∀ o ∈ os, o.Lawful sem) →
    Sim sem (w.run sem os).1 (m.run os).1 ∧ (w.run sem os).2 = (m.run os).2
  | [], _, _, h, _ => ⟨h, rfl⟩
  | o :: os, w, m, h, hl => by
    have h1 := sim_step h o (hl o (by simp))
    have h2 := sim_run os h1.1 (fun o' ho' => hl o' (by simp [ho']))
    exact ⟨h2.1, by simp [World.run, Snap.run, h1.2, h2.2]⟩

theorem undoN_add (sem : Sem π S) (a b : Nat) (w : World π S) :
    undoN sem (a + b) w = undoN sem b (undoN sem a w) := by
  induction a generalizing w with
  | zero => simp [undoN]
  | succ a ih => rw [Nat.succ_add]; simp [undoN, ih]

theorem redoN_succ' (sem : Sem π S) (n : Nat) (w : World π S) :
    redoN sem (n + 1) w = ((redoN sem n w).redo sem).1 := by
  induction n generalizing w with
  | zero => simp [redoN]
  | succ n ih => rw [redoN, ih]; rfl

/-- Snapshot machine: an edit given by the call. -/
def Snap.editBy (m : Snap S) (e : Int × Edit π S) : Snap S :=
  m.edit e.1 (e.2.run (m.world e.1)).1 (e.2.run (m.world e.1)).2.isSome

def Snap.edits (m : Snap S) (es : List (Int × Edit π S)) : Snap S := es.foldl Snap.editBy m

def Snap.undoN : Nat → Snap S → Snap S
  | 0, m => m
  | n + 1, m => Snap.undoN n m.undo.1

theorem Snap.undoN_add (a b : Nat) (m : Snap S) :
    Snap.undoN (a + b) m = Snap.undoN b (Snap.undoN a m) := by
  induction a generalizing m with
  | zero => simp [Snap.undoN]
  | succ a ih => rw [Nat.succ_add]; simp [Snap.undoN, ih]

theorem sim_edits {sem : Sem π S} (es : List (Int × Edit π S)) :
    ∀ {w : World π S} {m : Snap S}, Sim sem w m → (∀ e ∈ es, e.2.Lawful sem) →
    Sim sem (edits w es) (m.edits es) := by
  induction es with
  | nil => intro w m h _; exact h
  | cons e es ih =>
    intro w m h hl
    exact ih (sim_edit h e.1 e.2 (hl e (by simp))) (fun e' he' => hl e' (by simp [he']))

theorem sim_undoN {sem : Sem π S} (n : Nat) : ∀ {w : World π S} {m : Snap S}, Sim sem w m →
    Sim sem (undoN sem n w) (Snap.undoN n m) := by
  induction n with
  | zero => intro w m h; exact h
  | succ n ih => intro w m h; exact ih (sim_undo h).1


theorem Snap.undo_edits (es : List (Int × Edit π S)) : ∀ (m : Snap S),
    AllRecorded m.world es → m.past.length ≤ m.bound → es.length ≤ m.bound →
    (Snap.undoN es.length (m.edits es)).world = m.world ∧
    (Snap.undoN es.length (m.edits es)).past = m.past.take (m.bound - es.length) ∧
    (Snap.undoN es.length (m.edits es)).bound = m.bound := by
  induction es with
  | nil =>
    intro m _ hl _
    refine ⟨rfl, ?_, rfl⟩
    simp [Snap.undoN, Snap.edits, List.take_of_length_le hl]
  | cons e es ih =>
    intro m hr hl hb
    simp only [List.length_cons] at hb
    have hpos : 0 < m.bound := by omega
    have hm : m.editBy e = { m with
        world := upd m.world e.1 (e.2.run (m.world e.1)).1
        past := ((e.1, m.world e.1) :: m.past).take m.bound
        future := m.future.filter (fun p => p.1 ≠ e.1) } := by
      simp [Snap.editBy, Snap.edit, hr.1, hpos]
    have ih' := ih (m.editBy e) (by rw [hm]; exact hr.2) (by rw [hm]; simp; omega)
      (by rw [hm]; simp; omega)
    have hsplit : Snap.undoN (e :: es).length (m.edits (e :: es)) =
        (Snap.undoN es.length ((m.editBy e).edits es)).undo.1 := by
      rw [List.length_cons, Snap.undoN_add]; rfl
    rw [hsplit]
    generalize Snap.undoN es.length ((m.editBy e).edits es) = x at ih'
    obtain ⟨hw, hp, hbd⟩ := ih'
    rw [hm] at hw hp hbd
    simp only [List.take_take] at hp
    have hmin : min (m.bound - es.length) m.bound = (m.bound - (es.length + 1)) + 1 := by omega
    rw [hmin, List.take_succ_cons] at hp
    simp only at hw hbd
    unfold Snap.undo
    rw [hp]
    refine ⟨?_, rfl, hbd⟩
    simp [hw]

theorem PastRel_length {sem : Sem π S} {w : World π S} {m : Snap S} (h : Sim sem w m) :
    m.past.length ≤ m.bound := by
  rw [← h.past.length, ← h.bound]; exact h.short

theorem Reachable.sim {sem : Sem π S} {w : World π S} (h : Reachable sem w) :
    ∃ m, Sim sem w m := by
  obtain ⟨n, d, os, hl, rfl⟩ := h
  exact ⟨_, (sim_run os (sim_init sem n d) hl).1⟩

theorem run_append (sem : Sem π S) (w : World π S) (os os' : List (Op π S)) :
    (w.run sem (os ++ os')).1 = ((w.run sem os).1.run sem os').1 := by
  induction os generalizing w with
  | nil => rfl
  | cons o os ih => simp [World.run, ih]

theorem Reachable.step {sem : Sem π S} {w : World π S} (h : Reachable sem w) (o : Op π S)
    (ho : o.Lawful sem) : Reachable sem (w.step sem o).1 := by
  obtain ⟨n, d, os, hl, rfl⟩ := h
  refine ⟨n, d, os ++ [o], ?_, ?_⟩
  · intro o' ho'
    rcases List.mem_append.1 ho' with h | h
    · exact hl o' h
    · simp at h; subst h; exact ho
  · rw [run_append]; rfl

end Verif.Undo
