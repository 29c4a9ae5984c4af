import Verif.Api.SimLemmas
namespace Verif.Api
open Verif.Undo

variable {π V : Type}

theorem idx_inj {f g : Field} (h : f.idx = g.idx) : f = g := by
  cases f <;> cases g <;> simp_all [Field.idx]

theorem idx_lt (f : Field) : f.idx < 5 := by cases f <;> simp [Field.idx]

def freshHeap (next : Addr) (fs : List Field) (vals : Field → V) (h : Addr → V) : Addr → V :=
  fun a => match fs.find? (fun f => next + f.idx = a) with
    | some f => vals f
    | none => h a

theorem freshHeap_lt {next : Addr} {fs : List Field} {vals : Field → V} {h : Addr → V} {a : Addr}
    (ha : a < next) : freshHeap next fs vals h a = h a := by
  unfold freshHeap
  rw [List.find?_eq_none.2]
  intro f _; simp; omega

theorem freshHeap_new {next : Addr} {fs : List Field} {vals : Field → V} {h : Addr → V} {f : Field}
    (hf : f ∈ fs) : freshHeap next fs vals h (next + f.idx) = vals f := by
  unfold freshHeap
  cases hx : fs.find? (fun g => decide (next + g.idx = next + f.idx)) with
  | none => exact absurd hf (fun hf => by simpa using List.find?_eq_none.1 hx f hf)
  | some g =>
    have := List.find?_some hx
    simp only [decide_eq_true_eq] at this
    rw [idx_inj (show g.idx = f.idx by omega)]

theorem fresh_eq (s : St π V) (k : Int) (K : Kernel) (fs : List Field) (vals : Field → V) :
    s.fresh k K fs vals = ⟨upd s.kernels k (some { K with obj := freshObj s.next fs K.obj }),
      upd s.heap k (freshHeap s.next fs vals (s.heap k)), s.next + 5, s.counter, s.stack⟩ := rfl

theorem freshObj_below {next : Addr} {fs : List Field} {o : Field → Option Addr}
    (h : objBelow next o) : objBelow (next + 5) (freshObj next fs o) := by
  intro f a hf
  unfold freshObj at hf
  split at hf
  · cases hf; have := idx_lt f; omega
  · have := h f a hf; omega

theorem freshObj_distinct {next : Addr} {fs : List Field} {o : Field → Option Addr}
    (h : objBelow next o) (hd : Distinct o) : Distinct (freshObj next fs o) := by
  intro f g a hf hg
  unfold freshObj at hf hg
  split at hf <;> split at hg
  · cases hf; simp only [Option.some.injEq] at hg; exact idx_inj (by omega)
  · cases hf; have := h g _ hg; omega
  · cases hg; have := h f _ hf; omega
  · exact hd f g a hf hg

theorem freshObj_view {next : Addr} {fs : List Field} {o : Field → Option Addr} {vals : Field → V}
    {h h' : Addr → V} {c : Field → V} (hb : objBelow next o) (hc : ∀ f, (o f).map h = some (c f))
    (h1 : ∀ a, a < next → h' a = h a) (h2 : ∀ f ∈ fs, h' (next + f.idx) = vals f) (f : Field) :
    (freshObj next fs o f).map h' = some (if f ∈ fs then vals f else c f) := by
  unfold freshObj
  by_cases hf : f ∈ fs
  · simp [hf, h2 f hf]
  · simp only [hf, if_false]
    rw [← hc f]
    cases ho : o f with
    | none => rfl
    | some a => simp [h1 a (hb f a ho)]

theorem sim_fresh_add {sem : Sem π V} {s : St π V} {b : Book V} (hI : Inv s) (h : Sim sem s b)
    {k : Int} {K : Kernel} (hK : s.kernels k = some K) {c : Field → V}
    (hc : ∀ f, (K.obj f).map (s.heap k) = some (c f)) (K1 : Kernel) (ho : K1.obj = K.obj)
    (hp : K1.proj = K.proj) (fs : List Field) (vals : Field → V) :
    Sim sem ((s.fresh k K1 fs vals).add (some [.snap K.obj]) k k)
      (b.change k c (fun f => if f ∈ fs then vals f else c f)) := by
  have hb := h.below k K hK
  rw [fresh_eq, ho]
  refine sim_change hI h hK hc { K1 with obj := freshObj s.next fs K.obj } _
    (freshHeap s.next fs vals (s.heap k)) _ (by omega)
    [.snap K.obj] [.snap (freshObj s.next fs K.obj)] _ hp (freshObj_below hb) ?_
    (freshObj_distinct hb (h.distinct k K hK)) ?_ ⟨rfl, rfl⟩ (fun a ha => freshHeap_lt ha)
  · intro x hx
    simp only [List.mem_singleton] at hx
    subst hx
    exact hb.mono (by omega)
  · exact freshObj_view hb hc (fun a ha => freshHeap_lt ha) (fun f hf => freshHeap_new hf)

theorem write_same (s : St π V) (k : Int) (a : Addr) : s.write k a (s.heap k a) = s := by
  obtain ⟨ker, hp, nx, cn, st⟩ := s
  simp only [St.write]
  congr
  have : (fun b => if b = a then hp k a else hp k b) = hp k := put1_self (hp k) a
  rw [this, upd_self]

theorem rec_edit {sem : Sem π V} {p : π} {v v' : V} (h : Records sem p v v') {o : Field → Option Addr}
    {a : Addr} (hh : holds o a = true) (hp : Addr → V) (hv : hp a = v) :
    ∃ q, Rec sem [.edit a p] [.edit a q] (o, put1 hp a v') (o, hp) := by
  obtain ⟨q, h1, h2⟩ := h
  refine ⟨q, ?_, ?_⟩
  · have : (put1 hp a v') a = v' := by simp [put1]
    simp only [ksRL, ksR, hh, if_true, this, h1, Option.bind_some, Option.map_some, put1_put1, ← hv,
      put1_self]
  · simp only [ksCL, ksC, hh, if_true, hv, h2, Option.bind_some, Option.map_some]

theorem sim_editAt {sem : Sem π V} {s : St π V} {b : Book V} (hI : Inv s) (h : Sim sem s b)
    {k : Int} {K : Kernel} (hK : s.kernels k = some K) {c : Field → V}
    (hc : ∀ f, (K.obj f).map (s.heap k) = some (c f)) {f : Field} {a : Addr} (hf : K.obj f = some a)
    (out : EditOut π V) (hl : out.Lawful sem (s.heap k a)) :
    Sim sem (s.editAt k k a out).1 (b.editField k c f out).1 ∧
      (s.editAt k k a out).2 = (b.editField k c f out).2 := by
  cases out with
  | ok v act =>
    cases act with
    | none =>
      simp only [EditOut.Lawful] at hl
      subst hl
      simp only [St.editAt, Option.map_none, add_none, write_same, Book.editField]
      exact ⟨h, trivial⟩
    | some p =>
      simp only [EditOut.Lawful] at hl
      have hh : holds K.obj a = true := holds_iff.2 ⟨f, hf⟩
      obtain ⟨q, hq⟩ := rec_edit hl hh (s.heap k) rfl
      refine ⟨?_, rfl⟩
      simp only [St.editAt, Option.map_some, Book.editField]
      rw [write_eq s hK]
      refine sim_change hI h hK hc K _ (s.heap k) _ (Nat.le_refl _) [.edit a p] [.edit a q] _ rfl
        (h.below k K hK) ?_ (h.distinct k K hK) ?_ hq (fun _ _ => rfl)
      · intro x hx
        simp only [List.mem_singleton] at hx
        subst hx; exact h.below k K hK f a hf
      · exact view_put1 hc hf v (fun g hg => h.distinct k K hK g f a hg hf)
  | fail v act =>
    obtain ⟨rfl, rfl⟩ := hl
    simp only [St.editAt, Option.map_none, add_none, write_same, Book.editField]
    exact ⟨h, trivial⟩

theorem setKs_ks {s : St π V} {k : Int} (K : Kernel) (w : KS V) :
    (s.setKs k K w).ks = upd s.ks k w := by
  funext j
  by_cases hj : j = k
  · subst hj; simp [St.ks, St.setKs]
  · simp [St.ks, St.setKs, hj]

theorem sim_setKs {sem : Sem π V} {s : St π V} {b : Book V} (h : Sim sem s b)
    {k : Int} {K : Kernel} (hK : s.kernels k = some K) (w : KS V) (c' : Field → V)
    (hv : ∀ f, ksView w f = some (c' f)) (hb : objBelow s.next w.1) (hd : Distinct w.1)
    (com res : List (Record (List (Prim π)))) (past future : List (Int × (Field → V)))
    (hp : Past sem s.next (upd s.ks k w) com past)
    (hf : Future sem s.next (upd s.ks k w) res future) :
    Sim sem { s.setKs k K w with stack := ⟨com, res, s.stack.maxSize⟩ }
      { b with world := upd b.world k (some c'), past := past, future := future } := by
  refine ⟨?_, ?_, h.bound, h.counter, ?_, ?_, ?_, ?_, ?_⟩
  · exact h.shows.of_upd k { K with obj := w.1 } w.2 c' hv _ _ _ _ rfl
  · intro j J hj
    simp only [St.setKs] at hj
    by_cases hjk : j = k
    · subst hjk; rw [upd_same] at hj; cases hj; exact h.proj _ K hK
    · rw [upd_ne _ _ hjk] at hj; exact h.proj j J hj
  · intro j hj
    simp only [St.setKs]
    by_cases hjk : j = k
    · subst hjk; rw [h.ids j hj] at hK; cases hK
    · rw [upd_ne _ _ hjk]; exact h.ids j hj
  · intro j J hj
    simp only [St.setKs] at hj
    by_cases hjk : j = k
    · subst hjk; rw [upd_same] at hj; cases hj; exact hb
    · rw [upd_ne _ _ hjk] at hj; exact h.below j J hj
  · intro j J hj
    simp only [St.setKs] at hj
    by_cases hjk : j = k
    · subst hjk; rw [upd_same] at hj; cases hj; exact hd
    · rw [upd_ne _ _ hjk] at hj; exact h.distinct j J hj
  · have : St.ks ({ s.setKs k K w with stack := ⟨com, res, s.stack.maxSize⟩ } : St π V) = upd s.ks k w :=
      setKs_ks K w
    rw [this]; exact hp
  · have : St.ks ({ s.setKs k K w with stack := ⟨com, res, s.stack.maxSize⟩ } : St π V) = upd s.ks k w :=
      setKs_ks K w
    rw [this]; exact hf

theorem sim_undo {E : Env π V} {s : St π V} {b : Book V} (hI : Inv s) (h : Sim E.sem s b) :
    ∃ r, s.step E .undo = .ok r ∧ Sim E.sem r.1 (b.step E .undo).1 ∧ r.2 = (b.step E .undo).2 := by
  obtain ⟨ker, heap0, next0, cnt0, ⟨com, res, mx⟩⟩ := s
  obtain ⟨bw, bp, bpast, bfut, bb, bc⟩ := b
  have hpa := h.past
  have hfu := h.future
  cases com with
  | nil =>
    cases bpast with
    | nil => exact ⟨_, rfl, h, rfl⟩
    | cons => exact hpa.elim
  | cons r rest =>
    cases bpast with
    | nil => exact hpa.elim
    | cons p ps =>
      obtain ⟨k, c1⟩ := p
      obtain ⟨h1, h2, h3, h4, h5, d, w1, h6, h7, h7', h8⟩ := hpa
      obtain ⟨⟨st, data⟩, id, tgt⟩ := r
      dsimp only at h1 h2 h3 h4 h5 h6 h7 h7' h8
      subst h1 h2 h3
      obtain ⟨K, hK⟩ := Option.isSome_iff_exists.1
        (hI.alive ⟨⟨.committed, data⟩, tgt, tgt⟩ (by simp [St.records]))
      dsimp only at hK
      obtain ⟨c, hc1, hc2⟩ := h.shows.of_some hK
      dsimp only at hc1 hc2
      have hks : St.ks (⟨ker, heap0, next0, cnt0, ⟨⟨⟨.committed, data⟩, tgt, tgt⟩ :: rest, res, mx⟩⟩ :
          St π V) tgt = (K.obj, heap0 tgt) := ks_some hK
      rw [hks] at h5 h6
      have hr := restoreList_ks E.sem tgt data
        ⟨ker, heap0, next0, cnt0, ⟨⟨⟨.committed, data⟩, tgt, tgt⟩ :: rest, res, mx⟩⟩ K d w1 hK h6.1
      obtain ⟨_, hdb, hob⟩ := h6.mix (n := next0) (heap0 tgt) h4 h5
      have hs := sim_setKs h hK w1 c1 h7 hob h7' rest
        (⟨⟨.restored, d⟩, tgt, tgt⟩ :: res) ps ((tgt, c) :: bfut) h8
        ⟨rfl, rfl, rfl, hdb, by simpa using hob, data, (K.obj, heap0 tgt), by simpa using h6,
          fun f => hc2 f, h.distinct _ K hK, by rw [upd_upd, ← hks, upd_self]; exact hfu⟩
      refine ⟨_, by simp only [St.step, St.undo, hr, Res.ok_bind]; rfl, ?_⟩
      simp only [Book.step, hc1]
      exact ⟨hs, trivial⟩

theorem sim_redo {E : Env π V} {s : St π V} {b : Book V} (hI : Inv s) (h : Sim E.sem s b) :
    ∃ r, s.step E .redo = .ok r ∧ Sim E.sem r.1 (b.step E .redo).1 ∧ r.2 = (b.step E .redo).2 := by
  obtain ⟨ker, heap0, next0, cnt0, ⟨com, res, mx⟩⟩ := s
  obtain ⟨bw, bp, bpast, bfut, bb, bc⟩ := b
  have hpa := h.past
  have hfu := h.future
  have hbd := h.bound
  have hshort := hI.short
  dsimp only at hbd hshort
  subst hbd
  cases res with
  | nil =>
    cases bfut with
    | nil => exact ⟨_, rfl, h, rfl⟩
    | cons => exact hfu.elim
  | cons r rest =>
    cases bfut with
    | nil => exact hfu.elim
    | cons p ps =>
      obtain ⟨k, c1⟩ := p
      obtain ⟨h1, h2, h3, h4, h5, d, w1, h6, h7, h7', h8⟩ := hfu
      obtain ⟨⟨st, data⟩, id, tgt⟩ := r
      dsimp only at h1 h2 h3 h4 h5 h6 h7 h7' h8
      subst h1 h2 h3
      obtain ⟨K, hK⟩ := Option.isSome_iff_exists.1
        (hI.alive ⟨⟨.restored, data⟩, tgt, tgt⟩ (by simp [St.records]))
      dsimp only at hK
      obtain ⟨c, hc1, hc2⟩ := h.shows.of_some hK
      dsimp only at hc1 hc2
      have hks : St.ks (⟨ker, heap0, next0, cnt0, ⟨com, ⟨⟨.restored, data⟩, tgt, tgt⟩ :: rest, mx⟩⟩ :
          St π V) tgt = (K.obj, heap0 tgt) := ks_some hK
      rw [hks] at h5 h6
      have hr := commitList_ks E.sem tgt data
        ⟨ker, heap0, next0, cnt0, ⟨com, ⟨⟨.restored, data⟩, tgt, tgt⟩ :: rest, mx⟩⟩ K d w1 hK h6.2
      obtain ⟨w1o, w1h⟩ := w1
      obtain ⟨_, hdb, hob⟩ := ksCL_mix E.sem (n := next0) (heap0 tgt) h4 h5 h6.2
      have hs := sim_setKs h hK (w1o, w1h) c1 h7 hob h7' (List.take mx (⟨⟨.committed, d⟩, tgt, tgt⟩ :: com))
        rest (List.take mx ((tgt, c) :: bpast)) ps
        (Past.take (rs := ⟨⟨.committed, d⟩, tgt, tgt⟩ :: com) (ps := (tgt, c) :: bpast)
          ⟨rfl, rfl, rfl, hdb, by simpa using hob, data, (K.obj, heap0 tgt), by simpa using h6,
          fun f => hc2 f, h.distinct _ K hK, by rw [upd_upd, ← hks, upd_self]; exact hpa⟩ mx) h8
      refine ⟨_, by simp only [St.step, St.redo, hr, Res.ok_bind]; rfl, ?_⟩
      simp only [Book.step, hc1]
      rw [trim_eq_take hshort]
      exact ⟨hs, trivial⟩

end Verif.Api
