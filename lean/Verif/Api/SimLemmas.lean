import Verif.Api.ContentLemmas
namespace Verif.Api
open Verif.Undo

variable {π V : Type}

structure Sim (sem : Sem π V) (s : St π V) (b : Book V) : Prop where
  shows : Shows s b
  proj : ∀ k K, s.kernels k = some K → b.proj k = K.proj
  bound : s.stack.maxSize = b.bound
  counter : s.counter = b.counter
  ids : ∀ k, s.counter ≤ k → s.kernels k = none
  below : ∀ k K, s.kernels k = some K → objBelow s.next K.obj
  distinct : ∀ k K, s.kernels k = some K → Distinct K.obj
  past : Past sem s.next s.ks s.stack.committed b.past
  future : Future sem s.next s.ks s.stack.restored b.future

theorem Shows.of_some {s : St π V} {b : Book V} (h : Shows s b) {k K} (hK : s.kernels k = some K) :
    ∃ c, b.world k = some c ∧ ∀ f, (K.obj f).map (s.heap k) = some (c f) := by
  have := h k
  rw [hK] at this
  cases hw : b.world k with
  | none => rw [hw] at this; exact this.elim
  | some c => rw [hw] at this; exact ⟨c, rfl, this⟩

theorem Shows.of_none {s : St π V} {b : Book V} (h : Shows s b) {k} (hK : s.kernels k = none) :
    b.world k = none := by
  have := h k
  rw [hK] at this
  cases hw : b.world k with
  | none => rfl
  | some c => rw [hw] at this; exact this.elim

theorem Shows.of_upd {s : St π V} {b : Book V} (h : Shows s b) (k : Int) (K' : Kernel) (h' : Addr → V)
    (c' : Field → V) (hv : ∀ f, (K'.obj f).map h' = some (c' f)) (next cnt st) (b' : Book V)
    (hb : b'.world = upd b.world k (some c')) :
    Shows (⟨upd s.kernels k (some K'), upd s.heap k h', next, cnt, st⟩ : St π V) b' := by
  intro j
  rw [hb]
  by_cases hj : j = k
  · subst hj; simp only [upd_same]; exact hv
  · simp only [upd_ne _ _ hj]; exact h j

theorem ks_some {s : St π V} {k K} (h : s.kernels k = some K) : s.ks k = (K.obj, s.heap k) := by
  simp [St.ks, h]

theorem ks_upd (s : St π V) (k : Int) (K' : Kernel) (h' : Addr → V) (next cnt st) :
    (⟨upd s.kernels k (some K'), upd s.heap k h', next, cnt, st⟩ : St π V).ks =
      upd s.ks k (K'.obj, h') := by
  funext j
  by_cases hj : j = k
  · subst hj; simp [St.ks]
  · simp [St.ks, hj]

/-- Filing a record whose actions lead back to the old contents. -/
theorem sim_change {sem : Sem π V} {s : St π V} {b : Book V} (hI : Inv s) (h : Sim sem s b)
    {k : Int} {K : Kernel} (hK : s.kernels k = some K) {c : Field → V}
    (hc : ∀ f, (K.obj f).map (s.heap k) = some (c f))
    (K' : Kernel) (h' h1 : Addr → V) (next : Addr) (hn : s.next ≤ next)
    (data d : List (Prim π)) (c' : Field → V)
    (hp : K'.proj = K.proj) (hob : objBelow next K'.obj) (hd : ∀ x ∈ data, primBelow next x)
    (hdist : Distinct K'.obj)
    (hv : ∀ f, (K'.obj f).map h' = some (c' f))
    (hrec : Rec sem data d (K'.obj, h') (K.obj, h1))
    (hag : ∀ a, a < s.next → h1 a = s.heap k a) :
    Sim sem ((⟨upd s.kernels k (some K'), upd s.heap k h', next, s.counter, s.stack⟩ : St π V).add
      (some data) k k) (b.change k c c') := by
  obtain ⟨ker, heap0, next0, cnt0, ⟨com, res, mx⟩⟩ := s
  obtain ⟨bw, bp, bpast, bfut, bb, bc⟩ := b
  obtain ⟨hsh, hpr, hbd, hcn, hids, hbe, hdi, hpa, hfu⟩ := h
  have hshort := hI.short
  have hzero := hI.zero
  dsimp only at hpr hbd hcn hids hbe hdi hpa hfu hK hc hn hag hshort hzero hsh
  subst hbd hcn
  have hids' : ∀ j, cnt0 ≤ j → upd ker k (some K') j = none := by
    intro j hj
    by_cases hjk : j = k
    · subst hjk; rw [hids j hj] at hK; cases hK
    · rw [upd_ne _ _ hjk]; exact hids j hj
  have hpr' : ∀ j J, upd ker k (some K') j = some J → bp j = J.proj := by
    intro j J hj
    by_cases hjk : j = k
    · subst hjk; rw [upd_same] at hj; cases hj; rw [hp]; exact hpr _ K hK
    · rw [upd_ne _ _ hjk] at hj; exact hpr j J hj
  have hbe' : ∀ j J, upd ker k (some K') j = some J → objBelow next J.obj := by
    intro j J hj
    by_cases hjk : j = k
    · subst hjk; rw [upd_same] at hj; cases hj; exact hob
    · rw [upd_ne _ _ hjk] at hj; exact (hbe j J hj).mono hn
  have hdi' : ∀ j J, upd ker k (some K') j = some J → Distinct J.obj := by
    intro j J hj
    by_cases hjk : j = k
    · subst hjk; rw [upd_same] at hj; cases hj; exact hdist
    · rw [upd_ne _ _ hjk] at hj; exact hdi j J hj
  by_cases h0 : 0 < mx
  · simp only [St.add, Option.map_some, Stack.add, gt_iff_lt, h0, if_true, ne_eq,
      not_true_eq_false, if_false, Book.change]
    rw [trim_eq_take hshort]
    refine ⟨hsh.of_upd k K' h' c' hv _ _ _ _ rfl, hpr', rfl, rfl, hids', hbe', hdi', ?_, ?_⟩
    · refine Past.take (rs := _ :: _) (ps := (_, _) :: _) ?_ mx
      rw [show (St.ks _) = upd (St.ks ⟨ker, heap0, next0, cnt0, ⟨com, res, mx⟩⟩) k (K'.obj, h') from
        ks_upd ⟨ker, heap0, next0, cnt0, ⟨com, res, mx⟩⟩ k K' h' _ _ _]
      refine ⟨rfl, rfl, rfl, hd, ?_, d, (K.obj, h1), ?_, ?_, hdi k K hK, ?_⟩
      · simp only [upd_same]; exact hob
      · simp only [upd_same]; exact hrec
      · intro f
        show (K.obj f).map h1 = some (c f)
        rw [← hc f]
        have hbk := hbe k K hK f
        cases hof : K.obj f with
        | none => rfl
        | some a => simp [hag a (hbk a hof)]
      · simp only [upd_upd]
        refine hpa.grow hn ?_
        intro j
        by_cases hj : j = k
        · subst hj; simp only [upd_same]
          refine ⟨by simp [St.ks, hK], fun a ha => by simp [St.ks, hag a ha]⟩
        · rw [upd_ne _ _ hj]; exact ⟨rfl, fun _ _ => rfl⟩
    · rw [show (St.ks _) = upd (St.ks ⟨ker, heap0, next0, cnt0, ⟨com, res, mx⟩⟩) k (K'.obj, h') from
        ks_upd ⟨ker, heap0, next0, cnt0, ⟨com, res, mx⟩⟩ k K' h' _ _ _]
      have := (hfu.grow hn (w' := St.ks ⟨ker, heap0, next0, cnt0, ⟨com, res, mx⟩⟩)
        (fun j => ⟨rfl, fun _ _ => rfl⟩)).filter k (K'.obj, h')
      simpa using this
  · have hm : mx = 0 := by omega
    subst hm
    have hc0 : com = [] := by simpa using hshort
    have hr0 := hzero rfl
    subst hc0 hr0
    have hpl := hpa.length
    have hfl := hfu.length
    have hp0 : bpast = [] := List.length_eq_zero_iff.1 (by simpa using hpl.symm)
    have hf0 : bfut = [] := List.length_eq_zero_iff.1 (by simpa using hfl.symm)
    subst hp0 hf0
    simp only [St.add, Option.map_some, Stack.add, gt_iff_lt, Nat.lt_irrefl, if_false, Book.change]
    exact ⟨hsh.of_upd k K' h' c' hv _ _ _ _ rfl, hpr', rfl, rfl, hids', hbe', hdi', trivial, trivial⟩

/-- Changes of the algorithm instances do not matter. -/
theorem sim_setAlg {sem : Sem π V} {s : St π V} {b : Book V} (h : Sim sem s b)
    {k : Int} {K : Kernel} (hK : s.kernels k = some K) (K' : Kernel) (ho : K'.obj = K.obj)
    (hp : K'.proj = K.proj) : Sim sem (s.setKernel k K') b := by
  obtain ⟨hsh, hpr, hbd, hcn, hids, hbe, hdi, hpa, hfu⟩ := h
  have hks : (s.setKernel k K').ks = s.ks := by
    funext j
    by_cases hj : j = k
    · subst hj; simp [St.ks, St.setKernel, hK, ho]
    · simp [St.ks, St.setKernel, hj]
  refine ⟨?_, ?_, hbd, hcn, ?_, ?_, ?_, ?_, ?_⟩
  · intro j
    by_cases hj : j = k
    · subst hj
      obtain ⟨c, hc1, hc2⟩ := hsh.of_some hK
      simp only [St.setKernel, upd_same, hc1, ho]; exact hc2
    · simp only [St.setKernel, upd_ne _ _ hj]; exact hsh j
  · intro j J hj
    simp only [St.setKernel] at hj
    by_cases hjk : j = k
    · subst hjk; rw [upd_same] at hj; cases hj; rw [hp]; exact hpr _ K hK
    · rw [upd_ne _ _ hjk] at hj; exact hpr j J hj
  · intro j hj
    simp only [St.setKernel]
    by_cases hjk : j = k
    · subst hjk
      rw [hids j hj] at hK; cases hK
    · rw [upd_ne _ _ hjk]; exact hids j hj
  · intro j J hj
    simp only [St.setKernel] at hj
    by_cases hjk : j = k
    · subst hjk; rw [upd_same] at hj; cases hj; rw [ho]; exact hbe _ K hK
    · rw [upd_ne _ _ hjk] at hj; exact hbe j J hj
  · intro j J hj
    simp only [St.setKernel] at hj
    by_cases hjk : j = k
    · subst hjk; rw [upd_same] at hj; cases hj; rw [ho]; exact hdi _ K hK
    · rw [upd_ne _ _ hjk] at hj; exact hdi j J hj
  · rw [hks]; exact hpa
  · rw [hks]; exact hfu

theorem write_eq (s : St π V) {k : Int} {K : Kernel} (hK : s.kernels k = some K) (a : Addr) (v : V) :
    s.write k a v =
      ⟨upd s.kernels k (some K), upd s.heap k (put1 (s.heap k) a v), s.next, s.counter, s.stack⟩ := by
  rw [← hK, upd_self]; rfl

theorem put1_self (h : Addr → V) (a : Addr) : put1 h a (h a) = h := by
  funext b; unfold put1; split
  · rename_i e; rw [e]
  · rfl

theorem put1_put1 (h : Addr → V) (a : Addr) (v w : V) : put1 (put1 h a v) a w = put1 h a w := by
  funext b; unfold put1; split <;> rfl

/-- The contents after a write through the pointer of field `f`: no other field shares
the object. -/
theorem view_put1 {o : Field → Option Addr} {h : Addr → V} {c : Field → V} {f a}
    (hc : ∀ g, (o g).map h = some (c g)) (hf : o f = some a) (v : V)
    (hinj : ∀ g, o g = some a → g = f) (g : Field) :
    (o g).map (put1 h a v) = some (Book.put c f v g) := by
  have := hc g
  unfold Book.put
  split
  · rename_i e; subst e; simp [hf, put1]
  · rename_i hne
    cases hg : o g with
    | none => rw [hg] at this; cases this
    | some b =>
      have hb : b ≠ a := fun e => hne (hinj g (by rw [hg, e]))
      rw [hg] at this
      simpa [put1, hb] using this

end Verif.Api
