import Verif.Api.Spec
import Verif.Undo.Lemmas
namespace Verif.Api
open Verif.Undo

variable {π V : Type}

/-- Walking through undo actions from the pointers `o`: an edit action refers to an
object held at that point, a snapshot leads to its saved pointers. -/
def Chain : (Field → Option Addr) → List (Prim π) → Prop
  | _, [] => True
  | o, .edit a _ :: l => (∃ f, f ≠ .contacts ∧ o f = some a) ∧ Chain o l
  | _, .snap q :: l => (∀ f, (q f).isSome) ∧ Chain q l

theorem Chain.prefix : ∀ {l m : List (Prim π)} {o}, Chain o (l ++ m) → Chain o l
  | [], _, _, _ => trivial
  | .edit _ _ :: _, _, _, h => ⟨h.1, Chain.prefix h.2⟩
  | .snap _ :: _, _, _, h => ⟨h.1, Chain.prefix h.2⟩

theorem Chain.agree {o o' : Field → Option Addr} (h : ∀ f, f ≠ .contacts → o f = o' f) :
    ∀ {l : List (Prim π)}, Chain o l → Chain o' l
  | [], _ => trivial
  | .edit _ _ :: _, ⟨⟨f, hf, e⟩, h2⟩ => ⟨⟨f, hf, (h f hf).symm.trans e⟩, Chain.agree h h2⟩
  | .snap _ :: _, h2 => h2

/-- Actions on kernel `k`, in the order in which undo performs them. -/
def back (k : Int) (l : List (Record (List (Prim π)))) : List (Prim π) :=
  (l.filter (fun r => r.target = k)).flatMap (fun r => r.act.data)

/-- Actions on kernel `k`, in the order in which redo performs them. -/
def forth (k : Int) (l : List (Record (List (Prim π)))) : List (Prim π) :=
  (l.filter (fun r => r.target = k)).flatMap (fun r => r.act.data.reverse)

structure Inv (s : St π V) : Prop where
  ids : ∀ r ∈ s.records, r.id = r.target
  com : ∀ r ∈ s.stack.committed, r.act.state = .committed
  res : ∀ r ∈ s.stack.restored, r.act.state = .restored
  alive : ∀ r ∈ s.records, (s.kernels r.target).isSome
  full : ∀ k K, s.kernels k = some K → ∀ f, (K.obj f).isSome
  backs : ∀ k K, s.kernels k = some K → Chain K.obj (back k s.stack.committed)
  forths : ∀ k K, s.kernels k = some K → Chain K.obj (forth k s.stack.restored)
  short : s.stack.committed.length ≤ s.stack.maxSize
  zero : s.stack.maxSize = 0 → s.stack.restored = []

theorem Field.mem_all (f : Field) : f ∈ Field.all := by cases f <;> simp [Field.all]

theorem owned_of_obj {s : St π V} {k K f a} (h : s.kernels k = some K) (h2 : K.obj f = some a) :
    s.owned k a = true := by
  simp only [St.owned, h, Bool.or_eq_true, List.any_eq_true]
  exact .inl ⟨f, f.mem_all, by simp [h2]⟩

theorem restoreList_ok (sem : Sem π V) (k : Int) : ∀ (data l : List (Prim π)) (s : St π V) K,
    s.kernels k = some K → (∀ f, (K.obj f).isSome) → Chain K.obj (data ++ l) →
    ∃ d s' K', restoreList sem k data s = .ok (d, s') ∧ s'.kernels = upd s.kernels k (some K') ∧
      s'.stack = s.stack ∧ s'.next = s.next ∧ s'.counter = s.counter ∧
      (∀ j, j ≠ k → s'.heap j = s.heap j) ∧
      K'.proj = K.proj ∧ K'.alg = K.alg ∧ (∀ f, (K'.obj f).isSome) ∧ Chain K'.obj l ∧
      ∀ l', Chain K.obj l' → Chain K'.obj (d.reverse ++ l')
  | [], l, s, K, hk, hf, hc =>
    ⟨[], s, K, rfl, by rw [← hk, upd_self], rfl, rfl, rfl, fun _ _ => rfl, rfl, rfl, hf, hc,
      fun _ h => h⟩
  | .edit a p :: data, l, s, K, hk, hf, ⟨⟨f, hfc, hfa⟩, hc⟩ => by
    obtain ⟨d, s', K', h1, h2, h3, h4, h5, h5', h6, h7, h8, h9, h10⟩ :=
      restoreList_ok sem k data l (s.write k a (sem.doRestore p (s.heap k a)).2) K hk hf hc
    refine ⟨.edit a (sem.doRestore p (s.heap k a)).1 :: d, s', K', ?_, h2, h3, h4, h5, ?_, h6, h7, h8, h9, ?_⟩
    · simp only [restoreList, restorePrim, owned_of_obj hk hfa, if_true, Res.ok_bind, h1]
    · intro j hj; rw [h5' j hj]; simp [St.write, hj]
    · intro l' hl
      simpa using h10 (.edit a (sem.doRestore p (s.heap k a)).1 :: l') ⟨⟨f, hfc, hfa⟩, hl⟩
  | .snap q :: data, l, s, K, hk, hf, ⟨hq, hc⟩ => by
    obtain ⟨d, s', K', h1, h2, h3, h4, h5, h5', h6, h7, h8, h9, h10⟩ :=
      restoreList_ok sem k data l (s.setKernel k { K with obj := q }) { K with obj := q }
        (by simp [St.setKernel]) hq hc
    refine ⟨.snap K.obj :: d, s', K', ?_, ?_, h3, h4, h5, h5', h6, h7, h8, h9, ?_⟩
    · simp only [restoreList, restorePrim, hk, Res.ok_bind, h1]
    · rw [h2]; simp [St.setKernel]
    · intro l' hl
      simpa using h10 (.snap K.obj :: l') ⟨hf, hl⟩

theorem commitList_ok (sem : Sem π V) (k : Int) : ∀ (data l : List (Prim π)) (s : St π V) K,
    s.kernels k = some K → (∀ f, (K.obj f).isSome) → Chain K.obj (data.reverse ++ l) →
    ∃ d s' K', commitList sem k data s = .ok (d, s') ∧ s'.kernels = upd s.kernels k (some K') ∧
      s'.stack = s.stack ∧ s'.next = s.next ∧ s'.counter = s.counter ∧
      (∀ j, j ≠ k → s'.heap j = s.heap j) ∧
      K'.proj = K.proj ∧ K'.alg = K.alg ∧ (∀ f, (K'.obj f).isSome) ∧ Chain K'.obj l ∧
      ∀ l', Chain K.obj l' → Chain K'.obj (d ++ l')
  | [], l, s, K, hk, hf, hc =>
    ⟨[], s, K, rfl, by rw [← hk, upd_self], rfl, rfl, rfl, fun _ _ => rfl, rfl, rfl, hf, hc,
      fun _ h => h⟩
  | x :: data, l, s, K, hk, hf, hc => by
    have hc' : Chain K.obj (data.reverse ++ (x :: l)) := by simpa using hc
    obtain ⟨d, s', K', h1, h2, h3, h4, h5, h5', h6, h7, h8, h9, h10⟩ :=
      commitList_ok sem k data (x :: l) s K hk hf hc'
    have hk' : s'.kernels k = some K' := by rw [h2]; simp
    cases x with
    | edit a p =>
      obtain ⟨⟨f, hfc, hfa⟩, hl⟩ := h9
      refine ⟨.edit a (sem.doCommit p (s'.heap k a)).1 :: d,
        s'.write k a (sem.doCommit p (s'.heap k a)).2, K', ?_, h2, h3, h4, h5, ?_, h6, h7, h8, hl, ?_⟩
      · simp only [commitList, h1, commitPrim, owned_of_obj hk' hfa, if_true, Res.ok_bind]
      · intro j hj; simp [St.write, hj, h5' j hj]
      · intro l' hl'
        exact ⟨⟨f, hfc, hfa⟩, h10 l' hl'⟩
    | snap q =>
      obtain ⟨hq, hl⟩ := h9
      refine ⟨.snap K'.obj :: d, s'.setKernel k { K' with obj := q }, { K' with obj := q },
        ?_, ?_, h3, h4, h5, h5', h6, h7, hq, hl, ?_⟩
      · simp only [commitList, h1, commitPrim, hk', Res.ok_bind]
      · simp [St.setKernel, h2]
      · intro l' hl'
        exact ⟨h8, h10 l' hl'⟩

section backforth
variable {k : Int} {r : Record (List (Prim π))} {l : List (Record (List (Prim π)))}

theorem back_cons_eq (h : r.target = k) : back k (r :: l) = r.act.data ++ back k l := by
  simp [back, h]
theorem back_cons_ne (h : r.target ≠ k) : back k (r :: l) = back k l := by simp [back, h]
theorem forth_cons_eq (h : r.target = k) : forth k (r :: l) = r.act.data.reverse ++ forth k l := by
  simp [forth, h]
theorem forth_cons_ne (h : r.target ≠ k) : forth k (r :: l) = forth k l := by simp [forth, h]

theorem back_append (m : List (Record (List (Prim π)))) : back k (l ++ m) = back k l ++ back k m := by
  simp [back]

theorem Chain.take {o} (n : Nat) (h : Chain o (back k l)) : Chain o (back k (l.take n)) := by
  rw [← List.take_append_drop n l, back_append] at h
  exact h.prefix

theorem back_filter (j : Int) (hid : ∀ r ∈ l, r.id = r.target) :
    back k (l.filter (fun r => r.id ≠ j)) = if k = j then [] else back k l := by
  induction l with
  | nil => simp [back]
  | cons r l ih =>
    have ih := ih (fun r hr => hid r (List.mem_cons_of_mem _ hr))
    have hr := hid r List.mem_cons_self
    by_cases h1 : r.id = j
    · rw [List.filter_cons_of_neg (by simp [h1]), ih]
      split
      · rfl
      · rename_i hk; rw [back_cons_ne (by rw [← hr, h1]; exact Ne.symm hk)]
    · rw [List.filter_cons_of_pos (by simp [h1])]
      by_cases h2 : r.target = k
      · rw [back_cons_eq h2, back_cons_eq h2, ih]
        rw [if_neg (by rw [← h2, ← hr]; exact h1), if_neg (by rw [← h2, ← hr]; exact h1)]
      · rw [back_cons_ne h2, back_cons_ne h2, ih]

theorem forth_filter (j : Int) (hid : ∀ r ∈ l, r.id = r.target) :
    forth k (l.filter (fun r => r.id ≠ j)) = if k = j then [] else forth k l := by
  induction l with
  | nil => simp [forth]
  | cons r l ih =>
    have ih := ih (fun r hr => hid r (List.mem_cons_of_mem _ hr))
    have hr := hid r List.mem_cons_self
    by_cases h1 : r.id = j
    · rw [List.filter_cons_of_neg (by simp [h1]), ih]
      split
      · rfl
      · rename_i hk; rw [forth_cons_ne (by rw [← hr, h1]; exact Ne.symm hk)]
    · rw [List.filter_cons_of_pos (by simp [h1])]
      by_cases h2 : r.target = k
      · rw [forth_cons_eq h2, forth_cons_eq h2, ih]
        rw [if_neg (by rw [← h2, ← hr]; exact h1), if_neg (by rw [← h2, ← hr]; exact h1)]
      · rw [forth_cons_ne h2, forth_cons_ne h2, ih]

end backforth

theorem Inv.mem_com {s : St π V} {r} (h : r ∈ s.stack.committed) : r ∈ s.records :=
  List.mem_append.2 (.inl h)
theorem Inv.mem_res {s : St π V} {r} (h : r ∈ s.stack.restored) : r ∈ s.records :=
  List.mem_append.2 (.inr h)

theorem inv_init (n : Nat) (h : Int → Addr → V) : Inv (St.init n h : St π V) :=
  ⟨by simp [St.init, St.records], by simp [St.init], by simp [St.init],
   by simp [St.init, St.records], by simp [St.init], by simp [St.init], by simp [St.init],
   by simp [St.init], by simp [St.init]⟩

/-- A sublist of each list of records keeps the invariant when the chains stay valid. -/
theorem inv_undo {s : St π V} (sem : Sem π V) (h : Inv s) :
    ∃ r, s.undo sem = .ok r ∧ Inv r.1 := by
  obtain ⟨ker, heap, next, cnt, ⟨com, res, mx⟩⟩ := s
  cases com with
  | nil => exact ⟨_, rfl, h⟩
  | cons r rest =>
    obtain ⟨hid, hcom, hres, hal, hfu, hb, hf, hsh, hz⟩ := h
    dsimp only [St.records] at hid hcom hres hal hfu hb hf hsh hz
    have hst : r.act.state = .committed := hcom r List.mem_cons_self
    obtain ⟨K, hK⟩ := Option.isSome_iff_exists.1 (hal r (by simp))
    have hbk := hb _ K hK
    rw [back_cons_eq rfl] at hbk
    obtain ⟨d, s', K', h1, h2, h3, h4, h5, h5', h6, h7, h8, h9, h10⟩ :=
      restoreList_ok sem r.target r.act.data (back r.target rest)
        ⟨ker, heap, next, cnt, ⟨r :: rest, res, mx⟩⟩ K hK (hfu _ K hK) hbk
    refine ⟨({ s' with stack := ⟨rest, ⟨⟨.restored, d⟩, r.id, r.target⟩ :: res, mx⟩ }, some r.id),
      ?_, ?_⟩
    · simp only [St.undo, hst, h1, Res.ok_bind]
    · obtain ⟨ker', heap', next', cnt', st'⟩ := s'
      dsimp only at h2 h3 h4 h5 ⊢
      subst h2
      refine ⟨?_, ?_, ?_, ?_, ?_, ?_, ?_, ?_, ?_⟩ <;> dsimp only [St.records]
      · intro x hx
        simp only [List.mem_append, List.mem_cons] at hx
        rcases hx with hx | rfl | hx
        · exact hid x (by simp [hx])
        · exact hid r (by simp)
        · exact hid x (by simp [hx])
      · intro x hx; exact hcom x (List.mem_cons_of_mem _ hx)
      · intro x hx
        rcases List.mem_cons.1 hx with rfl | hx
        · rfl
        · exact hres x hx
      · intro x hx
        have hx' : ∃ y ∈ r :: rest ++ res, y.target = x.target := by
          simp only [List.mem_append, List.mem_cons] at hx
          rcases hx with hx | rfl | hx
          · exact ⟨x, by simp [hx], rfl⟩
          · exact ⟨r, by simp, rfl⟩
          · exact ⟨x, by simp [hx], rfl⟩
        obtain ⟨y, hy, hyx⟩ := hx'
        rw [← hyx]
        by_cases hy2 : y.target = r.target
        · rw [hy2]; simp
        · rw [upd_ne _ _ hy2]; exact hal y hy
      · intro k K1 hk1
        by_cases hkr : k = r.target
        · subst hkr; rw [upd_same] at hk1; cases hk1; exact h8
        · rw [upd_ne _ _ hkr] at hk1; exact hfu k K1 hk1
      · intro k K1 hk1
        by_cases hkr : k = r.target
        · subst hkr; rw [upd_same] at hk1; cases hk1; exact h9
        · rw [upd_ne _ _ hkr] at hk1
          have := hb k K1 hk1
          rwa [back_cons_ne (Ne.symm hkr)] at this
      · intro k K1 hk1
        by_cases hkr : k = r.target
        · subst hkr; rw [upd_same] at hk1; cases hk1
          rw [forth_cons_eq (r := ⟨⟨.restored, d⟩, r.id, r.target⟩) rfl]; exact h10 _ (hf _ K hK)
        · rw [upd_ne _ _ hkr] at hk1
          rw [forth_cons_ne (r := ⟨⟨.restored, d⟩, r.id, r.target⟩) (Ne.symm hkr)]; exact hf k K1 hk1
      · simp at hsh; omega
      · intro h0; simp at hsh; omega

theorem inv_redo {s : St π V} (sem : Sem π V) (h : Inv s) :
    ∃ r, s.redo sem = .ok r ∧ Inv r.1 := by
  obtain ⟨ker, heap, next, cnt, ⟨com, res, mx⟩⟩ := s
  cases res with
  | nil => exact ⟨_, rfl, h⟩
  | cons r rest =>
    obtain ⟨hid, hcom, hres, hal, hfu, hb, hf, hsh, hz⟩ := h
    dsimp only [St.records] at hid hcom hres hal hfu hb hf hsh hz
    have hst : r.act.state = .restored := hres r List.mem_cons_self
    obtain ⟨K, hK⟩ := Option.isSome_iff_exists.1 (hal r (by simp))
    have hbk := hf _ K hK
    rw [forth_cons_eq rfl] at hbk
    obtain ⟨d, s', K', h1, h2, h3, h4, h5, h5', h6, h7, h8, h9, h10⟩ :=
      commitList_ok sem r.target r.act.data (forth r.target rest)
        ⟨ker, heap, next, cnt, ⟨com, r :: rest, mx⟩⟩ K hK (hfu _ K hK) hbk
    refine ⟨({ s' with stack :=
      ⟨trim mx (⟨⟨.committed, d⟩, r.id, r.target⟩ :: com), rest, mx⟩ }, some r.id), ?_, ?_⟩
    · simp only [St.redo, hst, h1, Res.ok_bind]
    · obtain ⟨ker', heap', next', cnt', st'⟩ := s'
      dsimp only at h2 h3 h4 h5 ⊢
      subst h2
      rw [trim_eq_take hsh]
      have hmx : mx ≠ 0 := fun h0 => by simpa using hz h0
      have hsub : ∀ x, x ∈ List.take mx (⟨⟨.committed, d⟩, r.id, r.target⟩ :: com) →
          x = ⟨⟨.committed, d⟩, r.id, r.target⟩ ∨ x ∈ com := fun x hx =>
        List.mem_cons.1 (List.mem_of_mem_take hx)
      refine ⟨?_, ?_, ?_, ?_, ?_, ?_, ?_, ?_, ?_⟩ <;> dsimp only [St.records]
      · intro x hx
        rcases List.mem_append.1 hx with hx | hx
        · rcases hsub x hx with rfl | hx
          · exact hid r (by simp)
          · exact hid x (by simp [hx])
        · exact hid x (by simp [hx])
      · intro x hx
        rcases hsub x hx with rfl | hx
        · rfl
        · exact hcom x hx
      · intro x hx; exact hres x (List.mem_cons_of_mem _ hx)
      · intro x hx
        have hx' : ∃ y ∈ com ++ r :: rest, y.target = x.target := by
          rcases List.mem_append.1 hx with hx | hx
          · rcases hsub x hx with rfl | hx
            · exact ⟨r, by simp, rfl⟩
            · exact ⟨x, by simp [hx], rfl⟩
          · exact ⟨x, by simp [hx], rfl⟩
        obtain ⟨y, hy, hyx⟩ := hx'
        rw [← hyx]
        by_cases hy2 : y.target = r.target
        · rw [hy2]; simp
        · rw [upd_ne _ _ hy2]; exact hal y hy
      · intro k K1 hk1
        by_cases hkr : k = r.target
        · subst hkr; rw [upd_same] at hk1; cases hk1; exact h8
        · rw [upd_ne _ _ hkr] at hk1; exact hfu k K1 hk1
      · intro k K1 hk1
        apply Chain.take
        by_cases hkr : k = r.target
        · subst hkr; rw [upd_same] at hk1; cases hk1
          rw [back_cons_eq (r := ⟨⟨.committed, d⟩, r.id, r.target⟩) rfl]; exact h10 _ (hb _ K hK)
        · rw [upd_ne _ _ hkr] at hk1
          rw [back_cons_ne (r := ⟨⟨.committed, d⟩, r.id, r.target⟩) (Ne.symm hkr)]; exact hb k K1 hk1
      · intro k K1 hk1
        by_cases hkr : k = r.target
        · subst hkr; rw [upd_same] at hk1; cases hk1; exact h9
        · rw [upd_ne _ _ hkr] at hk1
          have := hf k K1 hk1
          rwa [forth_cons_ne (Ne.symm hkr)] at this
      · simp; omega
      · intro h0; exact absurd h0 hmx

/-- Files a record for kernel `k` whose new pointers are those of `K'`. -/
theorem inv_add {s : St π V} (h : Inv s) {k K} (hK : s.kernels k = some K) (K' : Kernel)
    (heap : Int → Addr → V) (next : Addr) (cnt : Int) (data : List (Prim π))
    (hfull : ∀ f, (K'.obj f).isSome)
    (hch : ∀ l, Chain K.obj l → Chain K'.obj (data ++ l)) :
    Inv ((⟨upd s.kernels k (some K'), heap, next, cnt, s.stack⟩ : St π V).add (some data) k k) := by
  obtain ⟨ker, heap0, next0, cnt0, ⟨com, res, mx⟩⟩ := s
  obtain ⟨hid, hcom, hres, hal, hfu, hb, hf, hsh, hz⟩ := h
  dsimp only [St.records] at hid hcom hres hal hfu hb hf hsh hz hK
  have hal' : ∀ x : Record (List (Prim π)), (ker x.target).isSome →
      (upd ker k (some K') x.target).isSome := by
    intro x hx
    by_cases hxk : x.target = k
    · rw [hxk]; simp
    · rw [upd_ne _ _ hxk]; exact hx
  have hfu' : ∀ j J, upd ker k (some K') j = some J → ∀ f, (J.obj f).isSome := by
    intro j J hj
    by_cases hjk : j = k
    · subst hjk; rw [upd_same] at hj; cases hj; exact hfull
    · rw [upd_ne _ _ hjk] at hj; exact hfu j J hj
  by_cases h0 : 0 < mx
  · simp only [St.add, Option.map_some, Stack.add, gt_iff_lt, h0, if_true, ne_eq,
      not_true_eq_false, if_false]
    rw [trim_eq_take hsh]
    have hsub : ∀ x, x ∈ List.take mx (⟨⟨.committed, data⟩, k, k⟩ :: com) →
        x = ⟨⟨.committed, data⟩, k, k⟩ ∨ x ∈ com := fun x hx =>
      List.mem_cons.1 (List.mem_of_mem_take hx)
    refine ⟨?_, ?_, ?_, ?_, hfu', ?_, ?_, ?_, ?_⟩ <;> dsimp only [St.records]
    · intro x hx
      rcases List.mem_append.1 hx with hx | hx
      · rcases hsub x hx with rfl | hx
        · rfl
        · exact hid x (by simp [hx])
      · exact hid x (by simp [(List.mem_filter.1 hx).1])
    · intro x hx
      rcases hsub x hx with rfl | hx
      · rfl
      · exact hcom x hx
    · intro x hx; exact hres x (List.mem_filter.1 hx).1
    · intro x hx
      rcases List.mem_append.1 hx with hx | hx
      · rcases hsub x hx with rfl | hx
        · simp
        · exact hal' x (hal x (by simp [hx]))
      · exact hal' x (hal x (by simp [(List.mem_filter.1 hx).1]))
    · intro j J hj
      apply Chain.take
      by_cases hjk : j = k
      · subst hjk; rw [upd_same] at hj; cases hj
        rw [back_cons_eq (r := ⟨⟨.committed, data⟩, _, _⟩) rfl]; exact hch _ (hb _ K hK)
      · rw [upd_ne _ _ hjk] at hj
        rw [back_cons_ne (r := ⟨⟨.committed, data⟩, k, k⟩) (Ne.symm hjk)]; exact hb j J hj
    · intro j J hj
      have := forth_filter (k := j) k (l := res) (fun r hr => hid r (by simp [hr]))
      rw [this]
      by_cases hjk : j = k
      · simp [hjk, Chain]
      · rw [upd_ne _ _ hjk] at hj
        simp only [hjk, if_false]; exact hf j J hj
    · simp; omega
    · intro h; omega
  · have hm : mx = 0 := by omega
    subst hm
    have hc0 : com = [] := by simpa using hsh
    have hr0 := hz rfl
    subst hc0 hr0
    simp only [St.add, Option.map_some, Stack.add, gt_iff_lt, Nat.lt_irrefl, if_false]
    exact ⟨by simp [St.records], by simp, by simp, by simp [St.records], hfu',
      by simp [back, Chain], by simp [forth, Chain], by simp, by simp⟩

/-- Changes of the heap, the counter or the algorithm instances do not matter; a new
`Contacts` pointer does not matter either. -/
theorem inv_set {s : St π V} (h : Inv s) {k K} (hK : s.kernels k = some K) (K' : Kernel)
    (heap : Int → Addr → V) (next : Addr) (cnt : Int)
    (hfull : ∀ f, (K'.obj f).isSome) (hag : ∀ f, f ≠ .contacts → K.obj f = K'.obj f) :
    Inv (⟨upd s.kernels k (some K'), heap, next, cnt, s.stack⟩ : St π V) := by
  obtain ⟨hid, hcom, hres, hal, hfu, hb, hf, hsh, hz⟩ := h
  refine ⟨hid, hcom, hres, ?_, ?_, ?_, ?_, hsh, hz⟩
  · intro x hx
    have := hal x hx
    by_cases hxk : x.target = k
    · dsimp only; rw [hxk]; simp
    · dsimp only; rw [upd_ne _ _ hxk]; exact this
  all_goals
    intro j J hj
    dsimp only at hj
    by_cases hjk : j = k
    · subst hjk; rw [upd_same] at hj; cases hj
      first
        | exact hfull
        | exact (hb _ K hK).agree hag
        | exact (hf _ K hK).agree hag
    · rw [upd_ne _ _ hjk] at hj
      first
        | exact hfu j J hj
        | exact hb j J hj
        | exact hf j J hj

theorem inv_heap {s : St π V} (h : Inv s) (heap : Int → Addr → V) (next : Addr) (cnt : Int) :
    Inv (⟨s.kernels, heap, next, cnt, s.stack⟩ : St π V) :=
  ⟨h.ids, h.com, h.res, h.alive, h.full, h.backs, h.forths, h.short, h.zero⟩

theorem inv_remove {s : St π V} (h : Inv s) (k : Int) :
    Inv { s with stack := (s.stack.remove k).1 } := by
  obtain ⟨ker, heap0, next0, cnt0, ⟨com, res, mx⟩⟩ := s
  obtain ⟨hid, hcom, hres, hal, hfu, hb, hf, hsh, hz⟩ := h
  dsimp only [St.records] at hid hcom hres hal hfu hb hf hsh hz
  have hmem : ∀ x, x ∈ com.filter (fun r => r.id ≠ k) ++ res.filter (fun r => r.id ≠ k) →
      x ∈ com ++ res := by
    intro x hx
    rcases List.mem_append.1 hx with hx | hx
    · exact List.mem_append.2 (.inl (List.mem_filter.1 hx).1)
    · exact List.mem_append.2 (.inr (List.mem_filter.1 hx).1)
  refine ⟨fun x hx => hid x (hmem x hx), fun x hx => hcom x (List.mem_filter.1 hx).1,
    fun x hx => hres x (List.mem_filter.1 hx).1, fun x hx => hal x (hmem x hx), hfu, ?_, ?_, ?_, ?_⟩
  · intro j J hj
    have := back_filter (k := j) k (l := com) (fun r hr => hid r (by simp [hr]))
    simp only [Stack.remove]; rw [this]
    split
    · trivial
    · exact hb j J hj
  · intro j J hj
    have := forth_filter (k := j) k (l := res) (fun r hr => hid r (by simp [hr]))
    simp only [Stack.remove]; rw [this]
    split
    · trivial
    · exact hf j J hj
  · have := List.length_filter_le (fun r => decide (r.id ≠ k)) com
    simp only [Stack.remove]; omega
  · intro h0; simp only [Stack.remove] at h0 ⊢; simp [hz h0]

theorem inv_expunge {s : St π V} (h : Inv s) (k : Int) :
    Inv { s with kernels := upd s.kernels k none, stack := (s.stack.remove k).1 } := by
  have h' := inv_remove h k
  obtain ⟨hid, hcom, hres, hal, hfu, hb, hf, hsh, hz⟩ := h'
  have hup : ∀ j J, upd s.kernels k none j = some J → s.kernels j = some J := by
    intro j J hj
    by_cases hjk : j = k
    · subst hjk; rw [upd_same] at hj; cases hj
    · rwa [upd_ne _ _ hjk] at hj
  refine ⟨hid, hcom, hres, ?_, fun j J hj => hfu j J (hup j J hj),
    fun j J hj => hb j J (hup j J hj), fun j J hj => hf j J (hup j J hj), hsh, hz⟩
  intro x hx
  have hne : x.target ≠ k := by
    have h1 := hid x hx
    rw [← h1]
    rcases List.mem_append.1 hx with hx | hx
    · simpa using (List.mem_filter.1 hx).2
    · simpa using (List.mem_filter.1 hx).2
  have := hal x hx
  dsimp only at this ⊢
  rwa [upd_ne _ _ hne]

theorem inv_clear {s : St π V} (h : Inv s) : Inv { s with stack := s.stack.clear } :=
  ⟨by simp [Stack.clear, St.records], by simp [Stack.clear], by simp [Stack.clear],
    by simp [Stack.clear, St.records], h.full, by simp [Stack.clear, back, Chain],
    by simp [Stack.clear, forth, Chain], by simp [Stack.clear], by simp [Stack.clear]⟩

theorem inv_setMaximumSize {s : St π V} (h : Inv s) (n : Nat) :
    Inv { s with stack := s.stack.setMaximumSize n } := by
  obtain ⟨ker, heap0, next0, cnt0, ⟨com, res, mx⟩⟩ := s
  obtain ⟨hid, hcom, hres, hal, hfu, hb, hf, hsh, hz⟩ := h
  dsimp only [St.records] at hid hcom hres hal hfu hb hf hsh hz
  simp only [Stack.setMaximumSize]
  split
  · exact ⟨by simp [St.records], by simp, by simp, by simp [St.records], hfu, by simp [back, Chain],
      by simp [forth, Chain], by simp, by simp⟩
  · rename_i hn
    split
    · have hmem : ∀ x, x ∈ com.take n ++ res → x ∈ com ++ res := by
        intro x hx
        rcases List.mem_append.1 hx with hx | hx
        · exact List.mem_append.2 (.inl (List.mem_of_mem_take hx))
        · exact List.mem_append.2 (.inr hx)
      exact ⟨fun x hx => hid x (hmem x hx), fun x hx => hcom x (List.mem_of_mem_take hx), hres,
        fun x hx => hal x (hmem x hx), hfu, fun j J hj => (hb j J hj).take n, hf, by simp; omega,
        fun h0 => absurd h0 hn⟩
    · exact ⟨hid, hcom, hres, hal, hfu, hb, hf, by dsimp only; omega, fun h0 => absurd h0 hn⟩

end Verif.Api
