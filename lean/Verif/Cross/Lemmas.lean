import Verif.Cross.Spec
/-!
# Lemmas: the walk
-/
namespace Verif.Cross
variable {w : Data}

/-! ## Search along the polyline -/

theorem forward_some {e : Nat} : ∀ {k first i : Nat}, forward w e k first = some i → i < w.numSeg ∧ w.hit i e = true
  | 0, _, _, h => by simp [forward] at h
  | k + 1, first, i, h => by
    rw [forward] at h
    split at h
    · rename_i hlt
      split at h
      · rename_i hh
        obtain rfl := Option.some.inj h
        simp only [Bool.and_eq_true] at hh
        exact ⟨hlt, hh.2⟩
      · exact forward_some h
    · simp at h

theorem backward_some {e : Nat} : ∀ {k first i : Nat}, backward w e k first = some i → first ≤ w.numSeg → i < w.numSeg ∧ w.hit i e = true
  | 0, _, _, h, _ => by simp [backward] at h
  | _ + 1, 0, _, h, _ => by simp [backward] at h
  | k + 1, first + 1, i, h, hf => by
    rw [backward] at h
    split at h
    · rename_i hh
      obtain rfl := Option.some.inj h
      simp only [Bool.and_eq_true] at hh
      exact ⟨by omega, hh.2⟩
    · exact backward_some h (by omega)

theorem locate_some {seg e i : Nat} (h : locate w seg e = some i) (hs : seg < w.numSeg) : i < w.numSeg ∧ w.hit i e = true := by
  unfold locate at h
  split at h
  · obtain rfl := Option.some.inj h
    exact ⟨hs, by assumption⟩
  · split at h
    · rename_i j hj
      obtain rfl := Option.some.inj h
      exact forward_some hj
    · exact backward_some h (by omega)

theorem locate_self {seg e : Nat} (h : w.hit seg e = true) : locate w seg e = some seg := by
  unfold locate
  rw [if_pos h]

theorem forward_complete (hn : ∀ i e, w.hit i e = true → w.near i e = true) {e i : Nat} (hi : i < w.numSeg) (hh : w.hit i e = true) :
    ∀ {k first : Nat}, first < i → i ≤ first + k → (forward w e k first).isSome = true
  | 0, first, h1, h2 => by omega
  | k + 1, first, h1, h2 => by
    rw [forward, if_pos (by omega)]
    split
    · rfl
    · rename_i hc
      have : first + 1 ≠ i := by
        rintro rfl
        exact hc (by simp [hn _ _ hh, hh])
      exact forward_complete hn hi hh (by omega) (by omega)

theorem backward_complete (hn : ∀ i e, w.hit i e = true → w.near i e = true) {e i : Nat} (hh : w.hit i e = true) :
    ∀ {k first : Nat}, i < first → first ≤ i + k → (backward w e k first).isSome = true
  | 0, first, h1, h2 => by omega
  | k + 1, 0, h1, h2 => by omega
  | k + 1, first + 1, h1, h2 => by
    rw [backward]
    split
    · rfl
    · rename_i hc
      have : first ≠ i := by
        rintro rfl
        exact hc (by simp [hn _ _ hh, hh])
      exact backward_complete hn hh (by omega) (by omega)

/-- A polyline of at most 1001 segments is searched as a whole. -/
theorem locate_complete (hn : ∀ i e, w.hit i e = true → w.near i e = true) (hs : w.numSeg ≤ 1001) {seg e : Nat} (hseg : seg < w.numSeg)
    (h : Crossed w e) : (locate w seg e).isSome = true := by
  obtain ⟨i, hi, hh⟩ := h
  unfold locate
  split
  · rfl
  · rename_i hne
    split
    · rfl
    · rename_i hf
      have : ¬ seg < i := by
        intro hlt
        have := forward_complete hn hi hh (k := 1000) hlt (by omega)
        rw [hf] at this
        simp at this
      have hsi : seg ≠ i := by rintro rfl; exact hne hh
      exact backward_complete hn hh (by omega) (by omega)

/-! ## One face -/

/-- The edges added when a face is visited. -/
def added (w : Data) (seg : Nat) (u : Bool) (seen : List Bool) (es : List Nat) : List Nat :=
  es.filter fun e => !(seen.getD e false && u) && (locate w seg e).isSome

/-- Marking edges. -/
def marks {α : Type} (g : Nat → α) (l : List α) (es : List Nat) : List α := es.foldl (fun l e => l.set e (g e)) l

theorem marks_length {α : Type} (g : Nat → α) : ∀ (es : List Nat) (l : List α), (marks g l es).length = l.length
  | [], _ => rfl
  | e :: es, l => by
    have := marks_length g es (l.set e (g e))
    simpa [marks] using this

theorem marks_get {α : Type} (g : Nat → α) : ∀ (es : List Nat) (l : List α) (e : Nat), e < l.length →
    (marks g l es)[e]? = if e ∈ es then some (g e) else l[e]?
  | [], _, _, _ => by simp [marks]
  | a :: es, l, e, h => by
    have := marks_get g es (l.set a (g a)) e (by simpa using h)
    rw [show marks g l (a :: es) = marks g (l.set a (g a)) es from rfl, this]
    by_cases h1 : e ∈ es
    · simp [h1]
    · rw [if_neg h1]
      by_cases h2 : e = a
      · subst h2
        simp [h]
      · rw [List.getElem?_set_ne (Ne.symm h2)]
        simp [h1, h2]

theorem getD_of_get {l : List Bool} {e : Nat} {v : Bool} (h : l[e]? = some v) : l.getD e false = v := by
  rw [List.getD_eq_getElem?_getD, h]; rfl

/-- The loop over the edges of a face in closed form. -/
theorem faceLoop_ok {current seg f : Nat} {u : Bool} : ∀ (es : List Nat) (s : St) {l : List Nat}, es.Nodup → (∀ e ∈ es, e < s.seen.length ∧ e < s.found.length) →
    s.seenFace[f]? = some u → s.faces[f]? = some l →
    faceLoop w current seg f es s = .ok
      { s with
        seen := marks (fun _ => true) s.seen (added w seg u s.seen es)
        found := marks (fun e => locate w seg e) s.found (added w seg u s.seen es)
        faces := s.faces.set f (l ++ added w seg u s.seen es)
        queue := s.queue ++ ((added w seg u s.seen es).filter (· ≠ current)).map fun e => (e, (locate w seg e).getD 0) }
  | [], s, l, _, _, _, hl => by
    obtain ⟨h1, h2⟩ := List.getElem?_eq_some_iff.1 hl
    simp only [faceLoop, added, List.filter_nil, marks, List.foldl_nil, List.append_nil, List.map_nil]
    rw [← h2, List.set_getElem_self]
  | e :: es, s, l, hnd, hb, hu, hl => by
    obtain ⟨hne, hnd'⟩ := List.nodup_cons.1 hnd
    obtain ⟨hb1, hb2⟩ := hb e (by simp)
    obtain ⟨v, hv⟩ : ∃ v, s.seen[e]? = some v := ⟨_, List.getElem?_eq_getElem hb1⟩
    rw [faceLoop]
    unfold faceStep
    rw [show vget s.seen e = .ok v by unfold vget; rw [hv], show vget s.seenFace f = .ok u by unfold vget; rw [hu]]
    simp only [Res.ok_bind]
    have hg := getD_of_get hv
    by_cases hc : (v && u) = true
    · rw [if_pos hc, Res.ok_bind, faceLoop_ok es s hnd' (fun x hx => hb x (by simp [hx])) hu hl]
      have : added w seg u s.seen (e :: es) = added w seg u s.seen es := by
        unfold added
        rw [List.filter_cons, if_neg (by rw [hg, hc]; simp)]
      rw [this]
    · rw [if_neg hc]
      cases hloc : locate w seg e with
      | none =>
        rw [Res.ok_bind, faceLoop_ok es s hnd' (fun x hx => hb x (by simp [hx])) hu hl]
        have : added w seg u s.seen (e :: es) = added w seg u s.seen es := by
          unfold added
          rw [List.filter_cons, if_neg (by rw [hloc]; simp)]
        rw [this]
      | some i =>
        have hfl := (List.getElem?_eq_some_iff.1 hl).1
        have e1 : vget s.faces f = .ok l := by unfold vget; rw [hl]
        simp only [record]
        rw [vset_ok _ hb2, Res.ok_bind, e1, Res.ok_bind, vset_ok _ hfl, Res.ok_bind, vset_ok _ hb1, Res.ok_bind, Res.ok_bind]
        have ih := faceLoop_ok (current := current) (seg := seg) es
          { s with found := s.found.set e (some i), faces := s.faces.set f (l ++ [e]), seen := s.seen.set e true,
                   queue := if e ≠ current then s.queue ++ [(e, i)] else s.queue } (l := l ++ [e]) hnd'
          (fun x hx => by simpa using hb x (by simp [hx])) hu (by simp [hfl])
        rw [ih]
        have hadd : added w seg u (s.seen.set e true) es = added w seg u s.seen es := by
          unfold added
          apply List.filter_congr
          intro x hx
          have : x ≠ e := by rintro rfl; exact hne hx
          rw [List.getD_eq_getElem?_getD, List.getElem?_set_ne (Ne.symm this), ← List.getD_eq_getElem?_getD]
        have hcons : added w seg u s.seen (e :: es) = e :: added w seg u s.seen es := by
          unfold added
          rw [List.filter_cons, if_pos]
          rw [hg, hloc]
          simp only [Bool.not_eq_true] at hc
          simp [hc]
        simp only [hadd, hcons]
        congr 1
        simp only [marks, List.foldl_cons, hloc, List.append_assoc, List.singleton_append, List.set_set]
        congr 1
        by_cases hec : e = current
        · subst hec
          simp [List.filter_cons]
        · simp [List.filter_cons, hec, hloc]

/-! ## The invariant -/

/-- What holds throughout the walk; `ps` are the edges being treated. -/
structure Inv (w : Data) (ps : List Nat) (s : St) : Prop where
  seenLen : s.seen.length = w.edgesFaces.length
  seenFaceLen : s.seenFace.length = w.edgesFaces.length
  foundLen : s.found.length = w.edgesFaces.length
  facesLen : s.faces.length = w.facesEdges.length
  found : ∀ e : Nat, s.seen[e]? = some true → ∃ i, s.found[e]? = some (some i) ∧ i < w.numSeg ∧ w.hit i e = true
  notFound : ∀ e : Nat, s.seen[e]? = some false → s.found[e]? = some none
  listed : ∀ (f : Nat) l, s.faces[f]? = some l → l.Nodup ∧ ∀ e ∈ l, Side w f e ∧ s.seen[e]? = some true
  faceSeen : ∀ (f : Nat) l, s.seenFace[f]? = some true → s.faces[f]? = some l → l ≠ []
  faceNew : ∀ (f : Nat) l, s.seenFace[f]? = some false → s.faces[f]? = some l → l = []
  queued : ∀ q ∈ s.queue, q.1 < w.edgesFaces.length ∧ q.2 < w.numSeg ∧ w.hit q.2 q.1 = true
  pending : ∀ e : Nat, s.seen[e]? = some true → ∀ f, Side w f e → s.seenFace[f]? = some true ∨ e ∈ s.queue.map Prod.fst ∨ e ∈ ps
  whole : w.numSeg ≤ 1001 → ∀ (f : Nat) es, s.seenFace[f]? = some true → w.facesEdges[f]? = some es →
    ∃ l, s.faces[f]? = some l ∧ (∀ e ∈ es, Crossed w e → e ∈ l) ∧ ∀ e ∈ es, Crossed w e → s.seen[e]? = some true

theorem side_lt {f e : Nat} (h : Side w f e) : f < w.facesEdges.length := by
  obtain ⟨es, h, _⟩ := h
  exact (List.getElem?_eq_some_iff.1 h).1

theorem added_subset {seg : Nat} {u : Bool} {seen : List Bool} {es : List Nat} {e : Nat} (h : e ∈ added w seg u seen es) :
    e ∈ es ∧ (seen.getD e false && u) = false ∧ (locate w seg e).isSome = true := by
  unfold added at h
  obtain ⟨h1, h2⟩ := List.mem_filter.1 h
  simp only [Bool.and_eq_true, Bool.not_eq_true'] at h2
  exact ⟨h1, h2.1, h2.2⟩

/-- The weight that goes down with every round. -/
def weight (s : St) : Nat := 7 * s.seenFace.count false + s.seen.count false + s.queue.length

/-- Nothing seen is forgotten. -/
def Grows (s s' : St) : Prop := ∀ e : Nat, s.seen[e]? = some true → s'.seen[e]? = some true

theorem count_set_false {l : List Bool} {i : Nat} (h : l[i]? = some false) : (l.set i true).count false + 1 = l.count false := by
  induction l generalizing i with
  | nil => simp at h
  | cons a l ih =>
    cases i with
    | zero =>
      simp only [List.getElem?_cons_zero, Option.some.injEq] at h
      subst h
      simp
    | succ i =>
      simp only [List.getElem?_cons_succ] at h
      have := ih h
      simp only [List.set_cons_succ, List.count_cons]
      omega

theorem set_true_self {l : List Bool} {i : Nat} (h : l[i]? = some true) : l.set i true = l := by
  apply List.ext_getElem?
  intro k
  rw [List.getElem?_set]
  split
  · rename_i hk
    subst hk
    rw [if_pos (List.getElem?_eq_some_iff.1 h).1, h]
  · rfl

theorem marks_count_le : ∀ (es : List Nat) (l : List Bool), (marks (fun _ => true) l es).count false ≤ l.count false
  | [], _ => Nat.le_refl _
  | e :: es, l => by
    refine Nat.le_trans (marks_count_le es (l.set e true)) ?_
    by_cases h : l[e]? = some false
    · have := count_set_false h; omega
    · by_cases h2 : l[e]? = some true
      · rw [set_true_self h2]
      · have : l.length ≤ e := by
          by_contra hlt
          push Not at hlt
          have := List.getElem?_eq_getElem hlt
          cases hb : l[e] <;> simp_all
        rw [List.set_eq_of_length_le this]

theorem marks_count : ∀ (es : List Nat) (l : List Bool), es.Nodup → (∀ e ∈ es, l[e]? = some false) →
    (marks (fun _ => true) l es).count false + es.length = l.count false
  | [], _, _, _ => by simp [marks]
  | e :: es, l, hnd, h => by
    obtain ⟨h1, h2⟩ := List.nodup_cons.1 hnd
    have ih := marks_count es (l.set e true) h2 (by
      intro x hx
      rw [List.getElem?_set_ne (by rintro rfl; exact h1 hx)]
      exact h x (by simp [hx]))
    have := count_set_false (h e (by simp))
    rw [show marks (fun _ => true) l (e :: es) = marks (fun _ => true) (l.set e true) es from rfl]
    simp only [List.length_cons]
    omega

/-- Visiting a face keeps the invariant; the face is seen then, and all its edges found from here. -/
theorem visitFace_ok (hw : Fits w) {current seg f : Nat} {ps : List Nat} {s : St} (h : Inv w ps s) (hside : Side w f current) (hcur : current ∈ ps)
    (hseg : seg < w.numSeg) (hhit : w.hit seg current = true) :
    ∃ s', visitFace w current seg f s = .ok s' ∧ Inv w ps s' ∧ s'.seenFace[f]? = some true ∧ s'.seen[current]? = some true ∧
      (∀ g : Nat, s.seenFace[g]? = some true → s'.seenFace[g]? = some true) ∧ Grows s s' ∧ weight s' ≤ weight s := by
  obtain ⟨es, hes, hce⟩ := hside
  have hfl := (List.getElem?_eq_some_iff.1 hes).1
  obtain ⟨hdeg, hnd, hlt⟩ := hw.faces f es hes
  have hcl := hlt current hce
  have hfm : f ≠ missing := by
    obtain ⟨p, hp⟩ : ∃ p, w.edgesFaces[current]? = some p := ⟨_, List.getElem?_eq_getElem hcl⟩
    exact ((hw.places current f p hp).2 ⟨es, hes, hce⟩).1
  obtain ⟨u, hu⟩ : ∃ u, s.seenFace[f]? = some u := ⟨_, List.getElem?_eq_getElem (by rw [h.seenFaceLen]; have := hw.few; omega)⟩
  obtain ⟨l, hl⟩ : ∃ l, s.faces[f]? = some l := ⟨_, List.getElem?_eq_getElem (by rw [h.facesLen]; exact hfl)⟩
  have hloop := faceLoop_ok (w := w) (current := current) (seg := seg) es s hnd
    (fun e he => by rw [h.seenLen, h.foundLen]; exact ⟨hlt e he, hlt e he⟩) hu hl
  have hA : ∀ e ∈ added w seg u s.seen es, e < w.edgesFaces.length := fun e he => hlt e (added_subset he).1
  have hAnd : (added w seg u s.seen es).Nodup := hnd.filter _
  have hseen' : ∀ e : Nat, e < w.edgesFaces.length → (marks (fun _ => true) s.seen (added w seg u s.seen es))[e]? =
      if e ∈ added w seg u s.seen es then some true else s.seen[e]? := fun e he => marks_get _ _ _ _ (by rw [h.seenLen]; exact he)
  have hfound' : ∀ e : Nat, e < w.edgesFaces.length → (marks (fun e => locate w seg e) s.found (added w seg u s.seen es))[e]? =
      if e ∈ added w seg u s.seen es then some (locate w seg e) else s.found[e]? := fun e he => marks_get _ _ _ _ (by rw [h.foundLen]; exact he)
  have hsl : ∀ {e : Nat} {b : Bool}, (marks (fun _ => true) s.seen (added w seg u s.seen es))[e]? = some b → e < w.edgesFaces.length := by
    intro e b he
    have := (List.getElem?_eq_some_iff.1 he).1
    rwa [marks_length, h.seenLen] at this
  -- if the face was seen, edges added were not
  have hnew : u = true → ∀ e ∈ added w seg u s.seen es, s.seen[e]? = some false := by
    intro hut e he
    obtain ⟨_, h2, _⟩ := added_subset he
    obtain ⟨v, hv⟩ : ∃ v, s.seen[e]? = some v := ⟨_, List.getElem?_eq_getElem (by rw [h.seenLen]; exact hA e he)⟩
    rw [getD_of_get hv, hut] at h2
    rw [hv]
    simpa using h2
  have hmark : current ∈ added w seg u s.seen es ∨ (u = true ∧ s.seen[current]? = some true) := by
    obtain ⟨v, hv⟩ : ∃ v, s.seen[current]? = some v := ⟨_, List.getElem?_eq_getElem (by rw [h.seenLen]; exact hcl)⟩
    by_cases hvu : (v && u) = true
    · simp only [Bool.and_eq_true] at hvu
      right; exact ⟨hvu.2, by rw [hv, hvu.1]⟩
    · left
      unfold added
      refine List.mem_filter.2 ⟨hce, ?_⟩
      rw [getD_of_get hv, locate_self hhit]
      simp only [Bool.not_eq_true] at hvu
      simp [hvu]
  let s' : St :=
    { seen := marks (fun _ => true) s.seen (added w seg u s.seen es)
      seenFace := s.seenFace.set f true
      found := marks (fun e => locate w seg e) s.found (added w seg u s.seen es)
      faces := s.faces.set f (l ++ added w seg u s.seen es)
      queue := s.queue ++ ((added w seg u s.seen es).filter (· ≠ current)).map fun e => (e, (locate w seg e).getD 0) }
  have hfs : f < s.seenFace.length := (List.getElem?_eq_some_iff.1 hu).1
  have hff : f < s.faces.length := (List.getElem?_eq_some_iff.1 hl).1
  have hmono : ∀ e : Nat, s.seen[e]? = some true → (marks (fun _ => true) s.seen (added w seg u s.seen es))[e]? = some true := by
    intro e he
    have hel : e < w.edgesFaces.length := by rw [← h.seenLen]; exact (List.getElem?_eq_some_iff.1 he).1
    rw [hseen' e hel]
    split
    · rfl
    · exact he
  have hsf : ∀ g : Nat, s.seenFace[g]? = some true → (s.seenFace.set f true)[g]? = some true := by
    intro g hg
    rw [List.getElem?_set]
    split
    · rfl
    · exact hg
  refine ⟨s', ?_, ?_, ?_, ?_, hsf, hmono, ?_⟩
  · unfold visitFace
    rw [if_neg hfm, show vget w.facesEdges f = .ok es by unfold vget; rw [hes], Res.ok_bind, hloop, Res.ok_bind, vset_ok _ hfs, Res.ok_bind]
  · refine ⟨?_, ?_, ?_, ?_, ?_, ?_, ?_, ?_, ?_, ?_, ?_, ?_⟩
    · show (marks _ _ _).length = _; rw [marks_length, h.seenLen]
    · show (List.set _ _ _).length = _; rw [List.length_set, h.seenFaceLen]
    · show (marks _ _ _).length = _; rw [marks_length, h.foundLen]
    · show (List.set _ _ _).length = _; rw [List.length_set, h.facesLen]
    · intro e he
      have hel := hsl he
      show ∃ i, (marks (fun e => locate w seg e) s.found (added w seg u s.seen es))[e]? = some (some i) ∧ _
      rw [hfound' e hel]
      have he' : (if e ∈ added w seg u s.seen es then some true else s.seen[e]?) = some true := by rw [← hseen' e hel]; exact he
      split
      · rename_i hm
        obtain ⟨i, hi⟩ := Option.isSome_iff_exists.1 (added_subset hm).2.2
        exact ⟨i, by rw [hi], locate_some hi hseg⟩
      · rename_i hm
        rw [if_neg hm] at he'
        exact h.found e he'
    · intro e he
      have hel := hsl he
      show (marks (fun e => locate w seg e) s.found (added w seg u s.seen es))[e]? = some none
      have he' : (if e ∈ added w seg u s.seen es then some true else s.seen[e]?) = some false := by rw [← hseen' e hel]; exact he
      rw [hfound' e hel]
      split
      · rename_i hm
        rw [if_pos hm] at he'
        simp at he'
      · rename_i hm
        rw [if_neg hm] at he'
        exact h.notFound e he'
    · intro g l' hl'
      change (s.faces.set f (l ++ added w seg u s.seen es))[g]? = some l' at hl'
      show l'.Nodup ∧ ∀ e ∈ l', Side w g e ∧ (marks (fun _ => true) s.seen (added w seg u s.seen es))[e]? = some true
      rw [List.getElem?_set] at hl'
      split at hl'
      · rename_i hfg
        subst hfg
        obtain rfl := Option.some.inj hl'
        obtain ⟨a1, a2⟩ := h.listed f l hl
        refine ⟨?_, ?_⟩
        · refine List.nodup_append.2 ⟨a1, hAnd, ?_⟩
          intro x hx y hy hxy
          subst hxy
          have hxs := (a2 x hx).2
          cases u with
          | false =>
            rw [h.faceNew f l hu hl] at hx
            simp at hx
          | true =>
            rw [hnew rfl x hy] at hxs
            simp at hxs
        · intro e he
          rcases List.mem_append.1 he with he | he
          · exact ⟨(a2 e he).1, hmono e (a2 e he).2⟩
          · refine ⟨⟨es, hes, (added_subset he).1⟩, ?_⟩
            rw [hseen' e (hA e he), if_pos he]
      · obtain ⟨a1, a2⟩ := h.listed g l' hl'
        exact ⟨a1, fun e he => ⟨(a2 e he).1, hmono e (a2 e he).2⟩⟩
    · intro g l' hg hl'
      change (s.faces.set f (l ++ added w seg u s.seen es))[g]? = some l' at hl'
      change (s.seenFace.set f true)[g]? = some true at hg
      rw [List.getElem?_set] at hl' hg
      split at hl'
      · rename_i hfg
        subst hfg
        obtain rfl := Option.some.inj hl'
        rcases hmark with hm | ⟨hm, _⟩
        · intro hnil
          rw [(List.append_eq_nil_iff.1 hnil).2] at hm
          simp at hm
        · subst hm
          intro hnil
          exact h.faceSeen f l hu hl (List.append_eq_nil_iff.1 hnil).1
      · rename_i hfg
        rw [if_neg hfg] at hg
        exact h.faceSeen g l' hg hl'
    · intro g l' hg hl'
      change (s.faces.set f (l ++ added w seg u s.seen es))[g]? = some l' at hl'
      change (s.seenFace.set f true)[g]? = some false at hg
      rw [List.getElem?_set] at hl' hg
      split at hg
      · simp at hg
      · rename_i hfg
        rw [if_neg hfg] at hl'
        exact h.faceNew g l' hg hl'
    · intro q hq
      change q ∈ s.queue ++ _ at hq
      rcases List.mem_append.1 hq with hq | hq
      · exact h.queued q hq
      · obtain ⟨e, he, rfl⟩ := List.mem_map.1 hq
        have hm := (List.mem_filter.1 he).1
        obtain ⟨i, hi⟩ := Option.isSome_iff_exists.1 (added_subset hm).2.2
        have := locate_some hi hseg
        simp only [hi, Option.getD_some]
        exact ⟨hA e hm, this⟩
    · intro e he g hg
      change (marks (fun _ => true) s.seen (added w seg u s.seen es))[e]? = some true at he
      show (s.seenFace.set f true)[g]? = some true ∨ e ∈ (s.queue ++ _).map Prod.fst ∨ e ∈ ps
      have hel := hsl he
      rw [hseen' e hel] at he
      by_cases hm : e ∈ added w seg u s.seen es
      · by_cases hec : e = current
        · subst hec; exact .inr (.inr hcur)
        · right; left
          rw [List.map_append]
          refine List.mem_append.2 (.inr ?_)
          rw [List.map_map]
          exact List.mem_map.2 ⟨e, List.mem_filter.2 ⟨hm, by simpa using hec⟩, rfl⟩
      · rw [if_neg hm] at he
        rcases h.pending e he g hg with h1 | h1 | h1
        · exact .inl (hsf g h1)
        · right; left
          rw [List.map_append]
          exact List.mem_append.2 (.inl h1)
        · exact .inr (.inr h1)
    · intro hall g es' hg hes'
      change (s.seenFace.set f true)[g]? = some true at hg
      show ∃ l', (s.faces.set f (l ++ added w seg u s.seen es))[g]? = some l' ∧ (∀ e ∈ es', Crossed w e → e ∈ l') ∧
        ∀ e ∈ es', Crossed w e → (marks (fun _ => true) s.seen (added w seg u s.seen es))[e]? = some true
      by_cases hfg : f = g
      · subst hfg
        rw [hes] at hes'
        obtain rfl := Option.some.inj hes'
        refine ⟨l ++ added w seg u s.seen es, by simp [hff], ?_, ?_⟩
        · intro e he hc
          cases u with
          | false =>
            refine List.mem_append.2 (.inr ?_)
            unfold added
            refine List.mem_filter.2 ⟨he, ?_⟩
            simp [locate_complete hw.near hall hseg hc]
          | true =>
            obtain ⟨l0, h0, h1, _⟩ := h.whole hall f es hu hes
            rw [hl] at h0
            obtain rfl := Option.some.inj h0
            exact List.mem_append.2 (.inl (h1 e he hc))
        · intro e he hc
          cases u with
          | false =>
            have hm : e ∈ added w seg false s.seen es := by
              unfold added
              refine List.mem_filter.2 ⟨he, ?_⟩
              simp [locate_complete hw.near hall hseg hc]
            rw [hseen' e (hlt e he), if_pos hm]
          | true =>
            obtain ⟨l0, h0, h1, h2⟩ := h.whole hall f es hu hes
            exact hmono e (h2 e he hc)
      · rw [List.getElem?_set_ne hfg] at hg
        obtain ⟨l0, h0, h1, h2⟩ := h.whole hall g es' hg hes'
        exact ⟨l0, by rw [List.getElem?_set_ne hfg]; exact h0, h1, fun e he hc => hmono e (h2 e he hc)⟩
  · show (s.seenFace.set f true)[f]? = some true
    simp [hfs]
  · show (marks (fun _ => true) s.seen (added w seg u s.seen es))[current]? = some true
    rcases hmark with hm | ⟨_, hm⟩
    · rw [hseen' current hcl, if_pos hm]
    · exact hmono current hm
  · show 7 * (s.seenFace.set f true).count false + (marks (fun _ => true) s.seen (added w seg u s.seen es)).count false +
        (s.queue ++ ((added w seg u s.seen es).filter (· ≠ current)).map fun e => (e, (locate w seg e).getD 0)).length ≤
      7 * s.seenFace.count false + s.seen.count false + s.queue.length
    have hq : (((added w seg u s.seen es).filter (· ≠ current)).map fun e => (e, (locate w seg e).getD 0)).length ≤ (added w seg u s.seen es).length := by
      rw [List.length_map]; exact List.length_filter_le _ _
    rw [List.length_append]
    cases u with
    | false =>
      have h1 := count_set_false hu
      have h2 := marks_count_le (added w seg false s.seen es) s.seen
      have h3 : (added w seg false s.seen es).length ≤ 6 := Nat.le_trans (List.length_filter_le _ _) hdeg
      omega
    | true =>
      rw [set_true_self hu]
      have h2 := marks_count (added w seg true s.seen es) s.seen hAnd (hnew rfl)
      omega

end Verif.Cross
