import Verif.TriInterp.Spec
/-!
# Lemmas: the faces of an edge
-/
namespace Verif.TriInterp
open Verif.Mesh

/-- The table `ef` for the relation `H` between faces and edges: no face, one face or two faces. -/
structure Noted (E : Nat) (H : Nat → Nat → Prop) (ef : List (Nat × Nat)) : Prop where
  len : ef.length = E
  entry : ∀ (e : Nat) p, ef[e]? = some p →
    (p = (missing, missing) ∧ ∀ f, ¬ H f e) ∨
    (p.2 = missing ∧ p.1 ≠ missing ∧ ∀ f, H f e ↔ f = p.1) ∨
    (p.1 < p.2 ∧ p.2 ≠ missing ∧ ∀ f, H f e ↔ f = p.1 ∨ f = p.2)

theorem note_ok {E : Nat} {H : Nat → Nat → Prop} {ef : List (Nat × Nat)} (hn : Noted E H ef) {f e : Nat} (hf : f < missing) (he : e < E)
    (hlt : ∀ g, H g e → g < f) (hone : ∀ g g', H g e → H g' e → g = g') :
    ∃ ef', note f e ef = .ok ef' ∧ Noted E (fun g d => H g d ∨ (g = f ∧ d = e)) ef' := by
  have hl : e < ef.length := by rw [hn.len]; exact he
  have hp := hn.entry e _ (List.getElem?_eq_getElem hl)
  generalize hpe : ef[e] = p at hp
  have hg : vget ef e = .ok p := by rw [vget_ok hl, hpe]
  have keep : ∀ q : Nat × Nat, ((q = (missing, missing) ∧ ∀ g, ¬ (H g e ∨ g = f)) ∨ (q.2 = missing ∧ q.1 ≠ missing ∧ ∀ g, (H g e ∨ g = f) ↔ g = q.1) ∨
      (q.1 < q.2 ∧ q.2 ≠ missing ∧ ∀ g, (H g e ∨ g = f) ↔ g = q.1 ∨ g = q.2)) → Noted E (fun g d => H g d ∨ (g = f ∧ d = e)) (ef.set e q) := by
    intro q hq
    refine ⟨by rw [List.length_set, hn.len], ?_⟩
    intro d r hr
    by_cases hd : d = e
    · subst hd
      rw [List.getElem?_set_self hl] at hr
      cases hr
      simpa using hq
    · rw [List.getElem?_set_ne (Ne.symm hd)] at hr
      have := hn.entry d r hr
      simpa [hd] using this
  unfold note
  rw [hg, Res.ok_bind]
  rcases hp with ⟨h1, h2⟩ | ⟨h1, h2, h3⟩ | ⟨h1, h2, h3⟩
  · subst h1
    rw [if_pos rfl, vset_ok _ hl]
    refine ⟨_, rfl, keep _ (.inr (.inl ⟨rfl, by simp only; omega, fun g => ?_⟩))⟩
    simp [h2 g]
  · rw [if_neg h2, vset_ok _ hl]
    have hlt1 := hlt p.1 ((h3 p.1).2 rfl)
    refine ⟨_, rfl, keep _ (.inr (.inr ⟨hlt1, by simp only; omega, fun g => ?_⟩))⟩
    simp [h3 g]
  · have := hone p.1 p.2 ((h3 _).2 (.inl rfl)) ((h3 _).2 (.inr rfl))
    omega

theorem Noted.congr {E : Nat} {H H' : Nat → Nat → Prop} {ef : List (Nat × Nat)} (hn : Noted E H ef) (h : ∀ g d, H g d ↔ H' g d) : Noted E H' ef := by
  have : H = H' := by funext g d; exact propext (h g d)
  rw [← this]; exact hn

theorem noteAll_ok {E : Nat} {f : Nat} (hf : f < missing) : ∀ (es : List Nat) (H : Nat → Nat → Prop) (ef : List (Nat × Nat)), Noted E H ef → es.Nodup →
    (∀ e ∈ es, e < E) → (∀ e ∈ es, ∀ g, H g e → g < f) → (∀ e ∈ es, ∀ g g', H g e → H g' e → g = g') →
    ∃ ef', noteAll f es ef = .ok ef' ∧ Noted E (fun g d => H g d ∨ (g = f ∧ d ∈ es)) ef'
  | [], H, ef, hn, _, _, _, _ => ⟨ef, rfl, hn.congr (by simp)⟩
  | e :: es, H, ef, hn, hd, hb, hlt, hone => by
    obtain ⟨ef1, h1, h2⟩ := note_ok hn hf (hb e List.mem_cons_self) (hlt e List.mem_cons_self) (hone e List.mem_cons_self)
    obtain ⟨hne, hd'⟩ := List.nodup_cons.1 hd
    have hsame : ∀ d ∈ es, ∀ g, (H g d ∨ (g = f ∧ d = e)) ↔ H g d := by
      intro d hdm g
      have : d ≠ e := by rintro rfl; exact hne hdm
      simp [this]
    obtain ⟨ef2, h3, h4⟩ := noteAll_ok hf es _ ef1 h2 hd' (fun d hdm => hb d (List.mem_cons_of_mem _ hdm))
      (fun d hdm g hg => hlt d (List.mem_cons_of_mem _ hdm) g ((hsame d hdm g).1 hg))
      (fun d hdm g g' hg hg' => hone d (List.mem_cons_of_mem _ hdm) g g' ((hsame d hdm g).1 hg) ((hsame d hdm g').1 hg'))
    refine ⟨ef2, by rw [noteAll, h1, Res.ok_bind, h3], h4.congr (fun g d => ?_)⟩
    simp only [List.mem_cons]
    tauto

/-- Faces of a list before its end. -/
def HasIn (fe : List (Nat × Nat × Nat)) (f e : Nat) : Prop := ∃ es, fe[f]? = some es ∧ e ∈ three es

theorem noteFaces_ok {E : Nat} : ∀ (ts pre : List (Nat × Nat × Nat)) (ef : List (Nat × Nat)), Noted E (HasIn pre) ef → pre.length + ts.length ≤ missing →
    (∀ es ∈ ts, (three es).Nodup ∧ ∀ e ∈ three es, e < E) →
    (∀ e f g h, HasIn (pre ++ ts) f e → HasIn (pre ++ ts) g e → HasIn (pre ++ ts) h e → f = g ∨ g = h ∨ f = h) →
    ∃ ef', noteFaces pre.length ts ef = .ok ef' ∧ Noted E (HasIn (pre ++ ts)) ef'
  | [], pre, ef, hn, _, _, _ => ⟨ef, rfl, by rw [List.append_nil]; exact hn⟩
  | es :: ts, pre, ef, hn, hm, hts, htwo => by
    have hlen : ∀ g e, HasIn pre g e → g < pre.length := by
      rintro g e ⟨x, hx, -⟩
      exact (List.getElem?_eq_some_iff.1 hx).1
    have hin : ∀ g e, HasIn pre g e → HasIn (pre ++ es :: ts) g e := by
      rintro g e ⟨x, hx, hxe⟩
      exact ⟨x, by rw [List.getElem?_append_left (List.getElem?_eq_some_iff.1 hx).1]; exact hx, hxe⟩
    have hnow : ∀ e ∈ three es, HasIn (pre ++ es :: ts) pre.length e := fun e he => ⟨es, by simp, he⟩
    rw [List.length_cons] at hm
    obtain ⟨hd, hb⟩ := hts es List.mem_cons_self
    obtain ⟨ef1, h1, h2⟩ := noteAll_ok (f := pre.length) (by omega) (three es) _ ef hn hd hb (fun e _ g hg => hlen g e hg) (by
      intro e he g g' hg hg'
      have l1 := hlen g e hg
      have l2 := hlen g' e hg'
      rcases htwo e g g' pre.length (hin _ _ hg) (hin _ _ hg') (hnow e he) with h | h | h
      · exact h
      · omega
      · omega)
    have happ : pre ++ es :: ts = (pre ++ [es]) ++ ts := by simp
    have h2' : Noted E (HasIn (pre ++ [es])) ef1 := by
      refine h2.congr (fun g d => ?_)
      constructor
      · rintro (⟨x, hx, hxe⟩ | ⟨rfl, hd⟩)
        · exact ⟨x, by rw [List.getElem?_append_left (List.getElem?_eq_some_iff.1 hx).1]; exact hx, hxe⟩
        · exact ⟨es, by simp, hd⟩
      · rintro ⟨x, hx, hxe⟩
        by_cases hg : g < pre.length
        · rw [List.getElem?_append_left hg] at hx
          exact .inl ⟨x, hx, hxe⟩
        · have hg2 : g = pre.length := by
            have := (List.getElem?_eq_some_iff.1 hx).1
            simp at this; omega
          subst hg2
          simp at hx
          subst hx
          exact .inr ⟨rfl, hxe⟩
    obtain ⟨ef2, h3, h4⟩ := noteFaces_ok ts (pre ++ [es]) ef1 h2' (by simp; omega) (fun x hx => hts x (List.mem_cons_of_mem _ hx)) (by rw [← happ]; exact htwo)
    rw [List.length_append, List.length_singleton] at h3
    exact ⟨ef2, by rw [noteFaces, h1, Res.ok_bind, h3], by rw [happ]; exact h4⟩

theorem edgesFaces_ok {T : Tables} (hm : T.faceEdges.length ≤ missing) (hd : ∀ es ∈ T.faceEdges, (three es).Nodup ∧ ∀ e ∈ three es, e < T.edgeNodes.length)
    (htwo : ∀ e f g h, Has T f e → Has T g e → Has T h e → f = g ∨ g = h ∨ f = h) :
    ∃ ef, edgesFaces T = .ok ef ∧ Noted T.edgeNodes.length (Has T) ef := by
  have h0 : Noted T.edgeNodes.length (HasIn []) (List.replicate T.edgeNodes.length (missing, missing)) := by
    refine ⟨by simp, fun e p hp => .inl ?_⟩
    rw [List.getElem?_replicate] at hp
    split at hp
    · cases hp
      exact ⟨rfl, by rintro f ⟨x, hx, -⟩; simp at hx⟩
    · cases hp
  obtain ⟨ef, h1, h2⟩ := noteFaces_ok T.faceEdges [] _ h0 (by simpa using hm) hd (by rw [List.nil_append]; exact htwo)
  exact ⟨ef, h1, by rw [List.nil_append] at h2; exact h2⟩

end Verif.TriInterp
