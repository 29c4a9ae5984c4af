import Verif.Refine.Model
import Verif.Refine.Spec
import Verif.Mesh.UndoLemmas
import Verif.Mesh.CompactLemmas
import Verif.Regions.RemoveLemmas
/-!
# Lemmas: refinement keeps nodes and edges, and is recorded
-/
namespace Verif.Refine
open Verif.Mesh Verif.Faces Verif.Circular
variable {P : Type} {mid : P → P → P}

theorem loopN_of_ok {σ : Type} {f : Nat → σ → Res σ} (I : Nat → σ → Prop) : ∀ (k i : Nat) {s t : σ}, loopN f k i s = .ok t → I i s →
    (∀ j u v, i ≤ j → j < i + k → I j u → f j u = .ok v → I (j + 1) v) → I (i + k) t
  | 0, i, s, t, h, h0, _ => by
    simp only [loopN, Res.ok.injEq] at h
    exact h ▸ h0
  | k + 1, i, s, t, h, h0, hs => by
    obtain ⟨u, h1, h2⟩ := Res.bind_eq_ok.1 h
    have := loopN_of_ok I k (i + 1) h2 (hs i s u (Nat.le_refl _) (by omega) h0 h1) (fun j u v a b => hs j u v (by omega) (by omega))
    rw [show i + (k + 1) = i + 1 + k by omega]
    exact this

/-- What holds along a loop that ends well. -/
theorem forRange_of_ok {σ : Type} {f : Nat → σ → Res σ} (I : Nat → σ → Prop) {lo hi : Nat} (hle : lo ≤ hi) {s t : σ}
    (h : forRange lo hi f s = .ok t) (h0 : I lo s) (hs : ∀ j u v, lo ≤ j → j < hi → I j u → f j u = .ok v → I (j + 1) v) : I hi t := by
  have := loopN_of_ok I (hi - lo) lo h h0 (fun j u v a b => hs j u v a (by omega))
  rwa [show lo + (hi - lo) = hi by omega] at this

/-! ## Steps and refinement -/

theorem Step.symm {m : Mesh P} {S : P → Prop} {x y : Nat} (h : Step m S x y) : Step m S y x := by
  obtain ⟨i, h1, h2, h3⟩ := h
  exact ⟨i, h1.symm, h3, h2⟩

theorem noEdge_joins {x y : Nat} (h : joins noEdge x y) : x = missing := by
  rcases h with h | h
  · exact (congrArg Prod.fst h).symm
  · exact (congrArg Prod.snd h).symm

theorem used_iff {m : Mesh P} {n : Nat} (hn : m.nodes.length ≤ missing) : Used m n ↔ ∃ y, Step m (fun _ => True) n y := by
  constructor
  · rintro ⟨e, h1, h2, h3⟩
    obtain ⟨i, hi⟩ := List.getElem?_of_mem h1
    have he : edgeAt m i = e := by simp [edgeAt, hi]
    have : ∃ p q, m.nodes[e.1]? = some (some p) ∧ m.nodes[e.2]? = some (some q) := by
      unfold seg at h2
      cases ha : m.nodes[e.1]?.join with
      | none => simp [ha] at h2
      | some p =>
        cases hb : m.nodes[e.2]?.join with
        | none => simp [ha, hb] at h2
        | some q => exact ⟨p, q, Option.join_eq_some_iff.1 ha, Option.join_eq_some_iff.1 hb⟩
    obtain ⟨p, q, hp, hq⟩ := this
    rcases h3 with rfl | rfl
    · exact ⟨e.2, i, by rw [he]; exact Or.inl rfl, ⟨p, hp, trivial⟩, ⟨q, hq, trivial⟩⟩
    · exact ⟨e.1, i, by rw [he]; exact Or.inr rfl, ⟨q, hq, trivial⟩, ⟨p, hp, trivial⟩⟩
  · rintro ⟨y, i, h1, ⟨p, hp, _⟩, ⟨q, hq, _⟩⟩
    have hi : ∃ e, m.edges[i]? = some e := by
      cases h : m.edges[i]? with
      | some e => exact ⟨e, rfl⟩
      | none =>
        exfalso
        have he : edgeAt m i = noEdge := by simp [edgeAt, h]
        rw [he] at h1
        have : n = missing := by
          exact noEdge_joins h1
        rw [this] at hp
        have := (List.getElem?_eq_some_iff.1 hp).1
        omega
    obtain ⟨e, he⟩ := hi
    have hea : edgeAt m i = e := by simp [edgeAt, he]
    rw [hea] at h1
    refine ⟨e, List.mem_of_getElem? he, ?_, ?_⟩
    · rcases h1 with h1 | h1 <;> simp [seg, h1, hp, hq]
    · rcases h1 with h1 | h1 <;> simp [h1]

theorem Path.start {m : Mesh P} {S : P → Prop} {x y : Nat} (h : Path m S x y) : ∃ z, Step m S x z := by
  obtain ⟨z, hz, _⟩ := Relation.TransGen.head'_iff.1 h
  exact ⟨z, hz⟩

theorem Refines.used {m m' : Mesh P} (h : Refines mid m m') (hn : m.nodes.length ≤ missing) (hn' : m'.nodes.length ≤ missing) {n : Nat}
    (hu : Used m n) : Used m' n := by
  obtain ⟨y, hy⟩ := (used_iff hn).1 hu
  exact (used_iff hn').2 (h.edges _ (fun _ _ _ _ => trivial) _ _ hy).start

theorem Refines.refl (mid : P → P → P) (m : Mesh P) : Refines mid m m := ⟨fun _ _ _ h => h, fun _ _ _ _ h => .single h⟩

theorem Refines.trans {m m1 m2 : Mesh P} (h1 : Refines mid m m1) (h2 : Refines mid m1 m2) (hn : m.nodes.length ≤ missing)
    (hn1 : m1.nodes.length ≤ missing) : Refines mid m m2 :=
  ⟨fun n p hu hp => h2.nodes n p (h1.used hn hn1 hu) (h1.nodes n p hu hp),
    fun S hS x y h => Relation.TransGen.lift' id (fun a b hab => h2.edges S hS a b hab) _ _ (h1.edges S hS x y h)⟩

/-- Recorded, and a refinement as long as numbers fit. -/
structure Makes (mid : P → P → P) (m : Mesh P) (as : List (Act P)) (m' : Mesh P) : Prop where
  good : Good m as m'
  refines : m'.nodes.length ≤ missing → m'.edges.length ≤ missing → Refines mid m m'

theorem Makes.refl (mid : P → P → P) (m : Mesh P) : Makes mid m [] m := ⟨Good.refl m, fun _ _ => Refines.refl mid m⟩

theorem Makes.trans {m m1 m2 : Mesh P} {as bs : List (Act P)} (h1 : Makes mid m as m1) (h2 : Makes mid m1 bs m2) :
    Makes mid m (as ++ bs) m2 := by
  refine ⟨h1.good.trans h2.good, fun a b => ?_⟩
  have n1 : m1.nodes.length ≤ missing := Nat.le_trans h2.good.nodes a
  have e1 : m1.edges.length ≤ missing := Nat.le_trans h2.good.edges b
  exact (h1.refines n1 e1).trans (h2.refines a b) (Nat.le_trans h1.good.nodes n1) n1

/-! ## The single edits -/

/-- Nodes are only appended. -/
def Extends (m m' : Mesh P) : Prop := ∀ (n : Nat) v, m.nodes[n]? = some v → m'.nodes[n]? = some v

theorem Extends.refl (m : Mesh P) : Extends m m := fun _ _ h => h
theorem Extends.trans {m m1 m2 : Mesh P} (h1 : Extends m m1) (h2 : Extends m1 m2) : Extends m m2 := fun n v h => h2 n v (h1 n v h)

theorem insertNodeU_eq {m m' : Mesh P} {v : Option P} {as : List (Act P)} (h : insertNodeU m v = .ok (as, m')) :
    m'.nodes = m.nodes ++ [v] ∧ m'.edges = m.edges := by
  simp [insertNodeU] at h
  obtain ⟨_, rfl⟩ := h
  exact ⟨rfl, rfl⟩

theorem extends_append {m m' : Mesh P} {l : List (Option P)} (h : m'.nodes = m.nodes ++ l) : Extends m m' := by
  intro n v hv
  rw [h, List.getElem?_append_left (List.getElem?_eq_some_iff.1 hv).1, hv]

theorem Step.keep {m m' : Mesh P} {S : P → Prop} {x y : Nat} (hn : m.nodes.length ≤ missing) (he : Extends m m')
    (hed : ∀ (i : Nat) e, m.edges[i]? = some e → m'.edges[i]? = some e) (h : Step m S x y) : Step m' S x y := by
  obtain ⟨i, h1, ⟨p, hp, sp⟩, ⟨q, hq, sq⟩⟩ := h
  refine ⟨i, ?_, ⟨p, he _ _ hp, sp⟩, ⟨q, he _ _ hq, sq⟩⟩
  cases hi : m.edges[i]? with
  | some e => simpa [edgeAt, hi, hed i e hi] using h1
  | none =>
    exfalso
    have : x = missing := by
      simp only [edgeAt, hi] at h1
      exact noEdge_joins h1
    rw [this] at hp
    have := (List.getElem?_eq_some_iff.1 hp).1
    omega

theorem Refines.keep {m m' : Mesh P} (hn : m.nodes.length ≤ missing) (he : Extends m m')
    (hed : ∀ (i : Nat) e, m.edges[i]? = some e → m'.edges[i]? = some e) : Refines mid m m' :=
  ⟨fun n p _ h => he n _ h, fun _ _ _ _ h => .single (h.keep hn he hed)⟩

theorem insertNodeU_makes {m m' : Mesh P} {v : Option P} {as : List (Act P)} (h : insertNodeU m v = .ok (as, m')) : Makes mid m as m' := by
  have g := insertNodeU_good h
  obtain ⟨h1, h2⟩ := insertNodeU_eq h
  exact ⟨g, fun a _ => .keep (Nat.le_trans g.nodes a) (extends_append h1) (fun i e hi => by rw [h2]; exact hi)⟩

theorem connectNodesU_eq {m m' : Mesh P} {x y : Nat} {as : List (Act P)} (h : connectNodesU m x y = .ok (as, m')) :
    m'.nodes = m.nodes ∧ (m'.edges = m.edges ∨ m'.edges = m.edges ++ [(x, y)]) := by
  simp only [connectNodesU, Res.bind_eq_ok] at h
  obtain ⟨f, _, h⟩ := h
  split at h
  · simp at h
    obtain ⟨_, rfl⟩ := h
    exact ⟨rfl, Or.inl rfl⟩
  · simp at h
    obtain ⟨_, rfl⟩ := h
    exact ⟨rfl, Or.inr rfl⟩

theorem connectNodesU_makes {m m' : Mesh P} {x y : Nat} {as : List (Act P)} (h : connectNodesU m x y = .ok (as, m')) : Makes mid m as m' := by
  have g := connectNodesU_good h
  obtain ⟨h1, h2⟩ := connectNodesU_eq h
  refine ⟨g, fun a _ => .keep (Nat.le_trans g.nodes a) (fun n v hv => by rw [h1]; exact hv) (fun i e hi => ?_)⟩
  rcases h2 with h2 | h2 <;> rw [h2]
  · exact hi
  · rw [List.getElem?_append_left (List.getElem?_eq_some_iff.1 hi).1, hi]

/-- Administration is recorded and keeps the edges and their nodes. -/
theorem administrateU_makes {order : Nat → List Nat → List Nat} {m m' : Mesh P} {as : List (Act P)}
    (h : Regions.administrateU order m = .ok (as, m')) : Makes mid m as m' ∧ m'.nodes.length = m.nodes.length ∧ m'.edges.length = m.edges.length := by
  rcases Regions.administrateU_spec order m with ⟨a, _⟩ | ⟨as', m1, a1, a2, a3⟩
  · rw [h] at a; cases a
  rw [h] at a1
  simp only [Res.ok.injEq, Prod.mk.injEq] at a1
  obtain ⟨rfl, rfl⟩ := a1
  have hb : inBounds m = true := by
    by_contra hb
    have : setUnconnectedInvalid m = .ub := by unfold setUnconnectedInvalid; rw [if_pos (by simpa using hb)]
    unfold administrate at a2
    rw [this] at a2
    cases a2
  have hlen : m'.nodes.length = m.nodes.length ∧ m'.edges.length = m.edges.length := by
    simp only [administrate, setUnconnectedInvalid, hb] at a2
    by_cases h0 : numInvalidEdges m = 0 ∧ numInvalidNodes m = 0
    · simp only [h0, and_self, if_true, Bool.not_true, Bool.false_eq_true, if_false] at a2
      split at a2 <;> simp only [Res.ok.injEq] at a2 <;> subst a2 <;> simp [connectedNodes_length]
    · simp only [h0, if_false, Bool.not_true, Bool.false_eq_true] at a2
      split at a2 <;> simp only [Res.ok.injEq] at a2 <;> subst a2 <;> simp [connectedNodes_length]
  refine ⟨⟨a3, fun n _ => ?_⟩, hlen⟩
  have hn : m.nodes.length ≤ missing := by omega
  obtain ⟨m1, b1, b2, b3, b4⟩ := Regions.administrate_content order hn hb
  rw [a2] at b1
  obtain rfl := Res.ok.inj b1
  have keep : ∀ n p, Used m n → m.nodes[n]? = some (some p) → m'.nodes[n]? = some (some p) := by
    intro n p hu hp
    have h1 := connectedNodes_get m n
    rw [(connected_iff hn n).2 hu, if_pos rfl, hp, ← b2] at h1
    cases hx : m'.nodes[n]? with
    | none => rw [hx] at h1; cases h1
    | some v => rw [hx] at h1; exact congrArg some h1
  refine ⟨keep, fun S hS x y hs => .single ?_⟩
  have ux : Used m x := (used_iff hn).2 ⟨y, by
    obtain ⟨i, c1, ⟨p, c2, _⟩, ⟨q, c3, _⟩⟩ := hs
    exact ⟨i, c1, ⟨p, c2, trivial⟩, ⟨q, c3, trivial⟩⟩⟩
  have uy : Used m y := (used_iff hn).2 ⟨x, by
    obtain ⟨i, c1, ⟨p, c2, _⟩, ⟨q, c3, _⟩⟩ := hs
    exact ⟨i, c1.symm, ⟨q, c3, trivial⟩, ⟨p, c2, trivial⟩⟩⟩
  obtain ⟨i, c1, ⟨p, c2, c3⟩, ⟨q, c4, c5⟩⟩ := hs
  refine ⟨i, ?_, ⟨p, keep _ _ ux c2, c3⟩, ⟨q, keep _ _ uy c4, c5⟩⟩
  rw [b4 i]
  have : (seg m.nodes (edgeAt m i)).isSome := by
    rcases c1 with c1 | c1 <;> simp [c1, seg, c2, c4]
  rw [if_pos this]; exact c1

/-- An edge is cut at a node in its middle. -/
theorem cut_makes {m m1 m2 : Mesh P} {e k : Nat} {a : Edge} {p q : P} {as bs : List (Act P)} (ha : m.edges[e]? = some a)
    (hp : m.nodes[a.1]? = some (some p)) (hq : m.nodes[a.2]? = some (some q)) (hk : m.nodes[k]? = some (some (mid p q)))
    (h1 : connectNodesU m k a.2 = .ok (as, m1)) (he : m1.edges = m.edges ++ [(k, a.2)]) (h2 : resetEdgeU m1 e (a.1, k) = .ok (bs, m2)) :
    Makes mid m (as ++ bs) m2 ∧ m2.nodes = m.nodes ∧ m2.edges = m.edges.set e (a.1, k) ++ [(k, a.2)] := by
  have hn1 := (connectNodesU_eq h1).1
  have hlt : e < m.edges.length := (List.getElem?_eq_some_iff.1 ha).1
  have h2' : m2.nodes = m1.nodes ∧ m2.edges = m1.edges.set e (a.1, k) := by
    simp only [resetEdgeU, Res.bind_eq_ok] at h2
    obtain ⟨old, _, m3, h3, h4⟩ := h2
    simp only [resetEdge, Res.bind_eq_ok] at h3
    obtain ⟨es, h5, h6⟩ := h3
    obtain ⟨_, rfl⟩ := vset_eq_ok.1 h5
    simp at h4 h6
    obtain ⟨_, rfl⟩ := h4
    subst h6
    exact ⟨rfl, rfl⟩
  have hnodes : m2.nodes = m.nodes := by rw [h2'.1, hn1]
  have hedges : m2.edges = m.edges.set e (a.1, k) ++ [(k, a.2)] := by
    rw [h2'.2, he, List.set_append_left _ _ hlt]
  refine ⟨⟨(connectNodesU_good h1).trans (resetEdgeU_good h2), fun hn _ => ⟨fun n v _ hv => by rw [hnodes]; exact hv, ?_⟩⟩, hnodes, hedges⟩
  intro S hS x y hs
  rw [hnodes] at hn
  obtain ⟨i, c1, ⟨u, c2, c3⟩, ⟨v, c4, c5⟩⟩ := hs
  by_cases hi : i = e
  · subst hi
    have hea : edgeAt m i = a := by simp [edgeAt, ha]
    rw [hea] at c1
    have main : S p → S q → Path m2 S a.1 a.2 := by
      intro sp sq
      have sm := hS p q sp sq
      refine .tail (.single (b := k) ⟨i, ?_, ⟨p, ?_, sp⟩, ⟨_, ?_, sm⟩⟩) ⟨m.edges.length, ?_, ⟨_, ?_, sm⟩, ⟨q, ?_, sq⟩⟩
      · refine Or.inl ?_
        unfold edgeAt
        rw [hedges, List.getElem?_append_left (by simpa using hlt), List.getElem?_set_self hlt]; rfl
      · rw [hnodes]; exact hp
      · rw [hnodes]; exact hk
      · refine Or.inl ?_
        unfold edgeAt
        rw [hedges, List.getElem?_append_right (by simp)]; simp
      · rw [hnodes]; exact hk
      · rw [hnodes]; exact hq
    rcases c1 with c1 | c1
    · have ex : a.1 = x := by rw [c1]
      have ey : a.2 = y := by rw [c1]
      subst ex ey
      rw [hp] at c2; rw [hq] at c4
      simp only [Option.some.injEq] at c2 c4
      subst c2 c4
      exact main c3 c5
    · have ex : a.1 = y := by rw [c1]
      have ey : a.2 = x := by rw [c1]
      subst ex ey
      rw [hp] at c4; rw [hq] at c2
      simp only [Option.some.injEq] at c2 c4
      subst c2 c4
      have := main c5 c3
      exact Relation.TransGen.mono (fun _ _ h => Step.symm h) _ _ (Relation.TransGen.swap (r := Step m2 S) _ _ this)
  · refine .single ⟨i, ?_, ⟨u, by rw [hnodes]; exact c2, c3⟩, ⟨v, by rw [hnodes]; exact c4, c5⟩⟩
    cases hl : m.edges[i]? with
    | none =>
      exfalso
      have : x = missing := by
        simp only [edgeAt, hl] at c1
        exact noEdge_joins c1
      rw [this] at c2
      have := (List.getElem?_eq_some_iff.1 c2).1
      omega
    | some b =>
      have hil : i < m.edges.length := (List.getElem?_eq_some_iff.1 hl).1
      have : edgeAt m2 i = edgeAt m i := by
        unfold edgeAt
        rw [hedges, List.getElem?_append_left (by simpa using hil), List.getElem?_set_ne (Ne.symm hi)]
      rw [this]; exact c1

end Verif.Refine
