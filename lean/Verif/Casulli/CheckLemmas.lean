import Verif.Casulli.MaskLemmas
import Verif.Quality.Props
/-!
# Checking the hypotheses on examples
-/
namespace Verif.Casulli
open Verif.Mesh Verif.Faces
open Verif.Polygons (Pt)
variable {P : Type} {m : Mesh P} {t : Tables P}

/-- The edges of a face. -/
def edgesFor (s : State) (f : Nat) : List Nat := (s.facesEdges[f]?).getD []

/-- The nodes of a face. -/
def nodesFor (s : State) (f : Nat) : List Nat := (s.facesNodes[f]?).getD []

/-- `Forward`, decided. -/
def forwardCheck (m : Mesh P) (s : State) (f e : Nat) : Bool :=
  (List.range (edgesFor s f).length).any fun i => decide ((edgesFor s f)[i]? = some e ∧ (nodesFor s f)[i]? = some (edgeAt m e).1)

/-- `Net`, decided, without the tables of the faces. -/
def netCheck (m : Mesh P) (t : Tables P) : Bool :=
  wfCheck m &&
  (List.range m.edges.length).all (fun i => decide (edgeAt m i = noEdge ∨ ((edgeAt m i).1 ≠ (edgeAt m i).2 ∧ validNode m.nodes (edgeAt m i).1 = true ∧
    validNode m.nodes (edgeAt m i).2 = true ∧ t.faces.numFaces[i]? ≠ some 0))) &&
  (List.range m.nodes.length).all (fun n => (listAt m n).all (fun i => decide (edgeAt m i ≠ noEdge))) &&
  decide (t.faces.facesNodes.length ≤ missing) && decide (t.centres.length = t.faces.facesNodes.length) && decide (t.types.length = m.nodes.length) &&
  (List.range t.faces.facesEdges.length).all (fun f => (List.range t.faces.facesEdges.length).all (fun g => decide (f = g ∨
    ((∀ e ∈ edgesFor t.faces f, e ∈ edgesFor t.faces g → ∀ e' ∈ edgesFor t.faces f, e' ∈ edgesFor t.faces g → e = e') ∧
    ∀ e ∈ edgesFor t.faces f, e ∈ edgesFor t.faces g → forwardCheck m t.faces f e = !forwardCheck m t.faces g e))))

theorem borders_edgesFor {s : State} {f e : Nat} (h : Borders s f e) : f < s.facesEdges.length ∧ e ∈ edgesFor s f := by
  obtain ⟨es, h1, h2⟩ := h
  refine ⟨(List.getElem?_eq_some_iff.1 h1).1, ?_⟩
  unfold edgesFor
  rw [h1]
  exact h2

theorem forwardCheck_iff {cw : List Nat → Bool} (hc : Consistent m.edges cw t.faces) {f e : Nat} (hb : Borders t.faces f e) :
    forwardCheck m t.faces f e = true ↔ Forward m t.faces f e := by
  obtain ⟨es, h1, h2⟩ := hb
  have hf : f < t.faces.facesNodes.length := by rw [hc.lengths]; exact (List.getElem?_eq_some_iff.1 h1).1
  have h3 := List.getElem?_eq_getElem hf
  unfold forwardCheck Forward edgesFor nodesFor
  rw [h1, h3]
  simp only [Option.getD_some, List.any_eq_true, List.mem_range, decide_eq_true_eq]
  constructor
  · rintro ⟨i, _, a, b⟩
    exact ⟨_, es, i, rfl, rfl, a, b⟩
  · rintro ⟨ns', es', i, a1, a2, a, b⟩
    obtain rfl := Option.some.inj a1
    obtain rfl := Option.some.inj a2
    exact ⟨i, (List.getElem?_eq_some_iff.1 a).1, a, b⟩

theorem net_of_check {cw : List Nat → Bool} (hc : Consistent m.edges cw t.faces) (h : netCheck m t = true) : Net m t := by
  unfold netCheck at h
  simp only [Bool.and_eq_true, List.all_eq_true, List.mem_range, decide_eq_true_eq] at h
  obtain ⟨⟨⟨⟨⟨⟨h1, h2⟩, h3⟩, h4⟩, h5⟩, h6⟩, h7⟩ := h
  have w := wf_of_check h1
  have hu : ∀ i, edgeAt m i ≠ noEdge → (edgeAt m i).1 ≠ (edgeAt m i).2 ∧ validNode m.nodes (edgeAt m i).1 = true ∧
      validNode m.nodes (edgeAt m i).2 = true ∧ t.faces.numFaces[i]? ≠ some 0 := fun i hi => (h2 i (used_lt hi)).resolve_left hi
  have hpair : ∀ f g e, f ≠ g → Borders t.faces f e → Borders t.faces g e → _ := fun f g e hne a b =>
    (h7 f (borders_edgesFor a).1 g (borders_edgesFor b).1).resolve_left hne
  refine ⟨w, fun i hi => (hu i hi).1, ?_, ?_, ⟨cw, hc⟩, h4, fun i hi => (hu i hi).2.2.2, ?_, ?_, h5, h6⟩
  · intro n i hi
    by_cases hn : n < m.nodes.length
    · exact h3 n hn i hi
    · unfold listAt at hi
      rw [List.getElem?_eq_none (by rw [w.lists]; omega)] at hi
      simp at hi
  · intro i n hi ht
    obtain ⟨_, a, b, _⟩ := hu i hi
    rcases ht with rfl | rfl
    · exact Quality.validNode_get a
    · exact Quality.validNode_get b
  · intro f g e e' hne a b a' b'
    exact (hpair f g e hne a b).1 e (borders_edgesFor a).2 (borders_edgesFor b).2 e' (borders_edgesFor a').2 (borders_edgesFor b').2
  · intro f g e hne a b
    have := (hpair f g e hne a b).2 e (borders_edgesFor a).2 (borders_edgesFor b).2
    rw [← forwardCheck_iff hc a, ← forwardCheck_iff hc b, this]
    simp

/-- The boundary edges at a node. -/
def rimsAt (m : Mesh P) (s : State) (n : Nat) : List Nat :=
  (List.range m.edges.length).filter fun e => decide (s.numFaces[e]? = some 1 ∧ ((edgeAt m e).1 = n ∨ (edgeAt m e).2 = n))

/-- Two boundary edges at each node of the boundary, decided. -/
def rimCheck (m : Mesh P) (t : Tables P) : Bool :=
  (List.range m.nodes.length).all fun n => decide (t.types[n]? = some 3 ∨ (rimsAt m t.faces n).length = 0 ∨ (rimsAt m t.faces n).length = 2)

theorem rims_of_check (h : Net m t) (hr : rimCheck m t = true) (n : Nat) (hn : OnRim m t.faces n) :
    t.types[n]? = some 3 ∨ ∃ a b, a ≠ b ∧ ∀ e, Rim t.faces e ∧ touches (edgeAt m e) n ↔ e = a ∨ e = b := by
  unfold rimCheck at hr
  simp only [List.all_eq_true, List.mem_range, decide_eq_true_eq] at hr
  have hmem : ∀ e, e ∈ rimsAt m t.faces n ↔ Rim t.faces e ∧ touches (edgeAt m e) n := by
    intro e
    unfold rimsAt
    rw [List.mem_filter, decide_eq_true_eq, List.mem_range]
    constructor
    · exact fun q => q.2
    · exact fun q => ⟨used_lt (h.rim q.1).1, q⟩
  obtain ⟨e0, a0, b0⟩ := hn
  have hnd : (rimsAt m t.faces n).Nodup := List.Nodup.filter _ List.nodup_range
  rcases hr n (h.touch_lt (h.rim a0).1 b0) with q | q | q
  · exact Or.inl q
  · have := (hmem e0).2 ⟨a0, b0⟩
    rw [List.length_eq_zero_iff.1 q] at this
    simp at this
  · right
    obtain ⟨a, b, hab⟩ := List.length_eq_two.1 q
    rw [hab] at hnd hmem
    refine ⟨a, b, by simpa using hnd, fun e => ?_⟩
    rw [← hmem e]
    simp

end Verif.Casulli
