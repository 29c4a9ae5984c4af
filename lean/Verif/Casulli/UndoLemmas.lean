import Verif.Casulli.Model
import Verif.Regions.RemoveLemmas
/-!
# Every step of the refinement is recorded
-/
namespace Verif.Casulli
open Verif.Mesh Verif.Faces
variable {P : Type}

/-- The second state is reached from the first by recorded edits. -/
def Ext (r r' : Run P) : Prop := ∃ as, r'.acts = r.acts ++ as ∧ Good r.mesh as r'.mesh

theorem Ext.refl (r : Run P) : Ext r r := ⟨[], by simp, Good.refl _⟩

theorem Ext.trans {r r1 r2 : Run P} (h : Ext r r1) (h' : Ext r1 r2) : Ext r r2 := by
  obtain ⟨as, h1, h2⟩ := h
  obtain ⟨bs, h3, h4⟩ := h'
  exact ⟨as ++ bs, by rw [h3, h1, List.append_assoc], h2.trans h4⟩

theorem loopN_ext {f : Nat → Run P → Res (Run P)} (hf : ∀ i r r', f i r = .ok r' → Ext r r') (k : Nat) :
    ∀ i r r', loopN f k i r = .ok r' → Ext r r' := by
  induction k with
  | zero =>
    intro i r r' h
    obtain rfl := Res.ok.inj h
    exact Ext.refl r
  | succ k ih =>
    intro i r r' h
    rw [loopN] at h
    obtain ⟨r1, h1, h⟩ := Res.bind_eq_ok.1 h
    exact (hf i r r1 h1).trans (ih _ r1 r' h)

theorem forRange_ext {f : Nat → Run P → Res (Run P)} (hf : ∀ i r r', f i r = .ok r' → Ext r r') {lo hi : Nat} {r r' : Run P}
    (h : forRange lo hi f r = .ok r') : Ext r r' := loopN_ext hf _ _ _ _ h

theorem addNode_ext {v : Option P} {k : Mask} {r r' : Run P} (h : addNode v k r = .ok r') : Ext r r' := by
  unfold addNode at h
  obtain ⟨q, h1, h⟩ := Res.bind_eq_ok.1 h
  obtain ⟨mask, _, h⟩ := Res.bind_eq_ok.1 h
  obtain rfl := Res.ok.inj h
  exact ⟨q.1, rfl, insertNodeU_good (as := q.1) (m' := q.2) h1⟩

theorem newNode_ext {v : Option P} {k : Mask} {b : Bool} {n : Nat} {r : Run P} {q : Nat × Run P} (h : newNode v k b n r = .ok q) : Ext r q.2 := by
  unfold newNode at h
  split at h
  · obtain ⟨r1, h1, h⟩ := Res.bind_eq_ok.1 h
    obtain rfl := Res.ok.inj h
    exact addNode_ext h1
  · obtain rfl := Res.ok.inj h
    exact Ext.refl r

theorem store_ext {s : State} {n e1 e2 new : Nat} {r r' : Run P} (h : store s n e1 e2 new r = .ok r') : Ext r r' := by
  unfold store at h
  obtain ⟨t, _, h⟩ := Res.bind_eq_ok.1 h
  obtain rfl := Res.ok.inj h
  exact ⟨[], by simp, Good.refl _⟩

theorem faceCorner_ext {mid : P → P → P} {s : State} {c : P} {es : List Nat} {n : Nat} {r r' : Run P} (h : faceCorner mid s c es n r = .ok r') :
    Ext r r' := by
  unfold faceCorner at h
  obtain ⟨l, _, h⟩ := Res.bind_eq_ok.1 h
  split at h
  · obtain ⟨a, _, h⟩ := Res.bind_eq_ok.1 h
    obtain ⟨p, _, h⟩ := Res.bind_eq_ok.1 h
    obtain ⟨q, h1, h⟩ := Res.bind_eq_ok.1 h
    exact (newNode_ext h1).trans (store_ext h)
  · obtain rfl := Res.ok.inj h
    exact Ext.refl r

theorem faceCorners_ext {mid : P → P → P} {s : State} {c : P} {es : List Nat} (ns : List Nat) : ∀ {r r' : Run P},
    faceCorners mid s c es ns r = .ok r' → Ext r r' := by
  induction ns with
  | nil =>
    intro r r' h
    obtain rfl := Res.ok.inj h
    exact Ext.refl r
  | cons n ns ih =>
    intro r r' h
    rw [faceCorners] at h
    obtain ⟨r1, h1, h⟩ := Res.bind_eq_ok.1 h
    exact (faceCorner_ext h1).trans (ih h)

theorem newFaceNodes_ext {mid : P → P → P} {t : Tables P} (f : Nat) (r r' : Run P) (h : newFaceNodes mid t f r = .ok r') : Ext r r' := by
  unfold newFaceNodes at h
  obtain ⟨c, _, h⟩ := Res.bind_eq_ok.1 h
  obtain ⟨ns, _, h⟩ := Res.bind_eq_ok.1 h
  obtain ⟨es, _, h⟩ := Res.bind_eq_ok.1 h
  exact faceCorners_ext ns h

theorem edgeEnd_ext {mid : P → P → P} {s : State} {e : Nat} {c : Option P} {n : Nat} {r r' : Run P} (h : edgeEnd mid s e c n r = .ok r') :
    Ext r r' := by
  unfold edgeEnd at h
  obtain ⟨a, _, h⟩ := Res.bind_eq_ok.1 h
  obtain ⟨p, _, h⟩ := Res.bind_eq_ok.1 h
  obtain ⟨q, h1, h⟩ := Res.bind_eq_ok.1 h
  exact (newNode_ext h1).trans (store_ext h)

theorem newEdgeNodes_ext {mid : P → P → P} {s : State} (e : Nat) (r r' : Run P) (h : newEdgeNodes mid s e r = .ok r') : Ext r r' := by
  unfold newEdgeNodes at h
  obtain ⟨c, _, h⟩ := Res.bind_eq_ok.1 h
  split at h
  · obtain rfl := Res.ok.inj h
    exact Ext.refl r
  · obtain ⟨p, _, h⟩ := Res.bind_eq_ok.1 h
    split at h
    · obtain rfl := Res.ok.inj h
      exact Ext.refl r
    · obtain ⟨a, _, h⟩ := Res.bind_eq_ok.1 h
      obtain ⟨b, _, h⟩ := Res.bind_eq_ok.1 h
      obtain ⟨r1, h1, h⟩ := Res.bind_eq_ok.1 h
      exact (edgeEnd_ext h1).trans (edgeEnd_ext h)

theorem connect_ext {a b : Nat} {r r' : Run P} (h : connect a b r = .ok r') : Ext r r' := by
  unfold connect at h
  obtain ⟨q, h1, h⟩ := Res.bind_eq_ok.1 h
  obtain rfl := Res.ok.inj h
  exact ⟨q.1, rfl, connectNodesU_good (as := q.1) (m' := q.2) h1⟩

theorem connectNew_ext {a b : Nat} {r r' : Run P} (h : connectNew a b r = .ok r') : Ext r r' := by
  unfold connectNew at h
  split at h
  · exact connect_ext h
  · obtain rfl := Res.ok.inj h
    exact Ext.refl r

theorem connectEdge_ext (e : Nat) (r r' : Run P) (h : connectEdge e r = .ok r') : Ext r r' := by
  unfold connectEdge at h
  obtain ⟨n1, _, h⟩ := Res.bind_eq_ok.1 h
  obtain ⟨n2, _, h⟩ := Res.bind_eq_ok.1 h
  obtain ⟨n3, _, h⟩ := Res.bind_eq_ok.1 h
  obtain ⟨n4, _, h⟩ := Res.bind_eq_ok.1 h
  obtain ⟨r1, h1, h⟩ := Res.bind_eq_ok.1 h
  obtain ⟨r2, h2, h⟩ := Res.bind_eq_ok.1 h
  obtain ⟨r3, h3, h⟩ := Res.bind_eq_ok.1 h
  exact (connectNew_ext h1).trans ((connectNew_ext h2).trans ((connectNew_ext h3).trans (connectNew_ext h)))

theorem faceDiagonal_ext (idx : List (Nat × Nat)) (js : List Nat) : ∀ {r r' : Run P}, faceDiagonal idx js r = .ok r' → Ext r r' := by
  induction js with
  | nil =>
    intro r r' h
    obtain rfl := Res.ok.inj h
    exact Ext.refl r
  | cons j js ih =>
    intro r r' h
    rw [faceDiagonal] at h
    obtain ⟨a, _, h⟩ := Res.bind_eq_ok.1 h
    obtain ⟨b, _, h⟩ := Res.bind_eq_ok.1 h
    obtain ⟨c, _, h⟩ := Res.bind_eq_ok.1 h
    obtain ⟨d, _, h⟩ := Res.bind_eq_ok.1 h
    obtain ⟨k, _, h⟩ := Res.bind_eq_ok.1 h
    split at h
    · exact connect_ext h
    · split at h
      · exact connect_ext h
      · split at h
        · exact connect_ext h
        · exact ih h

theorem connectFace_ext {s : State} (f : Nat) (r r' : Run P) (h : connectFace s f r = .ok r') : Ext r r' := by
  unfold connectFace at h
  obtain ⟨ns, _, h⟩ := Res.bind_eq_ok.1 h
  split at h
  · obtain rfl := Res.ok.inj h
    exact Ext.refl r
  · obtain ⟨b, _, h⟩ := Res.bind_eq_ok.1 h
    split at h
    · obtain ⟨es, _, h⟩ := Res.bind_eq_ok.1 h
      unfold connectFaceNodes at h
      obtain ⟨_, _, h⟩ := Res.bind_eq_ok.1 h
      obtain ⟨_, _, h⟩ := Res.bind_eq_ok.1 h
      obtain ⟨_, _, h⟩ := Res.bind_eq_ok.1 h
      obtain ⟨_, _, h⟩ := Res.bind_eq_ok.1 h
      exact faceDiagonal_ext _ _ h
    · obtain rfl := Res.ok.inj h
      exact Ext.refl r

theorem connectBoth_ext {n e : Nat} {r r' : Run P} (h : connectBoth n e r = .ok r') : Ext r r' := by
  unfold connectBoth at h
  obtain ⟨p, _, h⟩ := Res.bind_eq_ok.1 h
  obtain ⟨x, _, h⟩ := Res.bind_eq_ok.1 h
  obtain ⟨r1, h1, h⟩ := Res.bind_eq_ok.1 h
  obtain ⟨y, _, h⟩ := Res.bind_eq_ok.1 h
  exact (connect_ext h1).trans (connect_ext h)

theorem connectEdges_ext {s : State} {n : Nat} (l : List Nat) : ∀ {r : Run P} {q : Run P × List Nat}, connectEdges s n l r = .ok q → Ext r q.1 := by
  induction l with
  | nil =>
    intro r q h
    obtain rfl := Res.ok.inj h
    exact Ext.refl r
  | cons e l ih =>
    intro r q h
    rw [connectEdges] at h
    obtain ⟨c, _, h⟩ := Res.bind_eq_ok.1 h
    split at h
    · obtain ⟨q1, h1, h⟩ := Res.bind_eq_ok.1 h
      obtain rfl := Res.ok.inj h
      have := ih h1
      exact this
    · obtain ⟨r1, h1, h⟩ := Res.bind_eq_ok.1 h
      exact (connectBoth_ext h1).trans (ih h)

theorem connectCorner_ext {n : Nat} (xs : List Nat) : ∀ {r r' : Run P}, connectCorner n xs r = .ok r' → Ext r r' := by
  induction xs with
  | nil =>
    intro r r' h
    obtain rfl := Res.ok.inj h
    exact Ext.refl r
  | cons x xs ih =>
    intro r r' h
    rw [connectCorner] at h
    obtain ⟨r1, h1, h⟩ := Res.bind_eq_ok.1 h
    refine Ext.trans ?_ (ih h)
    unfold connectOther at h1
    split at h1
    · exact connect_ext h1
    · obtain rfl := Res.ok.inj h1
      exact Ext.refl r

theorem connectBoundary_ext {l : List Nat} {r r' : Run P} (h : connectBoundary l r = .ok r') : Ext r r' := by
  unfold connectBoundary at h
  split at h
  · exact connectNew_ext h
  · cases h

theorem missingEdges_ext {s : State} (n : Nat) (r r' : Run P) (h : missingEdges s n r = .ok r') : Ext r r' := by
  unfold missingEdges at h
  obtain ⟨a, _, h⟩ := Res.bind_eq_ok.1 h
  split at h
  · obtain rfl := Res.ok.inj h
    exact Ext.refl r
  · obtain ⟨l, _, h⟩ := Res.bind_eq_ok.1 h
    obtain ⟨q, h1, h⟩ := Res.bind_eq_ok.1 h
    split at h
    · obtain rfl := Res.ok.inj h
      exact connectEdges_ext l h1
    · obtain ⟨xs, _, h⟩ := Res.bind_eq_ok.1 h
      split at h
      · exact (connectEdges_ext l h1).trans (connectBoundary_ext h)
      · exact (connectEdges_ext l h1).trans (connectCorner_ext xs h)

theorem connectAll_ext {n : Nat} (l : List Nat) : ∀ {r r' : Run P}, connectAll n l r = .ok r' → Ext r r' := by
  induction l with
  | nil =>
    intro r r' h
    obtain rfl := Res.ok.inj h
    exact Ext.refl r
  | cons e l ih =>
    intro r r' h
    rw [connectAll] at h
    obtain ⟨r1, h1, h⟩ := Res.bind_eq_ok.1 h
    exact (connectBoth_ext h1).trans (ih h)

theorem cornerEdges_ext (n : Nat) (r r' : Run P) (h : cornerEdges n r = .ok r') : Ext r r' := by
  unfold cornerEdges at h
  obtain ⟨a, _, h⟩ := Res.bind_eq_ok.1 h
  split at h
  · obtain rfl := Res.ok.inj h
    exact Ext.refl r
  · obtain ⟨l, _, h⟩ := Res.bind_eq_ok.1 h
    split at h
    · obtain rfl := Res.ok.inj h
      exact Ext.refl r
    · exact connectAll_ext l h

theorem removeNode_ext (n : Nat) (r r' : Run P) (h : removeNode n r = .ok r') : Ext r r' := by
  unfold removeNode at h
  obtain ⟨a, _, h⟩ := Res.bind_eq_ok.1 h
  split at h
  · obtain ⟨q, h1, h⟩ := Res.bind_eq_ok.1 h
    obtain rfl := Res.ok.inj h
    exact ⟨q.1, rfl, deleteNodeU_good (as := q.1) (m' := q.2) h1⟩
  · obtain rfl := Res.ok.inj h
    exact Ext.refl r

/-- A refinement that succeeds is recorded, whatever the tables say. -/
theorem compute_good {order : Nat → List Nat → List Nat} {mid : P → P → P} {m m' : Mesh P} {t : Tables P} {sel : Nat → Bool} {as : List (Act P)}
    (h : compute order mid m t sel = .ok (as, m')) : Good m as m' := by
  unfold compute at h
  obtain ⟨mask, _, h⟩ := Res.bind_eq_ok.1 h
  obtain ⟨r, h1, h⟩ := Res.bind_eq_ok.1 h
  obtain ⟨r1, h2, h⟩ := Res.bind_eq_ok.1 h
  obtain ⟨r2, h3, h⟩ := Res.bind_eq_ok.1 h
  obtain ⟨q, h4, h⟩ := Res.bind_eq_ok.1 h
  have e := Res.ok.inj h
  simp only [Prod.mk.injEq] at e
  obtain ⟨rfl, rfl⟩ := e
  unfold computeNewNodes at h1
  obtain ⟨r0, h5, h1⟩ := Res.bind_eq_ok.1 h1
  unfold connectNewNodes at h2
  obtain ⟨a1, g1, h2⟩ := Res.bind_eq_ok.1 h2
  obtain ⟨a2, g2, h2⟩ := Res.bind_eq_ok.1 h2
  obtain ⟨a3, g3, h2⟩ := Res.bind_eq_ok.1 h2
  have hall := (forRange_ext newFaceNodes_ext h5).trans ((forRange_ext newEdgeNodes_ext h1).trans ((forRange_ext connectEdge_ext g1).trans
    ((forRange_ext connectFace_ext g2).trans ((forRange_ext missingEdges_ext g3).trans ((forRange_ext cornerEdges_ext h2).trans
      (forRange_ext removeNode_ext h3))))))
  obtain ⟨bs, k1, k2⟩ := hall
  simp only [List.nil_append] at k1
  rw [k1]
  refine k2.trans ?_
  rcases Regions.administrateU_spec order r2.mesh with ⟨c, _⟩ | ⟨cs, m1, c1, _, c3⟩
  · rw [h4] at c; cases c
  · rw [h4] at c1
    obtain rfl := Res.ok.inj c1
    exact c3

end Verif.Casulli
