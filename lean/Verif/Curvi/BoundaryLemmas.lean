import Verif.Curvi.BoundarySpec
import Mathlib.Data.List.Nodup
import Mathlib.Data.List.Perm.Subperm
/-!
# Lemmas about boundary polygons
-/
namespace Verif.Curvi

/-! ### Sets of edges -/

theorem insertEdge_perm (e : CEdge) : ∀ l, (insertEdge e l).Perm (e :: l) := by
  intro l
  induction l with
  | nil => exact .refl _
  | cons x xs ih =>
    unfold insertEdge
    split
    · exact .refl _
    · exact (ih.cons x).trans (.swap e x xs)

theorem toggle_nodup {l : List CEdge} (h : l.Nodup) (e : CEdge) : (toggle l e).Nodup := by
  unfold toggle
  split
  · exact h.erase e
  · next hn => exact (insertEdge_perm e l).nodup_iff.2 (List.nodup_cons.2 ⟨hn, h⟩)

theorem toggle_countP (l : List CEdge) (e : CEdge) (p : CEdge → Bool) :
    ((toggle l e).countP p) % 2 = (l.countP p + [e].countP p) % 2 := by
  unfold toggle
  split
  · next hm =>
    have h := (List.perm_cons_erase hm).countP_eq p
    rw [List.countP_cons] at h
    rw [List.countP_singleton]
    split at h <;> simp_all <;> omega
  · have h := (insertEdge_perm e l).countP_eq p
    rw [h, List.countP_cons, List.countP_singleton]

theorem foldl_toggle (es : List CEdge) : ∀ l : List CEdge, l.Nodup →
    (es.foldl toggle l).Nodup ∧ ∀ p : CEdge → Bool, ((es.foldl toggle l).countP p) % 2 = (l.countP p + es.countP p) % 2 := by
  induction es with
  | nil => intro l h; exact ⟨h, by simp⟩
  | cons e es ih =>
    intro l h
    obtain ⟨h1, h2⟩ := ih (toggle l e) (toggle_nodup h e)
    refine ⟨h1, fun p => ?_⟩
    rw [List.foldl_cons, h2 p]
    have := toggle_countP l e p
    rw [List.countP_singleton] at this
    rw [List.countP_cons]
    omega

theorem toggleSides_eq (n m : Nat) (l : List CEdge) : toggleSides n m l = (sides n m).foldl toggle l := by
  have e1 : mkEdge (n, m) (n, m + 1) = ((n, m), (n, m + 1)) := by simp [mkEdge, ltNode]
  have e2 : mkEdge (n, m + 1) (n + 1, m + 1) = ((n, m + 1), (n + 1, m + 1)) := by simp [mkEdge, ltNode]
  have e3 : mkEdge (n + 1, m + 1) (n + 1, m) = ((n + 1, m), (n + 1, m + 1)) := by simp [mkEdge, ltNode]
  have e4 : mkEdge (n + 1, m) (n, m) = ((n, m), (n + 1, m)) := by simp [mkEdge, ltNode]
  have hr : List.range 4 = [0, 1, 2, 3] := rfl
  unfold toggleSides sides
  rw [hr]
  simp only [List.foldl_cons, List.foldl_nil]
  simp only [corners, List.getD_cons_zero, List.getD_cons_succ, Nat.reduceAdd, Nat.reduceMod, e1, e2, e3, e4]

theorem sides_nodup (n m : Nat) : (sides n m).Nodup := by
  simp [sides]

/-- Every node is an end of an even number of sides of a face. -/
theorem sides_even (n m : Nat) (v : Node) : ((sides n m).countP (hasEnd v)) % 2 = 0 := by
  obtain ⟨a, b⟩ := v
  simp only [sides, List.countP_cons, List.countP_nil, hasEnd, Bool.or_eq_true, decide_eq_true_eq, Prod.mk.injEq]
  by_cases h1 : n = a <;> by_cases h2 : m = b <;> by_cases h3 : n + 1 = a <;> by_cases h4 : m + 1 = b <;> simp [h1, h2, h3, h4]

/-! ### Boundary edges -/
variable {P : Type} [PointLike P]

theorem allValid_corners (g : Grid P) {n m : Nat} (hn : n + 1 < g.numN) (hm : m + 1 < g.numM) :
    allValid g (corners n m) = .ok (faceValid g n m) := by
  unfold corners
  simp only [allValid]
  rw [getNode_ok (by omega) (by omega), getNode_ok (by omega) hm, getNode_ok hn hm, getNode_ok hn (by omega)]
  simp only [Res.ok_bind]
  unfold faceValid
  cases valid (g.node n m) <;> cases valid (g.node n (m + 1)) <;> cases valid (g.node (n + 1) (m + 1)) <;>
    cases valid (g.node (n + 1) m) <;> rfl

theorem boundaryFace_ok (g : Grid P) {n m : Nat} (hn : n + 1 < g.numN) (hm : m + 1 < g.numM) (l : List CEdge) :
    boundaryFace g n m l = .ok (((if faceValid g n m then sides n m else []) : List CEdge).foldl toggle l) := by
  unfold boundaryFace
  rw [allValid_corners g hn hm, Res.ok_bind]
  cases faceValid g n m
  · rfl
  · simp only [if_true]; rw [toggleSides_eq]

/-- The valid faces of a part of the block, as the code visits them. -/
def facesList (g : Grid P) (ll : Node) (N M : Nat) : List (Nat × Nat) :=
  (List.range' ll.1 N).flatMap (fun n => ((List.range' ll.2 M).filter (faceValid g n)).map (fun m => (n, m)))

/-- The sides of a row of faces. -/
def rowSides (g : Grid P) (n lo k : Nat) : List CEdge :=
  ((List.range' lo k).filter (faceValid g n)).flatMap (fun m => sides n m)

theorem row_ok (g : Grid P) {n lo hi : Nat} (hn : n + 1 < g.numN) (hm : hi < g.numM) (l : List CEdge) :
    forRange lo hi (boundaryFace g n) l = .ok ((rowSides g n lo (hi - lo)).foldl toggle l) := by
  by_cases hle : lo ≤ hi
  · have h := forRange_eq (f := boundaryFace g n) (fun m => (rowSides g n lo (m - lo)).foldl toggle l) hle (by
      intro i h1 h2
      rw [boundaryFace_ok g hn (by omega), ← List.foldl_append]
      congr 2
      have e : i + 1 - lo = (i - lo) + 1 := by omega
      unfold rowSides
      rw [e, List.range'_concat]
      have e2 : lo + 1 * (i - lo) = i := by omega
      rw [e2, List.filter_append, List.flatMap_append]
      congr 1
      simp only [List.filter_cons, List.filter_nil]
      cases faceValid g n i <;> simp)
    simpa [rowSides] using h
  · rw [forRange_empty (by omega)]
    have : hi - lo = 0 := by omega
    rw [this]
    simp [rowSides]

theorem computeBoundaryEdges_ok (g : Grid P) {ll ur : Node} (hn : ur.1 < g.numN) (hm : ur.2 < g.numM) :
    computeBoundaryEdges g ll ur =
      .ok (((facesList g ll (ur.1 - ll.1) (ur.2 - ll.2)).flatMap (fun f => sides f.1 f.2)).foldl toggle []) := by
  have key : ∀ k, (facesList g ll k (ur.2 - ll.2)).flatMap (fun f => sides f.1 f.2) =
      (List.range' ll.1 k).flatMap (fun n => rowSides g n ll.2 (ur.2 - ll.2)) := by
    intro k
    unfold facesList rowSides
    rw [List.flatMap_assoc]
    congr 1
    funext n
    rw [List.flatMap_map]
  rw [key]
  unfold computeBoundaryEdges
  by_cases hle : ll.1 ≤ ur.1
  · have h := forRange_eq (f := fun n => forRange ll.2 ur.2 (boundaryFace g n))
      (fun n => ((List.range' ll.1 (n - ll.1)).flatMap (fun n => rowSides g n ll.2 (ur.2 - ll.2))).foldl toggle []) hle (by
      intro i h1 h2
      rw [row_ok g (by omega) hm, ← List.foldl_append]
      congr 2
      have e : i + 1 - ll.1 = (i - ll.1) + 1 := by omega
      rw [e, List.range'_concat]
      have e2 : ll.1 + 1 * (i - ll.1) = i := by omega
      rw [e2, List.flatMap_append]
      simp)
    simpa using h
  · rw [forRange_empty (by omega)]
    have : ur.1 - ll.1 = 0 := by omega
    rw [this]
    simp

theorem mem_facesList {g : Grid P} {ll ur : Node} {f : Nat × Nat} :
    f ∈ facesList g ll (ur.1 - ll.1) (ur.2 - ll.2) ↔ FaceIn g ll ur f := by
  obtain ⟨a, b⟩ := f
  unfold facesList FaceIn
  simp only [List.mem_flatMap, List.mem_map, List.mem_filter, List.mem_range'_1, Prod.mk.injEq]
  constructor
  · rintro ⟨n, hn, m, ⟨hm, hv⟩, rfl, rfl⟩
    exact ⟨by omega, by omega, hv⟩
  · rintro ⟨h1, h2, h3⟩
    exact ⟨a, by omega, b, ⟨by omega, h3⟩, rfl, rfl⟩

theorem facesList_nodup (g : Grid P) (ll : Node) (N M : Nat) : (facesList g ll N M).Nodup := by
  unfold facesList
  rw [List.nodup_flatMap]
  constructor
  · intro n _
    refine (List.Nodup.filter _ List.nodup_range').map ?_
    intro a b h
    simpa using h
  · refine List.Pairwise.imp ?_ (List.nodup_range' (s := ll.1) (n := N) (step := 1))
    intro a b hab x hx hy
    simp only [List.mem_map, List.mem_filter] at hx hy
    obtain ⟨_, _, rfl⟩ := hx
    obtain ⟨_, _, h⟩ := hy
    exact hab (Prod.mk.inj h).1.symm

/-- The two faces that can have the edge as a side. -/
def candidates (e : CEdge) : List (Nat × Nat) :=
  if e.1.1 = e.2.1 then [e.1, (e.1.1 - 1, e.1.2)] else [e.1, (e.1.1, e.1.2 - 1)]

theorem mem_candidates {e : CEdge} {f : Nat × Nat} (h : e ∈ sides f.1 f.2) : f ∈ candidates e := by
  obtain ⟨a, b⟩ := f
  simp only [sides, List.mem_cons, List.not_mem_nil, or_false] at h
  rcases h with rfl | rfl | rfl | rfl <;> simp [candidates]

theorem candidates_length (e : CEdge) : (candidates e).length = 2 := by
  unfold candidates; split <;> rfl

/-- What the set of boundary edges is, and that every node has an even number of them. -/
theorem boundaryEdges_spec (g : Grid P) {ll ur : Node} (hn : ur.1 < g.numN) (hm : ur.2 < g.numM) :
    ∃ l, computeBoundaryEdges g ll ur = .ok l ∧ l.Nodup ∧ (∀ e, e ∈ l ↔ OnBoundary g ll ur e) ∧
      ∀ v, (l.countP (hasEnd v)) % 2 = 0 := by
  refine ⟨_, computeBoundaryEdges_ok g hn hm, ?_⟩
  generalize hF : facesList g ll (ur.1 - ll.1) (ur.2 - ll.2) = F
  have hmem : ∀ f, f ∈ F ↔ FaceIn g ll ur f := by rw [← hF]; exact fun f => mem_facesList
  have hnd : F.Nodup := by rw [← hF]; exact facesList_nodup _ _ _ _
  obtain ⟨h1, h2⟩ := foldl_toggle (F.flatMap (fun f => sides f.1 f.2)) [] (by simp)
  simp only [List.countP_nil, Nat.zero_add] at h2
  refine ⟨h1, ?_, ?_⟩
  · intro e
    have h3 := h2 (fun x => x == e)
    have h4 : ∀ L : List (Nat × Nat), (L.flatMap (fun f => sides f.1 f.2)).countP (fun x => x == e) =
        (L.filter (fun f => decide (e ∈ sides f.1 f.2))).length := by
      intro L
      induction L with
      | nil => rfl
      | cons f L ih =>
        rw [List.flatMap_cons, List.countP_append, ih]
        have : (sides f.1 f.2).countP (fun x => x == e) = if e ∈ sides f.1 f.2 then 1 else 0 := by
          have := List.Nodup.count (a := e) (sides_nodup f.1 f.2)
          rw [List.count] at this
          exact this
        rw [this, List.filter_cons]
        by_cases hc : e ∈ sides f.1 f.2
        · simp [hc]; omega
        · simp [hc]
    rw [h4] at h3
    have h5 : ((F.flatMap fun f => sides f.1 f.2).foldl toggle []).countP (fun x => x == e) =
        if e ∈ (F.flatMap fun f => sides f.1 f.2).foldl toggle [] then 1 else 0 := by
      have := List.Nodup.count (a := e) h1
      rw [List.count] at this
      exact this
    rw [h5] at h3
    generalize hG : F.filter (fun f => decide (e ∈ sides f.1 f.2)) = G at h3
    have hGm : ∀ f, f ∈ G ↔ FaceIn g ll ur f ∧ e ∈ sides f.1 f.2 := by
      intro f; rw [← hG, List.mem_filter, hmem]; simp
    have hGnd : G.Nodup := by rw [← hG]; exact hnd.filter _
    have hGl : G.length ≤ 2 := by
      have := (hGnd.subperm (l₂ := candidates e) (fun f hf => mem_candidates ((hGm f).1 hf).2)).length_le
      rwa [candidates_length] at this
    match G, hGm, hGnd, hGl with
    | [], hGm, _, _ =>
      constructor
      · intro hin; rw [if_pos hin] at h3; simp at h3
      · rintro ⟨f, hf, hs, _⟩; exact absurd ((hGm f).2 ⟨hf, hs⟩) (by simp)
    | [f], hGm, _, _ =>
      constructor
      · intro _
        have := (hGm f).1 (by simp)
        exact ⟨f, this.1, this.2, fun f' h h' => by simpa using (hGm f').2 ⟨h, h'⟩⟩
      · intro _
        by_contra hc; rw [if_neg hc] at h3; simp at h3
    | [f, f'], hGm, hGnd, _ =>
      constructor
      · intro hin; rw [if_pos hin] at h3; simp at h3
      · rintro ⟨k, _, _, hu⟩
        have a := hu f ((hGm f).1 (by simp)).1 ((hGm f).1 (by simp)).2
        have b := hu f' ((hGm f').1 (by simp)).1 ((hGm f').1 (by simp)).2
        simp [a, b] at hGnd
    | _ :: _ :: _ :: _, _, _, hGl => simp at hGl
  · intro v
    rw [h2]
    have : ∀ L : List (Nat × Nat), ((L.flatMap (fun f => sides f.1 f.2)).countP (hasEnd v)) % 2 = 0 := by
      intro L
      induction L with
      | nil => rfl
      | cons f L ih =>
        rw [List.flatMap_cons, List.countP_append]
        have := sides_even f.1 f.2 v
        omega
    exact this F

/-! ### Walks -/

theorem Along.flip_or (e : CEdge) (v : Node) (h : hasEnd v e = true) : Along e (v, otherEnd e v) := by
  obtain ⟨a, b⟩ := e
  simp only [hasEnd, Bool.or_eq_true, decide_eq_true_eq] at h
  unfold Along otherEnd
  by_cases hc : a = v
  · subst hc; simp
  · rcases h with h | h
    · exact absurd h hc
    · subst h; simp [hc]

/-- The number of edges at a node is odd. -/
def odd (l : List CEdge) (v : Node) : Bool := decide (l.countP (hasEnd v) % 2 = 1)

theorem odd_cons (e : CEdge) (l : List CEdge) (v : Node) (hne : e.1 ≠ e.2) :
    odd (e :: l) v = (odd l v ^^ (decide (v = e.1) ^^ decide (v = e.2))) := by
  unfold odd
  rw [List.countP_cons]
  have e1 : hasEnd v e = (decide (v = e.1) || decide (v = e.2)) := by
    simp only [hasEnd, eq_comm]
  rw [e1]
  by_cases h1 : v = e.1
  · have h2 : v ≠ e.2 := fun h => hne (h1 ▸ h)
    have h1' : e.1 = v := h1.symm
    simp only [h1', h2, decide_true, decide_false, Bool.or_false, Bool.xor_false, if_true, Bool.xor_true]
    by_cases hp : l.countP (hasEnd v) % 2 = 1
    · have : (l.countP (hasEnd v) + 1) % 2 ≠ 1 := by omega
      simp [hp, this]
    · have : (l.countP (hasEnd v) + 1) % 2 = 1 := by omega
      simp [hp, this]
  · by_cases h2 : v = e.2
    · have h2' : e.2 = v := h2.symm
      simp only [h1, h2', decide_true, decide_false, Bool.false_or, if_true, Bool.xor_true]
      by_cases hp : l.countP (hasEnd v) % 2 = 1
      · have : (l.countP (hasEnd v) + 1) % 2 ≠ 1 := by omega
        simp [hp, this]
      · have : (l.countP (hasEnd v) + 1) % 2 = 1 := by omega
        simp [hp, this]
    · simp [h1, h2]

theorem odd_perm {l k : List CEdge} (h : l.Perm k) (v : Node) : odd l v = odd k v := by
  unfold odd; rw [h.countP_eq]

/-- Steps along the edges of a list, in order. -/
def Traverses (es : List CEdge) (ns : List Node) : Prop := List.Forall₂ Along es (steps ns)

theorem walk_ok (start : Node) : ∀ (k : Nat) (shared : Node) (cur : CEdge) (l : List CEdge), cur ∈ l → l.length ≤ k →
    (∀ e ∈ l, e.1 ≠ e.2) → (∀ v, odd (l.erase cur) v = (decide (v = start) ^^ decide (v = shared))) →
    ∃ tl rest es, walk start k shared cur l = .ok (shared :: tl, rest) ∧ (l.erase cur).Perm (es ++ rest) ∧
      Traverses es (shared :: tl) ∧ (shared :: tl).getLast? = some start ∧ ∀ v, odd rest v = false := by
  intro k
  induction k with
  | zero =>
    intro shared cur l hm hl
    have : 0 < l.length := List.length_pos_of_mem hm
    omega
  | succ k ih =>
    intro shared cur l hm hl hne hodd
    simp only [walk]
    by_cases hs : shared = start
    · rw [if_pos hs]
      subst hs
      refine ⟨[], l.erase cur, [], rfl, by simp, List.Forall₂.nil, rfl, fun v => ?_⟩
      rw [hodd]; simp
    · rw [if_neg hs]
      have ho : odd (l.erase cur) shared = true := by
        rw [hodd]; simp [hs]
      obtain ⟨e, hf⟩ : ∃ e, (l.erase cur).find? (hasEnd shared) = some e := by
        cases hf : (l.erase cur).find? (hasEnd shared) with
        | some e => exact ⟨e, rfl⟩
        | none =>
          exfalso
          rw [List.find?_eq_none] at hf
          have : (l.erase cur).countP (hasEnd shared) = 0 := List.countP_eq_zero.2 hf
          simp [odd, this] at ho
      rw [hf]
      simp only
      have he := List.mem_of_find?_eq_some hf
      have hend : hasEnd shared e = true := List.find?_some hf
      have hlen := List.length_erase_of_mem hm
      have hne' : ∀ x ∈ l.erase cur, x.1 ≠ x.2 := fun x hx => hne x (List.mem_of_mem_erase hx)
      obtain ⟨tl, rest, es, h1, h2, h3, h4, h5⟩ := ih (otherEnd e shared) e (l.erase cur) he (by omega) hne' (by
        intro v
        have hp := odd_perm (List.perm_cons_erase he) v
        rw [odd_cons e _ v (hne' e he), hodd v] at hp
        have hx : (decide (v = e.1) ^^ decide (v = e.2)) = (decide (v = shared) ^^ decide (v = otherEnd e shared)) := by
          simp only [hasEnd, Bool.or_eq_true, decide_eq_true_eq] at hend
          unfold otherEnd
          by_cases hc : e.1 = shared
          · rw [if_pos hc, hc]
          · rw [if_neg hc]
            have := hend.resolve_left hc
            rw [this, Bool.xor_comm]
        rw [hx] at hp
        revert hp
        generalize odd ((l.erase cur).erase e) v = a
        generalize decide (v = start) = b
        generalize decide (v = shared) = c
        generalize decide (v = otherEnd e shared) = d
        revert a b c d
        decide)
      rw [h1, Res.ok_bind]
      refine ⟨otherEnd e shared :: tl, rest, e :: es, rfl, ?_, ?_, ?_, h5⟩
      · exact (List.perm_cons_erase he).trans (h2.cons e)
      · unfold Traverses at h3 ⊢
        simp only [steps]
        exact List.Forall₂.cons (Along.flip_or e shared hend) h3
      · rw [List.getLast?_cons_cons]; exact h4

theorem walks_ok : ∀ (k : Nat) (l : List CEdge), l.length < k → (∀ e ∈ l, e.1 ≠ e.2) → (∀ v, odd l v = false) →
    ∃ (loops : List (List Node)) (es : List CEdge), walks k l = .ok (separated none (loops.map (List.map some))) ∧
      (∀ p ∈ loops, ClosedPolygon p) ∧ l.Perm es ∧ List.Forall₂ Along es (loops.flatMap steps) ∧ (l = [] → loops = []) := by
  intro k
  induction k with
  | zero => intro l h; omega
  | succ k ih =>
    intro l hl hne hodd
    cases l with
    | nil => exact ⟨[], [], rfl, by simp, .refl _, .nil, fun _ => rfl⟩
    | cons e l =>
      simp only [walks]
      have hee := hne e (by simp)
      obtain ⟨tl, rest, es, h1, h2, h3, h4, h5⟩ := walk_ok e.1 (l.length + 1) e.2 e (e :: l) (by simp) (by simp) hne (by
        intro v
        have := odd_cons e l v hee
        rw [hodd v] at this
        rw [List.erase_cons_head]
        revert this
        generalize odd l v = a
        generalize decide (v = e.1) = b
        generalize decide (v = e.2) = c
        revert a b c
        decide)
      rw [List.erase_cons_head] at h2
      rw [h1, Res.ok_bind]
      have hcl : ClosedPolygon (e.1 :: e.2 :: tl) := by
        cases tl with
        | nil =>
          simp at h4
          exact absurd h4.symm hee
        | cons t tl =>
          refine ⟨e.1, e.2 :: (t :: tl).dropLast, by simp, ?_⟩
          rw [List.getLast?_cons_cons] at h4
          have h6 : (t :: tl).getLast (by simp) = e.1 := by
            rw [List.getLast?_eq_some_getLast (by simp)] at h4
            exact Option.some.inj h4
          have h7 := List.dropLast_concat_getLast (l := t :: tl) (by simp)
          rw [h6] at h7
          simp only [List.cons_append, h7]
      have htr : List.Forall₂ Along (e :: es) (steps (e.1 :: e.2 :: tl)) := by
        simp only [steps]
        exact .cons (.inl rfl) h3
      cases rest with
      | nil =>
        refine ⟨[e.1 :: e.2 :: tl], e :: es, rfl, by simpa using hcl, ?_, by simpa using htr, by simp⟩
        rw [List.append_nil] at h2
        exact h2.cons e
      | cons r rest =>
        simp only
        have hsub : ∀ x ∈ r :: rest, x ∈ l := fun x hx => h2.symm.subset (List.mem_append_right _ hx)
        have hlen := h2.length_eq
        obtain ⟨loops, es2, k1, k2, k3, k4, _⟩ := ih (r :: rest) (by
          simp only [List.length_append, List.length_cons] at hlen hl ⊢; omega)
          (fun x hx => hne x (List.mem_cons_of_mem _ (hsub x hx))) h5
        cases loops with
        | nil =>
          exfalso
          have := k4.length_eq
          simp at this
          rw [this] at k3
          have := k3.length_eq
          simp at this
        | cons p loops =>
          refine ⟨(e.1 :: e.2 :: tl) :: p :: loops, e :: (es ++ es2), ?_, ?_, ?_, ?_, by simp⟩
          · rw [k1, Res.ok_bind]
            simp only [List.map_cons, separated]
          · intro q hq
            rcases List.mem_cons.1 hq with rfl | hq
            · exact hcl
            · exact k2 q hq
          · exact (h2.trans (List.Perm.append_left es k3)).cons e
          · rw [List.flatMap_cons, ← List.cons_append]
            exact List.rel_append htr k4

/-! ### Points -/

theorem pointsOf_ok (g : Grid P) : ∀ vs : List (Option Node), (∀ v, some v ∈ vs → v.1 < g.numN ∧ v.2 < g.numM) →
    pointsOf g vs = .ok (vs.map (fun o => match o with | none => inv | some v => g.node v.1 v.2)) := by
  intro vs
  induction vs with
  | nil => intro _; rfl
  | cons o vs ih =>
    intro h
    have ih' := ih (fun v hv => h v (List.mem_cons_of_mem _ hv))
    cases o with
    | none => simp only [pointsOf]; rw [ih', Res.ok_bind]; rfl
    | some v =>
      simp only [pointsOf]
      have := h v (by simp)
      rw [getNode_ok this.1 this.2, Res.ok_bind, ih', Res.ok_bind]
      rfl

theorem map_separated {α β : Type} (f : α → β) (s : α) : ∀ ls : List (List α),
    (separated s ls).map f = separated (f s) (ls.map (List.map f)) := by
  intro ls
  induction ls with
  | nil => rfl
  | cons l ls ih =>
    cases ls with
    | nil => rfl
    | cons k ls =>
      simp only [separated, List.map_append, List.map_cons]
      rw [ih]
      simp

theorem mem_separated {α : Type} {s x : α} : ∀ {ls : List (List α)}, x ∈ separated s ls → x = s ∨ ∃ l ∈ ls, x ∈ l := by
  intro ls
  induction ls with
  | nil => intro h; simp [separated] at h
  | cons l ls ih =>
    intro h
    cases ls with
    | nil => exact .inr ⟨l, by simp, h⟩
    | cons k ls =>
      simp only [separated, List.mem_append, List.mem_cons] at h
      rcases h with h | h | h
      · exact .inr ⟨l, by simp, h⟩
      · exact .inl h
      · rcases ih h with h | ⟨q, hq, hx⟩
        · exact .inl h
        · exact .inr ⟨q, List.mem_cons_of_mem _ hq, hx⟩

/-- Every node of a polygon with at least two nodes is in a step. -/
theorem mem_steps {α : Type} : ∀ {l : List α} {x : α}, x ∈ l → 2 ≤ l.length → ∃ s ∈ steps l, s.1 = x ∨ s.2 = x := by
  intro l
  induction l with
  | nil => intro x h; simp at h
  | cons a l ih =>
    intro x h hl
    cases l with
    | nil => simp at hl
    | cons b l =>
      rcases List.mem_cons.1 h with rfl | h
      · exact ⟨(x, b), by simp [steps], .inl rfl⟩
      · cases l with
        | nil => simp at h; subst h; exact ⟨(a, x), by simp [steps], .inr rfl⟩
        | cons c l =>
          obtain ⟨s, hs, hx⟩ := ih h (by simp)
          exact ⟨s, by simp only [steps] at hs ⊢; exact List.mem_cons_of_mem _ hs, hx⟩

theorem sides_ne {e : CEdge} {n m : Nat} (h : e ∈ sides n m) : e.1 ≠ e.2 := by
  simp only [sides, List.mem_cons, List.not_mem_nil, or_false] at h
  rcases h with rfl | rfl | rfl | rfl <;> simp

theorem sides_ends {e : CEdge} {n m : Nat} (h : e ∈ sides n m) {v : Node} (hv : e.1 = v ∨ e.2 = v) : v ∈ corners n m := by
  simp only [sides, List.mem_cons, List.not_mem_nil, or_false] at h
  rcases h with rfl | rfl | rfl | rfl <;> rcases hv with rfl | rfl <;> simp [corners]

end Verif.Curvi
