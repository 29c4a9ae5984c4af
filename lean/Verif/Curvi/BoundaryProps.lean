import Verif.Curvi.BoundaryLemmas
import Verif.Curvi.IndexProps
/-!
# C36: boundary polygons of a curvilinear grid close up

A side of a face of the block is on the boundary when no other face of the block has it.  For every pattern of valid
nodes the walk ends, never follows the end iterator, and gives closed polygons whose steps run along every boundary edge
exactly once and along nothing else.
-/
namespace Verif.Curvi
variable {P : Type} [PointLike P]

/-- The polygons: closed, made of valid nodes of faces of the block, with steps along every boundary edge exactly once
and along nothing else. -/
structure Bounds (g : Grid P) (ll ur : Node) (loops : List (List Node)) : Prop where
  closed : ∀ p ∈ loops, ClosedPolygon p
  once : ∀ e, OnBoundary g ll ur e → (loops.flatMap steps).countP (fun s => decide (Along e s)) = 1
  only : ∀ s ∈ loops.flatMap steps, ∃ e, OnBoundary g ll ur e ∧ Along e s
  corner : ∀ p ∈ loops, ∀ v ∈ p, v.1 < g.numN ∧ v.2 < g.numM ∧ valid (g.node v.1 v.2) = true ∧
    ∃ f, FaceIn g ll ur f ∧ v ∈ corners f.1 f.2

theorem countP_along {es : List CEdge} {ss : List (Node × Node)} (h : List.Forall₂ Along es ss)
    (hc : ∀ e ∈ es, ltNode e.1 e.2 = true) (e : CEdge) (he : ltNode e.1 e.2 = true) :
    ss.countP (fun s => decide (Along e s)) = es.count e := by
  induction h with
  | nil => rfl
  | @cons x s es ss hx _ ih =>
    rw [List.countP_cons, List.count_cons, ih (fun y hy => hc y (List.mem_cons_of_mem _ hy))]
    congr 1
    have hiff : Along e s ↔ x = e := by
      have hx' := hc x (by simp)
      obtain ⟨⟨a, b⟩, c, d⟩ := x
      obtain ⟨⟨a', b'⟩, c', d'⟩ := e
      simp only [ltNode] at hx' he
      constructor
      · intro h2
        rcases hx with rfl | rfl <;> rcases h2 with h2 | h2
        · exact h2
        · exfalso
          simp only [Prod.mk.injEq] at h2
          obtain ⟨⟨rfl, rfl⟩, rfl, rfl⟩ := h2
          by_cases h1 : a = c
          · rw [if_pos h1] at hx'; rw [if_pos h1.symm] at he
            simp only [decide_eq_true_eq] at hx' he; omega
          · rw [if_neg h1] at hx'; rw [if_neg (fun h => h1 h.symm)] at he
            simp only [decide_eq_true_eq] at hx' he; omega
        · exfalso
          simp only [Prod.mk.injEq] at h2
          obtain ⟨⟨rfl, rfl⟩, rfl, rfl⟩ := h2
          by_cases h1 : a = c
          · rw [if_pos h1] at hx'; rw [if_pos h1.symm] at he
            simp only [decide_eq_true_eq] at hx' he; omega
          · rw [if_neg h1] at hx'; rw [if_neg (fun h => h1 h.symm)] at he
            simp only [decide_eq_true_eq] at hx' he; omega
        · simp only [Prod.mk.injEq] at h2 ⊢
          exact ⟨h2.2, h2.1⟩
      · intro h2
        rw [← h2]; exact hx
    by_cases hd : Along e s
    · simp [hd, hiff.1 hd]
    · have : x ≠ e := fun h => hd (hiff.2 h)
      simp [hd, this]

theorem sides_ltNode {e : CEdge} {n m : Nat} (h : e ∈ sides n m) : ltNode e.1 e.2 = true := by
  simp only [sides, List.mem_cons, List.not_mem_nil, or_false] at h
  rcases h with rfl | rfl | rfl | rfl <;> simp [ltNode]

theorem corner_valid {g : Grid P} {n m : Nat} (h : faceValid g n m = true) {v : Node} (hv : v ∈ corners n m) :
    valid (g.node v.1 v.2) = true := by
  simp only [faceValid, Bool.and_eq_true] at h
  obtain ⟨⟨⟨h1, h2⟩, h3⟩, h4⟩ := h
  simp only [corners, List.mem_cons, List.not_mem_nil, or_false] at hv
  rcases hv with rfl | rfl | rfl | rfl <;> assumption

theorem corner_le {n m : Nat} {v : Node} (hv : v ∈ corners n m) : v.1 ≤ n + 1 ∧ v.2 ≤ m + 1 := by
  simp only [corners, List.mem_cons, List.not_mem_nil, or_false] at hv
  rcases hv with rfl | rfl | rfl | rfl <;> simp

/-- **C36**: for every block inside the grid and every pattern of valid nodes the call succeeds and returns the
polygons that bound the faces of the block, with one missing point between polygons. -/
theorem boundary_polygons (g : Grid P) (ll ur : Node) (hn : ur.1 < g.numN) (hm : ur.2 < g.numM) :
    ∃ loops : List (List Node), Bounds g ll ur loops ∧
      computeBoundaryPolygons g ll ur = .ok (separated inv (loops.map (List.map (fun v => g.node v.1 v.2)))) := by
  obtain ⟨l, h1, h2, h3, h4⟩ := boundaryEdges_spec g (ll := ll) hn hm
  have hside : ∀ e ∈ l, ∃ f, FaceIn g ll ur f ∧ e ∈ sides f.1 f.2 := by
    intro e he
    obtain ⟨f, hf, hs, _⟩ := (h3 e).1 he
    exact ⟨f, hf, hs⟩
  obtain ⟨loops, es, k1, k2, k3, k4, _⟩ := walks_ok (l.length + 1) l (by omega)
    (fun e he => by obtain ⟨f, _, hs⟩ := hside e he; exact sides_ne hs)
    (fun v => by have := h4 v; simp [odd, this])
  have hsteps : ∀ s ∈ loops.flatMap steps, ∃ e ∈ l, Along e s := by
    intro s hs
    obtain ⟨i, hi, rfl⟩ := List.mem_iff_getElem.1 hs
    have hlen := k4.length_eq
    exact ⟨es[i]'(by omega), k3.symm.subset (List.getElem_mem _), List.forall₂_iff_get.1 k4 |>.2 i (by omega) hi⟩
  have hcorner : ∀ p ∈ loops, ∀ v ∈ p, v.1 < g.numN ∧ v.2 < g.numM ∧ valid (g.node v.1 v.2) = true ∧
      ∃ f, FaceIn g ll ur f ∧ v ∈ corners f.1 f.2 := by
    intro p hp v hv
    have hlen : 2 ≤ p.length := by
      obtain ⟨a, mid, _, rfl⟩ := k2 p hp
      simp
    obtain ⟨s, hs, hsv⟩ := mem_steps hv hlen
    obtain ⟨e, he, hal⟩ := hsteps s (List.mem_flatMap.2 ⟨p, hp, hs⟩)
    obtain ⟨f, hf, hes⟩ := hside e he
    have hve : e.1 = v ∨ e.2 = v := by
      rcases hal with rfl | rfl
      · exact hsv
      · exact hsv.symm
    have hc := sides_ends hes hve
    have := corner_le hc
    have hf' := hf
    obtain ⟨⟨_, a⟩, ⟨_, b⟩, c⟩ := hf'
    exact ⟨by omega, by omega, corner_valid c hc, f, hf, hc⟩
  refine ⟨loops, ⟨k2, ?_, ?_, hcorner⟩, ?_⟩
  · intro e he
    have hel := (h3 e).2 he
    obtain ⟨f, _, hes⟩ := hside e hel
    rw [countP_along k4 (fun x hx => by
      obtain ⟨f, _, hs⟩ := hside x (k3.symm.subset hx)
      exact sides_ltNode hs) e (sides_ltNode hes), ← k3.count_eq]
    exact List.count_eq_one_of_mem h2 hel
  · intro s hs
    obtain ⟨e, he, hal⟩ := hsteps s hs
    exact ⟨e, (h3 e).1 he, hal⟩
  · unfold computeBoundaryPolygons
    rw [h1, Res.ok_bind, k1, Res.ok_bind, pointsOf_ok]
    · rw [map_separated, List.map_map]
      congr 3
      funext p
      simp only [Function.comp_apply, List.map_map]
      congr 1
    · intro v hv
      rcases mem_separated hv with h | ⟨q, hq, hx⟩
      · cases h
      · obtain ⟨p, hp, rfl⟩ := List.mem_map.1 hq
        obtain ⟨w, hw, hwv⟩ := List.mem_map.1 hx
        obtain rfl := Option.some.inj hwv
        have := hcorner p hp w hw
        exact ⟨this.1, this.2.1⟩

/-- Nothing is returned exactly when no face of the block is valid. -/
theorem boundary_polygons_empty_iff (g : Grid P) (ll ur : Node) (hn : ur.1 < g.numN) (hm : ur.2 < g.numM) :
    computeBoundaryPolygons g ll ur = .ok [] ↔ ∀ f, ¬ FaceIn g ll ur f := by
  obtain ⟨loops, hb, he⟩ := boundary_polygons g ll ur hn hm
  constructor
  · intro h f hf
    -- the lowest valid face in the order of the rows has its first side on the boundary
    have hex : ∃ n, ∃ m, FaceIn g ll ur (n, m) := ⟨f.1, f.2, hf⟩
    classical
    obtain ⟨m, hm'⟩ := Nat.find_spec hex
    have hmin : ∀ n' m', FaceIn g ll ur (n', m') → Nat.find hex ≤ n' := fun n' m' h' => Nat.find_min' hex ⟨m', h'⟩
    have hon : OnBoundary g ll ur ((Nat.find hex, m), (Nat.find hex, m + 1)) := by
      refine ⟨_, hm', by simp [sides], ?_⟩
      rintro ⟨a, b⟩ hf' hs
      have := hmin a b hf'
      simp only [sides, List.mem_cons, List.not_mem_nil, or_false, Prod.mk.injEq] at hs
      simp only [Prod.mk.injEq]
      omega
    have h1 := hb.once _ hon
    rw [he] at h
    have h2 := Res.ok.inj h
    cases loops with
    | nil => simp at h1
    | cons p loops =>
      obtain ⟨a, mid, _, rfl⟩ := hb.closed p (by simp)
      cases loops <;> simp [separated] at h2
  · intro hno
    rw [he]
    cases loops with
    | nil => rfl
    | cons p loops =>
      obtain ⟨a, mid, _, hp⟩ := hb.closed p (by simp)
      obtain ⟨_, _, _, f, hf, _⟩ := hb.corner p (by simp) a (by rw [hp]; simp)
      exact absurd hf (hno f)

/-- Through the interface the corners of the block may be given in any order; the grid must not be empty. -/
theorem api_boundary_polygons (g : Grid P) (an am bn bm : Nat) (hv : g.isValid = true) (ha : an < g.numN) (hb : bn < g.numN)
    (hc : am < g.numM) (hd : bm < g.numM) :
    ∃ loops : List (List Node), Bounds g (min an bn, min am bm) (max an bn, max am bm) loops ∧
      apiBoundaryPolygons g an am bn bm = .ok (separated inv (loops.map (List.map (fun v => g.node v.1 v.2)))) := by
  unfold apiBoundaryPolygons
  rw [hv]
  exact boundary_polygons g _ _ (by simp only; omega) (by simp only; omega)

/-! ### Examples -/

/-- Two faces that meet in one corner, and one more apart from them. -/
def diagonalGrid : Grid (Option Nat) :=
  { rows := 3, cols := 5, cell := fun n m => if (n = 2 ∧ m = 0) ∨ (n = 0 ∧ m = 2) ∨ (n = 0 ∧ 3 ≤ m) then none else some (10 * n + m),
    sn := 0, sm := 0, en := 0, em := 0 }

example : computeBoundaryPolygons diagonalGrid (0, 0) (2, 2) =
    .ok [some 0, some 1, some 11, some 10, some 0, none, some 11, some 12, some 22, some 21, some 11] := by decide +kernel

example : (2 : Nat) < diagonalGrid.numN ∧ (4 : Nat) < diagonalGrid.numM := by decide

/-- Removed lines of a grid: the bound of a block is compared with the number of stored lines, so a block may reach into
lines that have been removed. -/
theorem block_reaches_removed_line :
    ∃ g : Grid (Option Nat), WF g ∧ g.isValid = true ∧ g.numN = 2 ∧ g.numM = 2 ∧
      apiBoundaryPolygons g 0 0 2 1 = .ok [some 0, some 1, some 11, some 21, some 20, some 10, some 0] ∧
      apiBoundaryPolygons { g with cell := fun n m => if n = 2 then none else g.cell n m } 0 0 2 1 =
        .ok [some 0, some 1, some 11, some 10, some 0] :=
  ⟨{ rows := 3, cols := 2, cell := fun n m => some (10 * n + m), sn := 0, sm := 0, en := 1, em := 0 },
    ⟨by decide, by decide⟩, by decide, by decide, by decide, by decide +kernel, by decide +kernel⟩

end Verif.Curvi
