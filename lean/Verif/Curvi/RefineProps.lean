import Verif.Curvi.RefineLemmas
/-!
# C21: refinement and de-refinement of curvilinear grids

The theorems about `refine` and `fullRefine` are for grids without hidden rows or columns (`Plain`), the state of every
grid made through the API; what happens otherwise is shown by the counterexamples at the end.
-/
namespace Verif.Curvi
variable {P : Type} [PointLike P]

/-- Where line `n` goes when every cell between lines `lo` and `up` is cut into `ref` parts. -/
def newIndex (lo up ref n : Nat) : Nat :=
  if n ≤ lo then n else if n ≤ up then lo + ref * (n - lo) else n + (ref - 1) * (up - lo)

/-- `g'` is `g` with its lines moved to `newN`, `newM` and new lines put in between. Nodes that belong to no valid cell
disappear. -/
structure Refined (g g' : Grid P) (newN newM : Nat → Nat) : Prop where
  plain : Plain g'
  numN : g'.numN = newN (g.numN - 1) + 1
  numM : g'.numM = newM (g.numM - 1) + 1
  keeps : ∀ n m, n < g.numN → m < g.numM → InFace g n m → g'.node (newN n) (newM m) = g.node n m
  drops : ∀ n m, n < g.numN → m < g.numM → ¬ InFace g n m → g'.node (newN n) (newM m) = inv

/-- The valid cells of `g'` are the parts of the valid cells of `g`. -/
def CellsCut (g g' : Grid P) (newN newM : Nat → Nat) : Prop :=
  ∀ n m i j, n + 1 < g.numN → m + 1 < g.numM → newN n ≤ i → i < newN (n + 1) → newM m ≤ j → j < newM (m + 1) →
    faceValid g' i j = faceValid g n m

/-- The new points of a valid cell: on its sides those of the grid line (columns are numbered first, then rows), and
inside those of the cell. -/
def NewPoints (I : Interp P) (g g' : Grid P) (newN newM : Nat → Nat) : Prop :=
  ∀ n m, n + 1 < g.numN → m + 1 < g.numM → faceValid g n m = true →
    (∀ a, 0 < a → newN n + a < newN (n + 1) →
      g'.node (newN n + a) (newM m) = I.side m n a (newN (n + 1) - newN n) ∧
      g'.node (newN n + a) (newM (m + 1)) = I.side (m + 1) n a (newN (n + 1) - newN n)) ∧
    (∀ b, 0 < b → newM m + b < newM (m + 1) →
      g'.node (newN n) (newM m + b) = I.side (g.numM + n) m b (newM (m + 1) - newM m) ∧
      g'.node (newN (n + 1)) (newM m + b) = I.side (g.numM + (n + 1)) m b (newM (m + 1) - newM m)) ∧
    (∀ a b, 0 < a → newN n + a < newN (n + 1) → 0 < b → newM m + b < newM (m + 1) →
      g'.node (newN n + a) (newM m + b) = I.inner n m a b)

theorem newIndex_low {lo up ref n : Nat} (h : n ≤ lo) : newIndex lo up ref n = n := by
  unfold newIndex; rw [if_pos h]

theorem newIndex_mid {lo up ref n : Nat} (h : lo ≤ n) (h' : n ≤ up) : newIndex lo up ref n = lo + ref * (n - lo) := by
  unfold newIndex
  by_cases c : n ≤ lo
  · rw [if_pos c, show n - lo = 0 by omega, Nat.mul_zero]; omega
  · rw [if_neg c, if_pos h']

theorem newIndex_high {lo up ref n : Nat} (h : lo ≤ up) (hr : 0 < ref) (h' : up ≤ n) :
    newIndex lo up ref n = n + (ref - 1) * (up - lo) := by
  by_cases c : n ≤ up
  · rw [newIndex_mid (by omega) c, show n = up by omega]
    obtain ⟨r, rfl⟩ : ∃ r, ref = r + 1 := ⟨ref - 1, by omega⟩
    rw [Nat.add_sub_cancel, Nat.add_mul]; omega
  · unfold newIndex
    rw [if_neg (by omega), if_neg c]

theorem place_partsOf (lo up ref : Nat) (h : lo ≤ up) (hr : 0 < ref) (n : Nat) :
    place (partsOf lo up ref) n = newIndex lo up ref n := by
  induction n with
  | zero => rw [newIndex_low (Nat.zero_le _)]; rfl
  | succ n ih =>
    rw [place, ih]
    unfold partsOf
    by_cases a : n < lo
    · rw [newIndex_low (by omega), newIndex_low (by omega), if_neg (by omega)]
    · by_cases b : n < up
      · rw [newIndex_mid (by omega) (by omega), newIndex_mid (by omega) (by omega), if_pos (by omega),
          show n + 1 - lo = n - lo + 1 by omega, Nat.mul_add]
        omega
      · rw [newIndex_high h hr (by omega), newIndex_high h hr (by omega), if_neg (by omega)]; omega

theorem refined_of_cells (I : Interp P) (g : Grid P) (hp : Plain g) (hg : WF g) (locN locM : Nat → Nat)
    (hN : ∀ c, 0 < locN c) (hM : ∀ c, 0 < locM c) :
    ∃ R g', refineCells I g (plainSplines g) locN locM (place locN (g.numN - 1) + 1) (place locM (g.numM - 1) + 1) = .ok R ∧
      setGridNodes g R.rows R.cols R.cell = .ok g' ∧ Refined g g' (place locN) (place locM) ∧
      NewPoints I g g' (place locN) (place locM) ∧
      (I.Good → CellsCut g g' (place locN) (place locM)) := by
  obtain ⟨R, h1, h2, h3, h4, h5, hcp, h6⟩ := refineCells_ok I g hp locN locM hN hM
  have wn := hg.two_le_numN
  have wm := hg.two_le_numM
  rw [hp.numN] at wn; rw [hp.numM] at wm
  have l1 := place_lt locN hN (show 0 < g.rows - 1 by omega)
  have l2 := place_lt locM hM (show 0 < g.cols - 1 by omega)
  refine ⟨R, { g with rows := R.rows, cols := R.cols, cell := R.cell }, by rw [hp.numN, hp.numM]; exact h1, ?_, ?_, ?_, ?_⟩
  · unfold setGridNodes
    rw [if_neg (by omega)]
  · have hp' : Plain { g with rows := R.rows, cols := R.cols, cell := R.cell } := ⟨hp.sn, hp.sm, hp.en, hp.em⟩
    refine ⟨hp', ?_, ?_, ?_, ?_⟩
    · rw [hp'.numN, hp.numN]; exact h2
    · rw [hp'.numM, hp.numM]; exact h3
    · intro n m _ _ hf
      rw [hp'.node, hp.node]; exact h4 n m hf
    · intro n m _ _ hf
      rw [hp'.node]; exact h5 n m hf
  · intro n m hn hm hf
    have hp' : Plain { g with rows := R.rows, cols := R.cols, cell := R.cell } := ⟨hp.sn, hp.sm, hp.en, hp.em⟩
    rw [hp.numN] at hn; rw [hp.numM] at hm
    have a0 := hN n
    have b0 := hM m
    rw [hp.numM]
    simp only [hp'.node, place]
    refine ⟨?_, ?_, ?_⟩
    · intro a h0 h1
      have e1 := hcp n m a 0 hn hm hf (by omega) (by omega)
      have e2 := hcp n m a (locM m) hn hm hf (by omega) (by omega)
      unfold cellPoint along at e1 e2
      rw [if_neg (by omega), if_neg (by omega), if_neg (by omega), if_pos rfl, if_neg (by omega), if_neg (by omega)] at e1
      rw [if_neg (by omega), if_neg (by omega), if_pos rfl, if_neg (by omega), if_neg (by omega)] at e2
      rw [Nat.add_sub_cancel_left]
      exact ⟨e1, e2⟩
    · intro b h0 h1
      have e1 := hcp n m 0 b hn hm hf (by omega) (by omega)
      have e2 := hcp n m (locN n) b hn hm hf (by omega) (by omega)
      unfold cellPoint along at e1 e2
      rw [if_neg (by omega), if_pos rfl, if_neg (by omega), if_neg (by omega)] at e1
      rw [if_pos rfl, if_neg (by omega), if_neg (by omega)] at e2
      rw [Nat.add_sub_cancel_left]
      exact ⟨e1, e2⟩
    · intro a b h0 h1 h2 h3
      have e1 := hcp n m a b hn hm hf (by omega) (by omega)
      unfold cellPoint at e1
      rw [if_neg (by omega), if_neg (by omega), if_neg (by omega), if_neg (by omega)] at e1
      exact e1
  · intro hI n m i j hn hm hi1 hi2 hj1 hj2
    have hp' : Plain { g with rows := R.rows, cols := R.cols, cell := R.cell } := ⟨hp.sn, hp.sm, hp.en, hp.em⟩
    have hv := h6 hI
    rw [hp.numN] at hn; rw [hp.numM] at hm
    rw [Bool.eq_iff_iff]
    constructor
    · intro hf
      rw [faceValid_iff, hp'.node, hp'.node, hp'.node, hp'.node] at hf
      exact covered_cell g locN locM hN hM (fun x y => valid (R.cell x y) = true) (fun x y h => (hv x y).1 h)
        ⟨hi1, hi2⟩ ⟨hj1, hj2⟩ hf.1 hf.2.1 hf.2.2.1 hf.2.2.2
    · intro hf
      rw [faceValid_iff, hp'.node, hp'.node, hp'.node, hp'.node]
      have cov : ∀ x y, (place locN n ≤ x ∧ x ≤ place locN (n + 1)) → (place locM m ≤ y ∧ y ≤ place locM (m + 1)) →
          valid (R.cell x y) = true := fun x y a b => (hv x y).2 ⟨n, m, hn, hm, hf, a, b⟩
      exact ⟨cov _ _ (by omega) (by omega), cov _ _ (by omega) (by omega), cov _ _ (by omega) (by omega),
        cov _ _ (by omega) (by omega)⟩

theorem partsOf_pos (lo up ref : Nat) (hr : 0 < ref) (c : Nat) : 0 < partsOf lo up ref c := by
  unfold partsOf; split <;> omega

theorem refine_size (lo up ref N : Nat) (h1 : lo ≤ up) (h2 : up < N) (hr : 0 < ref) :
    N + (up - lo) * ref - (up - lo) = place (partsOf lo up ref) (N - 1) + 1 := by
  rw [place_partsOf lo up ref h1 hr, newIndex_high h1 hr (by omega)]
  obtain ⟨r, rfl⟩ : ∃ r, ref = r + 1 := ⟨ref - 1, by omega⟩
  rw [Nat.add_sub_cancel, Nat.mul_add, Nat.mul_one, Nat.mul_comm r]
  omega

/-- Refining the cells between two grid lines keeps every node that belongs to a valid cell, at its new place, and cuts
precisely the valid cells into the requested number of parts (wherever the interpolation puts the new points). The
returned undo action holds the old grid. -/
theorem refine_exact (I : Interp P) (g : Grid P) (hp : Plain g) (hg : WF g) (lo up : Nat × Nat) (ref : Nat)
    (h1 : lo.1 ≤ up.1) (h2 : lo.2 ≤ up.2) (h3 : up.1 < g.numN) (h4 : up.2 < g.numM) (hN : g.numN ≤ missing)
    (hM : g.numM ≤ missing) (hline : lo.1 = up.1 ∨ lo.2 = up.2) (hr : 0 < ref) :
    ∃ g', refine I g lo up ref = .ok (g', .whole g) ∧
      Refined g g' (newIndex lo.1 up.1 ref) (newIndex lo.2 up.2 ref) ∧
      NewPoints I g g' (newIndex lo.1 up.1 ref) (newIndex lo.2 up.2 ref) ∧
      (I.Good → CellsCut g g' (newIndex lo.1 up.1 ref) (newIndex lo.2 up.2 ref)) := by
  obtain ⟨R, g', e1, e2, e3, e4, e5⟩ := refined_of_cells I g hp hg (partsOf lo.1 up.1 ref) (partsOf lo.2 up.2 ref)
    (partsOf_pos _ _ _ hr) (partsOf_pos _ _ _ hr)
  rw [funext (place_partsOf lo.1 up.1 ref h1 hr), funext (place_partsOf lo.2 up.2 ref h2 hr)] at e3 e4 e5
  refine ⟨g', ?_, e3, e4, e5⟩
  unfold refine
  rw [splineNodes_ok g hp, Res.ok_bind, if_neg (by omega), if_neg (by omega), refine_size _ _ _ _ h1 h3 hr,
    refine_size _ _ _ _ h2 h4 hr, e1, Res.ok_bind, e2, Res.ok_bind]

theorem place_const (r n : Nat) : place (fun _ => r) n = n * r := by
  induction n with
  | zero => rw [Nat.zero_mul]; rfl
  | succ n ih => rw [place, ih, Nat.add_mul, Nat.one_mul]

/-- Refining the whole grid: node `(n, m)` goes to `(n * nRef, m * mRef)`; factors one leave the grid alone. -/
theorem full_refine_exact (I : Interp P) (g : Grid P) (hp : Plain g) (hg : WF g) (mRef nRef : Nat)
    (hm : 0 < mRef) (hn : 0 < nRef) (hm' : mRef < missing) (hn' : nRef < missing) :
    ∃ g' u, fullRefine I g mRef nRef = .ok (g', u) ∧
      (mRef = 1 ∧ nRef = 1 → g' = g ∧ u = none) ∧
      (¬ (mRef = 1 ∧ nRef = 1) → u = some (.whole g) ∧ Refined g g' (· * nRef) (· * mRef) ∧ NewPoints I g g' (· * nRef) (· * mRef) ∧
        (I.Good → CellsCut g g' (· * nRef) (· * mRef))) := by
  unfold fullRefine
  rw [if_neg (by omega), if_neg (by omega)]
  by_cases e : mRef = 1 ∧ nRef = 1
  · rw [if_pos e]
    exact ⟨g, none, rfl, fun _ => ⟨rfl, rfl⟩, fun h => absurd e h⟩
  · rw [if_neg e, splineNodes_ok g hp, Res.ok_bind]
    obtain ⟨R, g', e1, e2, e3, e4, e5⟩ := refined_of_cells I g hp hg (fun _ => nRef) (fun _ => mRef) (fun _ => hn) (fun _ => hm)
    rw [funext (place_const nRef), funext (place_const mRef)] at e3 e4 e5
    rw [place_const, place_const] at e1
    refine ⟨g', some (.whole g), ?_, fun h => absurd h e, fun _ => ⟨rfl, e3, e4, e5⟩⟩
    rw [e1, Res.ok_bind, e2, Res.ok_bind]

/-- A refinement factor of zero is refused by the refinement of the whole grid. -/
theorem full_refine_zero (I : Interp P) (g : Grid P) (mRef nRef : Nat) (h : mRef = 0 ∨ nRef = 0) :
    fullRefine I g mRef nRef = .throw := by
  unfold fullRefine; rw [if_pos h]

/-! ## De-refinement -/

omit [PointLike P] in
theorem getNode_of_lt {g : Grid P} {n m : Nat} (hn : n < g.numN) (hm : m < g.numM) : getNode g n m = .ok (g.node n m) :=
  getNode_ok hn hm

theorem deRefine_of_lines (fuel : Nat) (g : Grid P) (lo up : Nat × Nat)
    (hv : ¬ (lo.1 = missing ∨ lo.2 = missing ∨ up.1 = missing ∨ up.2 = missing)) (ns ms : List Nat)
    (hn : linesKept g.numN lo.1 up.1 (if up.1 > lo.1 then up.1 - lo.1 else 1) fuel 0 = some ns)
    (hm : linesKept g.numM lo.2 up.2 (if up.2 > lo.2 then up.2 - lo.2 else 1) fuel 0 = some ms)
    (bn : ∀ n ∈ ns, n < g.numN) (bm : ∀ m ∈ ms, m < g.numM) (ln : 2 ≤ ns.length) (lm : 2 ≤ ms.length) :
    ∃ g', deRefine fuel g lo up = some (.ok (g', .whole g)) ∧ g'.rows = ns.length ∧ g'.cols = ms.length ∧
      g'.sn = g.sn ∧ g'.sm = g.sm ∧ g'.en = g.en ∧ g'.em = g.em ∧
      ∀ i j, (hi : i < ns.length) → (hj : j < ms.length) → g'.cell i j = g.node ns[i] ms[j] := by
  unfold deRefine
  rw [if_neg hv, hn, hm]
  have e : mapRes (fun n => mapRes (fun m => getNode g n m) ms) ns = .ok (ns.map fun n => ms.map fun m => g.node n m) :=
    mapRes_ok _ fun n hn' => mapRes_ok _ fun m hm' => getNode_of_lt (bn n hn') (bm m hm')
  simp only
  rw [e, Res.ok_bind]
  have hr : (matrixOf (ns.map fun n => ms.map fun m => g.node n m)).rows = ns.length := by
    show (ns.map _).length = _
    rw [List.length_map]
  have hc : (matrixOf (ns.map fun n => ms.map fun m => g.node n m)).cols = ms.length := by
    show ((ns.map _).headD []).length = _
    cases ns with
    | nil => simp at ln
    | cons a l => simp
  unfold setGridNodes
  rw [hr, hc, if_neg (by omega), Res.ok_bind]
  refine ⟨_, rfl, rfl, rfl, rfl, rfl, rfl, rfl, fun i j hi hj => ?_⟩
  show (((ns.map fun n => ms.map fun m => g.node n m)[i]?.getD [])[j]?).getD inv = _
  simp [hi, hj]

/-- De-refinement ends within one round per line and keeps exactly the lines not strictly inside the selected range, in
order, with their nodes; the other matrix entries and the hidden offsets are as before. -/
theorem derefine_exact (fuel : Nat) (g : Grid P) (lo up : Nat × Nat) (hN : g.numN ≤ fuel) (hM : g.numM ≤ fuel)
    (hv : ¬ (lo.1 = missing ∨ lo.2 = missing ∨ up.1 = missing ∨ up.2 = missing))
    (ln : 2 ≤ (kept g.numN lo.1 up.1).length) (lm : 2 ≤ (kept g.numM lo.2 up.2).length) :
    ∃ g', deRefine fuel g lo up = some (.ok (g', .whole g)) ∧
      g'.rows = (kept g.numN lo.1 up.1).length ∧ g'.cols = (kept g.numM lo.2 up.2).length ∧
      g'.sn = g.sn ∧ g'.sm = g.sm ∧ g'.en = g.en ∧ g'.em = g.em ∧
      ∀ i j, (hi : i < (kept g.numN lo.1 up.1).length) → (hj : j < (kept g.numM lo.2 up.2).length) →
        g'.cell i j = g.node (kept g.numN lo.1 up.1)[i] (kept g.numM lo.2 up.2)[j] :=
  deRefine_of_lines fuel g lo up hv _ _ (linesKept_eq _ _ _ _ hN) (linesKept_eq _ _ _ _ hM)
    (fun n hn => by have := (List.mem_filter.1 hn).1; rwa [List.mem_range] at this)
    (fun m hm => by have := (List.mem_filter.1 hm).1; rwa [List.mem_range] at this) ln lm

/-- A line is kept iff it is not strictly inside the range. -/
theorem mem_kept (num lo up i : Nat) : i ∈ kept num lo up ↔ i < num ∧ ¬ (lo < i ∧ i < up) := by
  unfold kept
  rw [List.mem_filter, List.mem_range]
  simp only [Bool.not_eq_true', Bool.and_eq_false_iff, decide_eq_false_iff_not]
  omega

/-- De-refinement always ends: whatever the lines, at most one round per row or column. -/
theorem derefine_terminates (g : Grid P) (lo up : Nat × Nat) (fuel : Nat) (hN : g.numN ≤ fuel) (hM : g.numM ≤ fuel) :
    deRefine fuel g lo up ≠ none := by
  unfold deRefine
  split
  · exact fun h => nomatch h
  · rw [linesKept_eq _ _ _ _ hN, linesKept_eq _ _ _ _ hM]
    exact fun h => nomatch h

/-- The result of de-refining what refinement made: the original grid, with invalid points for nodes of no valid cell. -/
def BackTo (g g' : Grid P) : Prop :=
  g'.numN = g.numN ∧ g'.numM = g.numM ∧
    ∀ n m, n < g.numN → m < g.numM → (InFace g n m → g'.node n m = g.node n m) ∧ (¬ InFace g n m → g'.node n m = inv)

theorem derefine_back (fuel : Nat) (g g' : Grid P) (hg : WF g) (locN locM : Nat → Nat) (hN : ∀ c, 0 < locN c)
    (hM : ∀ c, 0 < locM c) (hr : Refined g g' (place locN) (place locM)) (lo up : Nat × Nat)
    (hv : ¬ (lo.1 = missing ∨ lo.2 = missing ∨ up.1 = missing ∨ up.2 = missing))
    (hf : g.numN ≤ fuel) (hf' : g.numM ≤ fuel)
    (s1 : ∀ n, (if place locN n ≥ lo.1 ∧ place locN n < up.1 then (if up.1 > lo.1 then up.1 - lo.1 else 1) else 1) = locN n)
    (s2 : ∀ n, (if place locM n ≥ lo.2 ∧ place locM n < up.2 then (if up.2 > lo.2 then up.2 - lo.2 else 1) else 1) = locM n) :
    ∃ g'', deRefine fuel g' lo up = some (.ok (g'', .whole g')) ∧ BackTo g g'' := by
  have wn := hg.two_le_numN
  have wm := hg.two_le_numM
  have k1 := (linesKept_place locN g.numN lo.1 up.1 _ hN s1 fuel 0 (Nat.zero_le _) (by omega)).resolve_right (by omega)
  have k2 := (linesKept_place locM g.numM lo.2 up.2 _ hM s2 fuel 0 (Nat.zero_le _) (by omega)).resolve_right (by omega)
  rw [← hr.numN] at k1
  rw [← hr.numM] at k2
  obtain ⟨g'', e1, e2, e3, e4, e5, e6, e7, e8⟩ := deRefine_of_lines fuel g' lo up hv _ _ k1 k2
    (by
      intro n hn
      obtain ⟨k, hk, rfl⟩ := List.mem_map.1 hn
      rw [List.mem_range'_1] at hk
      have := place_mono locN (show k ≤ g.numN - 1 by omega)
      rw [hr.numN]; omega)
    (by
      intro n hn
      obtain ⟨k, hk, rfl⟩ := List.mem_map.1 hn
      rw [List.mem_range'_1] at hk
      have := place_mono locM (show k ≤ g.numM - 1 by omega)
      rw [hr.numM]; omega)
    (by rw [List.length_map, List.length_range']; omega) (by rw [List.length_map, List.length_range']; omega)
  have hp : Plain g'' := ⟨by rw [e4, hr.plain.sn], by rw [e5, hr.plain.sm], by rw [e6, hr.plain.en], by rw [e7, hr.plain.em]⟩
  rw [List.length_map, List.length_range', Nat.sub_zero] at e2 e3
  refine ⟨g'', e1, by rw [hp.numN, e2], by rw [hp.numM, e3], fun n m hn hm => ?_⟩
  have := e8 n m (by rw [List.length_map, List.length_range']; omega) (by rw [List.length_map, List.length_range']; omega)
  rw [hp.node, this]
  simp only [List.getElem_map, List.getElem_range', Nat.one_mul, Nat.zero_add]
  exact ⟨hr.keeps n m hn hm, hr.drops n m hn hm⟩

theorem step_one (lo up ref : Nat) (hr : 0 < ref) (hup : up = lo ∨ up = lo + 1) (n : Nat) :
    (if place (partsOf lo up ref) n ≥ lo ∧ place (partsOf lo up ref) n < newIndex lo up ref up then
      (if newIndex lo up ref up > lo then newIndex lo up ref up - lo else 1) else 1) = partsOf lo up ref n := by
  rw [place_partsOf lo up ref (by omega) hr]
  unfold partsOf
  rcases hup with rfl | rfl
  · rw [newIndex_low (n := up) (Nat.le_refl _)]
    have : ¬ (newIndex up up ref n ≥ up ∧ newIndex up up ref n < up) := by omega
    rw [if_neg this, if_neg (by omega)]
  · rw [newIndex_mid (n := lo + 1) (by omega) (Nat.le_refl _), show lo + 1 - lo = 1 by omega, Nat.mul_one]
    by_cases a : n ≤ lo
    · rw [newIndex_low a]
      by_cases b : n = lo
      · subst b
        rw [if_pos (by omega), if_pos (by omega), if_pos (by omega)]; omega
      · rw [if_neg (by omega), if_neg (by omega)]
    · rw [newIndex_high (by omega) hr (by omega), show lo + 1 - lo = 1 by omega, Nat.mul_one, if_neg (by omega), if_neg (by omega)]

/-- C21: cutting one row (or one column) of cells into `ref` parts and de-refining the block this made gives back the
original nodes, for every factor. Nodes that belong to no valid cell come back invalid. -/
theorem derefine_refine (I : Interp P) (g : Grid P) (hp : Plain g) (hg : WF g) (lo up : Nat × Nat) (ref fuel : Nat)
    (h3 : up.1 < g.numN) (h4 : up.2 < g.numM) (hN : newIndex lo.1 up.1 ref g.numN ≤ missing)
    (hM : newIndex lo.2 up.2 ref g.numM ≤ missing)
    (hline : (up.1 = lo.1 + 1 ∧ up.2 = lo.2) ∨ (up.1 = lo.1 ∧ up.2 = lo.2 + 1)) (hr : 0 < ref)
    (hf : g.numN ≤ fuel) (hf' : g.numM ≤ fuel) :
    ∃ g' g'', refine I g lo up ref = .ok (g', .whole g) ∧
      deRefine fuel g' lo (newIndex lo.1 up.1 ref up.1, newIndex lo.2 up.2 ref up.2) = some (.ok (g'', .whole g')) ∧
      BackTo g g'' := by
  have f1 := place_partsOf lo.1 up.1 ref (by omega) hr
  have f2 := place_partsOf lo.2 up.2 ref (by omega) hr
  have m1 := place_lt (partsOf lo.1 up.1 ref) (partsOf_pos _ _ _ hr) h3
  have m2 := place_lt (partsOf lo.2 up.2 ref) (partsOf_pos _ _ _ hr) h4
  have self : ∀ (loc : Nat → Nat), (∀ c, 0 < loc c) → ∀ n, n ≤ place loc n := by
    intro loc hl n
    induction n with
    | zero => exact Nat.zero_le _
    | succ n ih => have := hl n; rw [place]; omega
  have s1 := self (partsOf lo.1 up.1 ref) (partsOf_pos _ _ _ hr) g.numN
  have s2 := self (partsOf lo.2 up.2 ref) (partsOf_pos _ _ _ hr) g.numM
  rw [f1] at m1 s1
  rw [f2] at m2 s2
  rw [f1] at m1
  rw [f2] at m2
  obtain ⟨g', e1, e2, -, -⟩ := refine_exact I g hp hg lo up ref (by omega) (by omega) h3 h4 (by omega) (by omega) (by omega) hr
  rw [← funext f1, ← funext f2] at e2
  obtain ⟨g'', e3, e4⟩ := derefine_back fuel g g' hg _ _ (partsOf_pos _ _ _ hr) (partsOf_pos _ _ _ hr) e2 lo
    (newIndex lo.1 up.1 ref up.1, newIndex lo.2 up.2 ref up.2) (by dsimp only; omega) hf hf'
    (step_one lo.1 up.1 ref hr (by omega)) (step_one lo.2 up.2 ref hr (by omega))
  exact ⟨g', g'', e1, e3, e4⟩

/-- C21 on grids whose valid nodes all belong to valid cells and whose other nodes hold the one invalid point: the very
same visible nodes. -/
theorem derefine_refine_same (I : Interp P) (g : Grid P) (hp : Plain g) (hg : WF g) (hl : NoLoose g)
    (hi : ∀ n m, n < g.numN → m < g.numM → valid (g.node n m) = false → g.node n m = inv)
    (lo up : Nat × Nat) (ref fuel : Nat)
    (h3 : up.1 < g.numN) (h4 : up.2 < g.numM) (hN : newIndex lo.1 up.1 ref g.numN ≤ missing)
    (hM : newIndex lo.2 up.2 ref g.numM ≤ missing)
    (hline : (up.1 = lo.1 + 1 ∧ up.2 = lo.2) ∨ (up.1 = lo.1 ∧ up.2 = lo.2 + 1)) (hr : 0 < ref)
    (hf : g.numN ≤ fuel) (hf' : g.numM ≤ fuel) :
    ∃ g' g'', refine I g lo up ref = .ok (g', .whole g) ∧
      deRefine fuel g' lo (newIndex lo.1 up.1 ref up.1, newIndex lo.2 up.2 ref up.2) = some (.ok (g'', .whole g')) ∧
      visible g'' = visible g := by
  obtain ⟨g', g'', e1, e2, e3, e4, e5⟩ := derefine_refine I g hp hg lo up ref fuel h3 h4 hN hM hline hr hf hf'
  refine ⟨g', g'', e1, e2, ?_⟩
  unfold visible
  rw [e3, e4]
  refine List.map_congr_left fun n hn => List.map_congr_left fun m hm => ?_
  rw [List.mem_range] at hn hm
  by_cases c : InFace g n m
  · exact (e5 n m hn hm).1 c
  · rw [(e5 n m hn hm).2 c, hi n m hn hm]
    by_contra hv
    exact c (hl n m hn hm (by simpa using hv))

/-! ## Cases that meet the hypotheses -/

/-- Recognisable points. -/
def testInterp : Interp (Option Nat) := ⟨fun s c i r => some (1000 + 100 * s + 10 * c + i + r), fun n m a b => some (5000 + 100 * n + 10 * m + a + b)⟩

example : testInterp.Good := ⟨fun _ _ _ _ => rfl, fun _ _ _ _ => rfl⟩
example : Plain (fullGrid 3 3) ∧ WF (fullGrid 3 3) := ⟨⟨rfl, rfl, rfl, rfl⟩, ⟨by decide, by decide⟩⟩
example : NoLoose (fullGrid 3 3) := fullGrid_noLoose

/-- Row 1 of cells in three parts, and back. -/
example : ∃ g' u g'', refine testInterp (fullGrid 3 3) (1, 0) (2, 0) 3 = .ok (g', u) ∧ g'.numN = 5 ∧
    visible g' ≠ visible (fullGrid 3 3) ∧
    deRefine 5 g' (1, 0) (4, 0) = some (.ok (g'', .whole g')) ∧ visible g'' = visible (fullGrid 3 3) :=
  ⟨_, _, _, rfl, rfl, by decide +kernel, rfl, by decide +kernel⟩

example : (newIndex 1 2 3 2, newIndex 0 0 3 0) = (4, 0) := by decide

/-! ## Counterexamples -/

/-- A full grid with its last row hidden (as after undoing the addition of a grid line). -/
def hiddenLast : Grid (Option Nat) := { fullGrid 4 3 with en := 1 }

/-- Refinement keeps the offsets although the new matrix holds visible nodes only: a row of nodes is lost from view. -/
theorem refine_loses_row :
    ∃ g' u, refine testInterp hiddenLast (0, 0) (1, 0) 2 = .ok (g', u) ∧
      visible hiddenLast = [[some 0, some 1, some 2], [some 10, some 11, some 12], [some 20, some 21, some 22]] ∧
      g'.numN = 3 ∧ g'.node 2 0 = some 10 ∧ ∀ n m, n < g'.numN → m < g'.numM → g'.node n m ≠ some 20 := by
  refine ⟨_, _, rfl, by decide, by decide, by decide +kernel, ?_⟩
  intro n m hn hm
  have hn' : n < 3 := hn
  have hm' : m < 3 := hm
  revert m
  have : ∀ n < 3, ∀ m < 3, (match refine testInterp hiddenLast (0, 0) (1, 0) 2 with
    | .ok (g', _) => g'.node n m
    | _ => none) ≠ some 20 := by decide +kernel
  intro m _ hm'
  exact this n hn' m hm'

/-- The same for de-refinement. -/
theorem derefine_loses_row :
    ∃ g' u, deRefine 5 hiddenLast (0, 0) (0, 0) = some (.ok (g', u)) ∧ hiddenLast.numN = 3 ∧ g'.numN = 2 :=
  ⟨_, _, rfl, rfl, rfl⟩

/-- A grid with its first row hidden. -/
def hiddenFirst : Grid (Option Nat) := { fullGrid 4 3 with sn := 1 }

/-- Refining a grid whose first row is hidden is refused: the splines are read at columns shifted by the row offset. -/
theorem refine_hidden_first : refine testInterp hiddenFirst (0, 0) (1, 0) 2 = .throw ∧ hiddenFirst.numN = 3 :=
  ⟨rfl, rfl⟩

/-- A refinement factor of zero, which the API passes on unchecked, is undefined behaviour. -/
theorem refine_zero_ub : refine testInterp (fullGrid 3 3) (0, 0) (1, 0) 0 = .ub := by
  rfl

end Verif.Curvi
