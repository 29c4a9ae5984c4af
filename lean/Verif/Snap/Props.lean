import Verif.Snap.LineLemmas
import Verif.Snap.NearestLemmas
/-!
# C78: snapping a grid line to a land boundary or a spline
-/
namespace Verif.Snap
open Verif.Curvi Verif.CurviLine
variable {K : Type} [Field K] [LinearOrder K] [IsStrictOrderedRing K]

/-- The control points are valid and the search finds these nodes of the grid for them. -/
def Seen (see : Pt K → Res (Nat × Nat)) (g : Grid (Pt K)) (points : List (Pt K)) (nodes : List (Nat × Nat)) : Prop :=
  List.Forall₂ (fun p v => valid p = true ∧ see p = .ok v ∧ In g v) points nodes

omit [IsStrictOrderedRing K] in
theorem Seen.inside {see : Pt K → Res (Nat × Nat)} {g : Grid (Pt K)} {points : List (Pt K)} {nodes : List (Nat × Nat)} (h : Seen see g points nodes) :
    ∀ v ∈ nodes, In g v := by
  intro v hv
  obtain ⟨k, hk, rfl⟩ := List.mem_iff_getElem.1 hv
  exact (List.forall₂_iff_get.1 h |>.2 k (by rw [h.length_eq]; exact hk) hk).2.2

omit [Field K] [LinearOrder K] [IsStrictOrderedRing K] in
theorem ZoneFor.up_in {g : Grid (Pt K)} {a b : Nat × Nat} {rest : List (Nat × Nat)} {z : Zone} (hz : ZoneFor a b rest z)
    (hin : ∀ v ∈ a :: b :: rest, In g v) : z.user = true → In g z.up := by
  intro c
  have hr : rest ≠ [] := by
    rintro rfl
    rw [hz.user] at c
    cases c
  rw [hz.up hr]
  exact around_in _ _ hin

theorem copy_le {P : Type} (g : Grid P) : g.numN ≤ (copyGrid g).numN ∧ g.numM ≤ (copyGrid g).numM := by
  unfold Grid.numN Grid.numM
  show _ ≤ g.rows - 0 - 0 ∧ _ ≤ g.cols - 0 - 0
  omega

theorem snap_any {o : Means K} (ho : o.Good) {see : Pt K → Res (Nat × Nat)} {g : Grid (Pt K)} (hN : g.numN ≤ missing) (hM : g.numM ≤ missing)
    {points : List (Pt K)} {a b : Nat × Nat} {rest : List (Nat × Nat)} (hr : rest.length ≤ 2) (h : Seen see g points (a :: b :: rest)) :
    ∃ (g' : Grid (Pt K)) (old : Nat → Nat → Pt K) (z : Zone), ZoneFor a b rest z ∧ snap o see g points = .ok (g', .block ⟨0, 0, g.numN, g.numM, savedNodes g 0 0 g.numN g.numM⟩) ∧
      Edited g g' (fun n m => snapped o (copyGrid g) g z (max a.1 b.1, max a.2 b.2) (n, m) (old n m)) := by
  obtain ⟨z, h1, h2⟩ := construct_ok hN hM hr h
  have ha := h.inside a (by simp)
  have hb := h.inside b (by simp)
  unfold In at ha hb
  obtain ⟨g', old, h3, h4⟩ := rounds_ok ho (orig := copyGrid g) (g := g) z
    (by rw [h2.last]; exact ⟨by show max _ _ < _; omega, by show max _ _ < _; omega⟩)
    (by rw [h2.first, h2.last]; simp only; omega) (h2.up_in h.inside) (copy_le g).1 (copy_le g).2
  rw [h2.last] at h4
  refine ⟨g', old, z, h2, ?_, h4⟩
  unfold snap
  rw [h1, Res.ok_bind]
  exact compute_of_loop o _ g g' z h3

/-- C78, what is accepted: two to four valid control points, on a grid in which the search finds a node for every valid
point. Everything else is refused. -/
theorem snap_accepted_iff {o : Means K} (ho : o.Good) (see : Pt K → Res (Nat × Nat)) (g : Grid (Pt K)) (hN : g.numN ≤ missing)
    (hM : g.numM ≤ missing) (hsee : ∀ p, valid p = true → ∃ v, see p = .ok v ∧ In g v) (points : List (Pt K)) :
    (∃ r, snap o see g points = .ok r) ↔ (2 ≤ points.length ∧ points.length ≤ 4) ∧ ∀ p ∈ points, valid p = true := by
  constructor
  · rintro ⟨r, h⟩
    unfold snap at h
    obtain ⟨z, h1, -⟩ := Res.bind_eq_ok.1 h
    unfold construct at h1
    split at h1
    · cases h1
    · rename_i c
      split at h1
      · cases h1
      · rename_i d
        rw [not_not, List.all_eq_true] at d
        exact ⟨by omega, d⟩
  · rintro ⟨⟨h1, h2⟩, h3⟩
    have hf : ∀ l : List (Pt K), (∀ p ∈ l, valid p = true) → ∃ vs, Seen see g l vs := by
      intro l hl
      induction l with
      | nil => exact ⟨[], List.Forall₂.nil⟩
      | cons p l ih =>
        obtain ⟨vs, hvs⟩ := ih (fun q hq => hl q (List.mem_cons_of_mem _ hq))
        obtain ⟨v, e1, e2⟩ := hsee p (hl p (by simp))
        exact ⟨v :: vs, List.Forall₂.cons ⟨hl p (by simp), e1, e2⟩ hvs⟩
    obtain ⟨vs, hvs⟩ := hf points h3
    have hlen := hvs.length_eq
    match vs, hvs, hlen with
    | [], _, hlen => simp only [List.length_nil] at hlen; omega
    | [_], _, hlen => simp only [List.length_cons, List.length_nil] at hlen; omega
    | a :: b :: rest, hvs, hlen =>
      simp only [List.length_cons] at hlen
      obtain ⟨g', old, z, -, e, -⟩ := snap_any ho hN hM (by omega) hvs
      exact ⟨_, e⟩

/-- C78, where every node is afterwards, for control points on one grid line. What is missing: control points that are not
on one line (`diagonal_line_misplaced`), and grids with hidden lines (`hidden_row_not_snapped`). -/
theorem snap_exact_partial {o : Means K} (ho : o.Good) (see : Pt K → Res (Nat × Nat)) (g : Grid (Pt K)) (hN : g.numN ≤ missing)
    (hM : g.numM ≤ missing) (hh : NoHidden g) (points : List (Pt K)) (a b : Nat × Nat) (rest : List (Nat × Nat)) (hr : rest.length ≤ 2)
    (h : Seen see g points (a :: b :: rest)) (hab : a ≠ b) (hs : a.1 = b.1 ∨ a.2 = b.2) :
    ∃ g' u, snap o see g points = .ok (g', u) ∧ Edited g g' (fun n m => target o g (lineOf a b) (reachOf a b rest) (n, m)) := by
  obtain ⟨z, h1, h2⟩ := construct_ok hN hM hr h
  obtain ⟨g', h3, h4⟩ := straight_ok ho h2 h.inside hab hs
  refine ⟨g', .block ⟨0, 0, g.numN, g.numM, savedNodes g 0 0 g.numN g.numM⟩, ?_, h4⟩
  unfold snap
  rw [h1, Res.ok_bind, copyGrid_eq hh]
  exact compute_of_loop o _ g g' z h3

/-- C78, the line: every valid node of the line is afterwards at the nearest point of the boundary to where it was. -/
theorem snap_line_partial {o : Means K} (ho : o.Good) (see : Pt K → Res (Nat × Nat)) (g : Grid (Pt K)) (hN : g.numN ≤ missing)
    (hM : g.numM ≤ missing) (hh : NoHidden g) (points : List (Pt K)) (a b : Nat × Nat) (rest : List (Nat × Nat)) (hr : rest.length ≤ 2)
    (h : Seen see g points (a :: b :: rest)) (hab : a ≠ b) (hs : a.1 = b.1 ∨ a.2 = b.2) :
    ∃ g' u, snap o see g points = .ok (g', u) ∧ ∀ n m, n < g.numN → m < g.numM → (lineOf a b).On (n, m) → valid (g.node n m) = true →
      g'.node n m = o.nearest (g.node n m) := by
  obtain ⟨g', u, h1, h2⟩ := snap_exact_partial ho see g hN hM hh points a b rest hr h hab hs
  refine ⟨g', u, h1, fun n m hn hm hon hv => ?_⟩
  have hf : foothold (lineOf a b) (n, m) = (n, m) := by
    have := hon.1
    unfold foothold Line.nodeAt
    unfold Line.across at this
    unfold Line.along
    cases hN : (lineOf a b).alongN
    · simp only [hN, Bool.false_eq_true, if_false] at this ⊢
      rw [this]
    · simp only [hN, if_true] at this ⊢
      rw [this]
  rw [h2.visible n m hn hm]
  unfold target
  simp only
  rw [hf, if_pos ⟨hon.2, hv⟩, if_pos rfl]

/-- The part of a move is between nothing and all of it. -/
theorem share_bounds {o : Means K} (ho : o.Good) (r : Reach) (g : Grid (Pt K)) (l : Line) (w : Nat × Nat) :
    0 ≤ r.share o g l w ∧ r.share o g l w ≤ 1 := by
  cases r with
  | preset =>
    simp only [Reach.share, presetShare]
    split
    · exact ⟨ho.hump_nonneg _ _, ho.hump_le _ _⟩
    · exact ⟨le_rfl, zero_le_one⟩
  | box lo up =>
    simp only [Reach.share]
    unfold fading
    split
    · split
      · exact ⟨zero_le_one, le_rfl⟩
      · exact ⟨ho.geo.bell_nonneg _ _, ho.geo.bell_le _ _⟩
    · exact ⟨ho.geo.bell_nonneg _ _, ho.geo.bell_le _ _⟩

/-- C78, the other nodes: a node that is not on the line is moved by at most the move of the node of the line beside which
it lies, in the same direction; nodes not beside the line or out of reach, invalid nodes, and nodes beside an invalid node
stay. -/
theorem snap_others_partial {o : Means K} (ho : o.Good) (see : Pt K → Res (Nat × Nat)) (g : Grid (Pt K)) (hN : g.numN ≤ missing)
    (hM : g.numM ≤ missing) (hh : NoHidden g) (points : List (Pt K)) (a b : Nat × Nat) (rest : List (Nat × Nat)) (hr : rest.length ≤ 2)
    (h : Seen see g points (a :: b :: rest)) (hab : a ≠ b) (hs : a.1 = b.1 ∨ a.2 = b.2) :
    ∃ g' u, snap o see g points = .ok (g', u) ∧ ∀ n m, n < g.numN → m < g.numM → ¬ (lineOf a b).On (n, m) →
      (∃ t : K, (0 ≤ t ∧ t ≤ 1) ∧ g'.node n m = add (g.node n m)
        (scale (sub (o.nearest (g.node (foothold (lineOf a b) (n, m)).1 (foothold (lineOf a b) (n, m)).2))
          (g.node (foothold (lineOf a b) (n, m)).1 (foothold (lineOf a b) (n, m)).2)) t)) ∧
      ((¬ Beside (lineOf a b) (n, m) ∨ ¬ (reachOf a b rest).Within (lineOf a b) (n, m) ∨ valid (g.node n m) = false ∨
        valid (g.node (foothold (lineOf a b) (n, m)).1 (foothold (lineOf a b) (n, m)).2) = false) → g'.node n m = g.node n m) := by
  classical
  obtain ⟨g', u, h1, h2⟩ := snap_exact_partial ho see g hN hM hh points a b rest hr h hab hs
  refine ⟨g', u, h1, fun n m hn hm hon => ?_⟩
  have e := h2.visible n m hn hm
  have hstay : ∀ p : Pt K, p = add p (scale (sub (o.nearest (g.node (foothold (lineOf a b) (n, m)).1 (foothold (lineOf a b) (n, m)).2))
      (g.node (foothold (lineOf a b) (n, m)).1 (foothold (lineOf a b) (n, m)).2)) 0) := by
    intro p
    simp [add, scale]
  have hne : Beside (lineOf a b) (n, m) → (n, m) ≠ foothold (lineOf a b) (n, m) := by
    intro hb c
    refine hon ⟨?_, hb⟩
    rw [c]
    unfold foothold Line.across Line.nodeAt
    split <;> rfl
  unfold target at e
  simp only at e
  by_cases c : Beside (lineOf a b) (n, m) ∧ valid (g.node (foothold (lineOf a b) (n, m)).1 (foothold (lineOf a b) (n, m)).2) = true
  · rw [if_pos c, if_neg (hne c.1)] at e
    split at e
    · rename_i d
      refine ⟨⟨_, share_bounds ho _ g _ _, e⟩, ?_⟩
      rintro (f | f | f | f)
      · exact absurd c.1 f
      · exact absurd d.1 f
      · rw [f] at d; exact absurd d.2.1 (by simp)
      · rw [f] at c; exact absurd c.2 (by simp)
    · exact ⟨⟨0, ⟨le_rfl, zero_le_one⟩, by rw [e]; exact hstay _⟩, fun _ => e⟩
  · rw [if_neg c] at e
    exact ⟨⟨0, ⟨le_rfl, zero_le_one⟩, by rw [e]; exact hstay _⟩, fun _ => e⟩

/-- C78, undo: on a grid without loose nodes, undoing brings back every node, whatever the control points. What is missing:
loose nodes are lost, as with every other undo of a grid (C19). -/
theorem snap_undo_partial {o : Means K} (ho : o.Good) (see : Pt K → Res (Nat × Nat)) (g : Grid (Pt K)) (hg : WF g) (hl : NoLoose g)
    (hN : g.numN ≤ missing) (hM : g.numM ≤ missing) (points : List (Pt K)) (a b : Nat × Nat) (rest : List (Nat × Nat)) (hr : rest.length ≤ 2)
    (h : Seen see g points (a :: b :: rest)) :
    ∃ g' u u', snap o see g points = .ok (g', u) ∧ u.restore g' = .ok (u', g) := by
  obtain ⟨g', old, z, -, h1, h2⟩ := snap_any ho hN hM hr h
  obtain ⟨u', hu⟩ := undo_block g g' hg hl _ h2 0 0 g.numN g.numM (by omega) (by omega) (by omega) (by omega)
    (fun n m hn hm c => absurd (by omega) c)
  exact ⟨g', _, u', h1, hu⟩

/-- C78, the nearest point: it lies on the land boundary and no point of the land boundary is nearer; with no stretch at all
the node stays. Separators between lines are respected. What is missing: stretches through coordinates -999, which mark
missing points, and distances beyond 9e33. -/
theorem nearest_partial (far : K) (land : List (Pt K)) (hland : Readable land) (p : Pt K) (hp : valid p = true)
    (hfar : ∀ r, OnLand land r → dist2 p r < far) :
    ((∃ r, OnLand land r) → OnLand land (nearestOn far land p) ∧ ∀ r, OnLand land r → dist2 p (nearestOn far land p) ≤ dist2 p r) ∧
      ((¬ ∃ r, OnLand land r) → nearestOn far land p = p) := by
  obtain ⟨h1, h2, h3⟩ := walk_ok p hp land hland (far, p)
  unfold nearestOn
  rw [if_neg (by simp [hp])]
  constructor
  · rintro ⟨r, hr⟩
    rcases h1 with h1 | ⟨f, hf, h1⟩
    · have h4 := lt_of_le_of_lt (h3 r hr) (hfar r hr)
      rw [h1] at h4
      exact absurd h4 (lt_irrefl _)
    · rw [h1] at h3 ⊢
      exact ⟨hf, h3⟩
  · intro hno
    rcases h1 with h1 | ⟨f, hf, -⟩
    · rw [h1]
    · exact absurd ⟨f, hf⟩ hno

theorem realMeans_good (nearest : Pt ℝ → Pt ℝ) (region : ℝ) : (realMeans nearest region).Good where
  geo := realGeo_good
  hump_zero b _ := by simp [realMeans]; norm_num
  hump_nonneg a b := by
    have := Real.neg_one_le_cos (Real.pi * a / b)
    show 0 ≤ 1 / 2 * (1 + Real.cos (Real.pi * a / b))
    linarith
  hump_le a b := by
    have := Real.cos_le_one (Real.pi * a / b)
    show 1 / 2 * (1 + Real.cos (Real.pi * a / b)) ≤ 1
    linarith
  root_one := Real.sqrt_one

end Verif.Snap
