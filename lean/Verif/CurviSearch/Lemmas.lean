import Verif.CurviSearch.Spec
import Verif.Curvi.EditProps
import Mathlib.Tactic.Ring
import Mathlib.Data.List.Induction
/-!
# Lemmas about searching in a curvilinear grid
-/
namespace Verif.CurviSearch
open Verif.Curvi
variable {P B : Type}

/-! ### The lists the trees are built from -/

/-- Values row by row. -/
def rowsOf {α : Type} (f : Nat → Nat → α) (N M : Nat) : List α :=
  (List.range N).flatMap (fun n => (List.range M).map (f n))

theorem rowsOf_get {α : Type} (f : Nat → Nat → α) (N M i : Nat) (x : α) :
    (rowsOf f N M)[i]? = some x ↔ ∃ n m, n < N ∧ m < M ∧ i = n * M + m ∧ x = f n m := by
  constructor
  · intro h
    have hl : i < N * M := by
      have := (List.getElem?_eq_some_iff.1 h).1
      rwa [rowsOf, length_rows] at this
    have hM : 0 < M := Nat.pos_of_ne_zero (fun h => by rw [h] at hl; omega)
    have hm : i % M < M := Nat.mod_lt _ hM
    have hn : i / M < N := by rw [Nat.div_lt_iff_lt_mul hM]; exact hl
    have e : i = i / M * M + i % M := by have := Nat.div_add_mod i M; rw [Nat.mul_comm] at this; omega
    refine ⟨i / M, i % M, hn, hm, e, ?_⟩
    have h2 := getElem_rows f N M _ _ hn hm
    rw [← e] at h2
    have := h.symm.trans h2
    simpa using this
  · rintro ⟨n, m, hn, hm, rfl, rfl⟩
    exact getElem_rows f N M n m hn hm

theorem rowsOf_length {α : Type} (f : Nat → Nat → α) (N M : Nat) : (rowsOf f N M).length = N * M := length_rows f N M

theorem nodes_list [PointLike P] (g : Grid P) (hg : WF g) : computeNodes g = .ok (rowsOf g.node g.numN g.numM) :=
  computeNodes_ok g hg

theorem table_list (g : Grid P) : computeNodeIndices g = .ok (rowsOf (fun n m => (n, m)) g.numN g.numM) :=
  computeNodeIndices_ok g

/-- The ends of the edges. -/
def ends (N M : Nat) : List ((Nat × Nat) × (Nat × Nat)) :=
  rowsOf (fun n m => ((n, m), (n + 1, m))) (N - 1) M ++ rowsOf (fun n m => ((n, m), (n, m + 1))) N (M - 1)

theorem ends_get (N M i : Nat) (a b : Nat × Nat) : (ends N M)[i]? = some (a, b) ↔ EdgeNo N M i a b := by
  unfold ends EdgeNo
  rw [List.getElem?_append]
  have hlen : (rowsOf (fun n m => ((n, m), (n + 1, m))) (N - 1) M).length = (N - 1) * M := rowsOf_length _ _ _
  constructor
  · intro h
    split at h
    · obtain ⟨n, m, hn, hm, hi, hx⟩ := (rowsOf_get _ _ _ _ _).1 h
      left
      exact ⟨n, m, by omega, hm, hi, (Prod.mk.inj hx).1, (Prod.mk.inj hx).2⟩
    · next hc =>
      obtain ⟨n, m, hn, hm, hi, hx⟩ := (rowsOf_get _ _ _ _ _).1 h
      right
      rw [hlen] at hi hc
      exact ⟨n, m, hn, by omega, by omega, (Prod.mk.inj hx).1, (Prod.mk.inj hx).2⟩
  · rintro (⟨n, m, hn, hm, hi, rfl, rfl⟩ | ⟨n, m, hn, hm, hi, rfl, rfl⟩)
    · have hlt : i < (N - 1) * M := by
        rw [hi]
        calc n * M + m < n * M + M := by omega
          _ = (n + 1) * M := by rw [Nat.add_mul]; omega
          _ ≤ (N - 1) * M := Nat.mul_le_mul_right _ (by omega)
      rw [if_pos (by rw [hlen]; exact hlt)]
      exact (rowsOf_get _ _ _ _ _).2 ⟨n, m, by omega, hm, hi, rfl⟩
    · rw [if_neg (by rw [hlen]; omega)]
      exact (rowsOf_get _ _ _ _ _).2 ⟨n, m, hn, by omega, by rw [hlen]; omega, rfl⟩

theorem edgeIndices_ok (g : Grid P) : edgeIndices g = .ok (ends g.numN g.numM) := by
  unfold edgeIndices
  have h1 := forRange_store2 ((missing, missing), (missing, missing)) (fun n m => ((n, m), (n + 1, m))) []
    (g.numN * (g.numM - 1)) (g.numN - 1) g.numM (fun n m => store ((n, m), (n + 1, m))) (fun n m _ _ s => rfl)
  simp only [List.nil_append, List.length_nil] at h1
  have e : g.numM * (g.numN - 1) + (g.numM - 1) * g.numN = (g.numN - 1) * g.numM + g.numN * (g.numM - 1) := by
    rw [Nat.mul_comm, Nat.mul_comm (g.numM - 1)]
  rw [e, h1, Res.ok_bind]
  have h2 := forRange_store2 ((missing, missing), (missing, missing)) (fun n m => ((n, m), (n, m + 1)))
    (rowsOf (fun n m => ((n, m), (n + 1, m))) (g.numN - 1) g.numM) 0 g.numN (g.numM - 1)
    (fun n m => store ((n, m), (n, m + 1))) (fun n m _ _ s => rfl)
  simp only [Nat.add_zero] at h2
  unfold rowsOf at h2
  rw [h2, Res.ok_bind]
  simp [ends, rowsOf]

theorem edgeNo_in {N M i : Nat} {a b : Nat × Nat} (h : EdgeNo N M i a b) : a.1 < N ∧ a.2 < M ∧ b.1 < N ∧ b.2 < M := by
  rcases h with ⟨n, m, h1, h2, _, rfl, rfl⟩ | ⟨n, m, h1, h2, _, rfl, rfl⟩
  · exact ⟨by simp only []; omega, h2, h1, h2⟩
  · exact ⟨h1, by simp only []; omega, h1, h2⟩

theorem edgeCentresOf_ok (o : Eye P B) (g : Grid P) : ∀ es : List ((Nat × Nat) × (Nat × Nat)),
    (∀ e ∈ es, e.1.1 < g.numN ∧ e.1.2 < g.numM ∧ e.2.1 < g.numN ∧ e.2.2 < g.numM) →
    edgeCentresOf o g es = .ok (es.map (fun e => o.mid (g.node e.1.1 e.1.2) (g.node e.2.1 e.2.2))) := by
  intro es
  induction es with
  | nil => intro _; rfl
  | cons e es ih =>
    intro h
    obtain ⟨h1, h2, h3, h4⟩ := h e (by simp)
    rw [edgeCentresOf, edgeCentre, getNode_ok h1 h2, Res.ok_bind, getNode_ok h3 h4, Res.ok_bind, Res.ok_bind,
      ih (fun e' he => h e' (by simp [he])), Res.ok_bind]
    rfl

/-- The centres of the edges, in order. -/
def edgeMids (o : Eye P B) (g : Grid P) : List P :=
  (ends g.numN g.numM).map (fun e => o.mid (g.node e.1.1 e.1.2) (g.node e.2.1 e.2.2))

theorem edgeCentres_ok (o : Eye P B) (g : Grid P) : edgeCentres o g = .ok (edgeMids o g) := by
  unfold edgeCentres
  rw [edgeIndices_ok g, Res.ok_bind, edgeCentresOf_ok]
  · rfl
  · intro e he
    obtain ⟨i, hi⟩ := List.mem_iff_getElem?.1 he
    exact edgeNo_in ((ends_get _ _ i e.1 e.2).1 hi)

theorem edges_list (g : Grid P) (hg : WF g) : computeEdges g = .ok ((ends g.numN g.numM).map
    (fun e => (g.numM * e.1.1 + e.1.2, g.numM * e.2.1 + e.2.2))) := by
  rw [computeEdges_ok g hg]
  congr 1
  unfold ends rowsOf
  rw [List.map_append, List.map_flatMap, List.map_flatMap]
  simp only [List.map_map]
  rfl

/-- The centres of the faces, in order. -/
def faceMids (o : Eye P B) (g : Grid P) : List P :=
  rowsOf (fun n m => o.centre (g.node n m) (g.node n (m + 1)) (g.node (n + 1) (m + 1)) (g.node (n + 1) m))
    (g.numN - 1) (g.numM - 1)

theorem forRange_push {α : Type} (f : Nat → α) (M : Nat) (body : Nat → List α → Res (List α)) (l : List α)
    (hb : ∀ m, m < M → ∀ k, body m k = .ok (k ++ [f m])) : forRange 0 M body l = .ok (l ++ (List.range M).map f) := by
  have h := forRange_eq (f := body) (fun i => l ++ (List.range i).map f) (Nat.zero_le M) (by
    intro i _ hi
    rw [hb i hi]
    simp [List.range_succ])
  simpa using h

theorem forRange_push2 {α : Type} (f : Nat → Nat → α) (N M : Nat) (body : Nat → Nat → List α → Res (List α))
    (hb : ∀ n m, n < N → m < M → ∀ k, body n m k = .ok (k ++ [f n m])) :
    forRange 0 N (fun n => forRange 0 M (body n)) [] = .ok (rowsOf f N M) := by
  have h := forRange_eq (f := fun n => forRange 0 M (body n)) (fun i => rowsOf f i M) (Nat.zero_le N) (by
    intro i _ hi
    show forRange 0 M (body i) (rowsOf f i M) = _
    rw [forRange_push (f i) M (body i) _ (fun m hm k => hb i m hi hm k)]
    simp [rowsOf, List.range_succ])
  exact h

theorem faceCentres_ok (o : Eye P B) (g : Grid P) : faceCentres o g = .ok (faceMids o g) := by
  unfold faceCentres faceMids
  refine forRange_push2 _ _ _ _ (fun n m hn hm k => ?_)
  unfold faceCentre
  rw [getNode_ok (by omega) (by omega), Res.ok_bind, getNode_ok (by omega) (by omega), Res.ok_bind,
    getNode_ok (by omega) (by omega), Res.ok_bind, getNode_ok (by omega) (by omega), Res.ok_bind]

/-! ### Trees -/

theorem mem_buildPoints [PointLike P] {o : Eye P B} {l : List P} {b : B} {q : P} {i : Nat} :
    (q, i) ∈ buildPoints o l b ↔ l[i]? = some q ∧ valid q = true ∧ o.contains b q = true := by
  unfold buildPoints
  rw [List.mem_filter]
  simp [List.mem_zipIdx_iff_getElem?]

/-- The tree holds exactly the locations in the box. -/
def Shows (o : Eye P B) (t : List (P × Nat)) (at' : Nat → P → Prop) (b : B) : Prop :=
  ∀ q i, (q, i) ∈ t ↔ at' i q ∧ o.contains b q = true

/-- The points a tree is built from. -/
def pointsOf (o : Eye P B) (g : Grid P) : Loc → List P
  | .nodes => rowsOf g.node g.numN g.numM
  | .edges => edgeMids o g
  | .faces => faceMids o g

theorem shows [PointLike P] {o : Eye P B} {g : Grid P} {l : Loc} {b : B} (hc : Clear o g b l) :
    Shows o (buildPoints o (pointsOf o g l) b) (LocIs o g l) b := by
  intro q i
  rw [mem_buildPoints]
  cases l with
  | nodes =>
    simp only [pointsOf, LocIs, NodeIs, rowsOf_get]
    constructor
    · rintro ⟨⟨n, m, hn, hm, hi, hq⟩, hv, hb⟩
      exact ⟨⟨n, m, hn, hm, hi, hq, hv⟩, hb⟩
    · rintro ⟨⟨n, m, hn, hm, hi, hq, hv⟩, hb⟩
      exact ⟨⟨n, m, hn, hm, hi, hq⟩, hv, hb⟩
  | edges =>
    simp only [pointsOf, LocIs, EdgeIs, edgeMids, List.getElem?_map]
    constructor
    · rintro ⟨h, hv, hb⟩
      obtain ⟨⟨u, v⟩, he, hq⟩ := Option.map_eq_some_iff.1 h
      have hno := (ends_get _ _ _ _ _).1 he
      subst hq
      obtain ⟨h1, h2⟩ := (hc i u v hno).1 ⟨hv, hb⟩
      exact ⟨⟨u, v, hno, h1, h2, rfl⟩, hb⟩
    · rintro ⟨⟨u, v, hno, h1, h2, rfl⟩, hb⟩
      exact ⟨by rw [(ends_get _ _ _ _ _).2 hno]; rfl, (hc i u v hno).2 h1 h2, hb⟩
  | faces =>
    simp only [pointsOf, LocIs, FaceIs, faceMids, rowsOf_get]
    constructor
    · rintro ⟨⟨n, m, hn, hm, hi, hq⟩, hv, hb⟩
      subst hq
      obtain ⟨h1, h2, h3, h4⟩ := (hc n m (by omega) (by omega)).1 ⟨hv, hb⟩
      exact ⟨⟨n, m, by omega, by omega, hi, h1, h2, h3, h4, rfl⟩, hb⟩
    · rintro ⟨⟨n, m, hn, hm, hi, h1, h2, h3, h4, rfl⟩, hb⟩
      exact ⟨⟨n, m, by omega, by omega, hi, rfl⟩, (hc n m hn hm).2 h1 h2 h3 h4, hb⟩

theorem choose_spec {o : Eye P B} {dist : P → P → ℚ} (hs : SearchOk o dist) {t : List (P × Nat)} {at' : Nat → P → Prop}
    {b : B} (h : Shows o t at' b) (p : P) :
    (∃ i, choose o t p = .ok i ∧ o.nearest t p = some i ∧ Nearest o dist at' b p i) ∨
    (choose o t p = .throw ∧ o.nearest t p = none ∧ NoneIn o at' b) := by
  cases t with
  | nil =>
    right
    refine ⟨by simp [choose], hs.empty p, fun j r hj => ?_⟩
    cases hc : o.contains b r with
    | false => rfl
    | true => have := (h r j).2 ⟨hj, hc⟩; simp at this
  | cons v t =>
    left
    obtain ⟨i, q, h1, h2, h3⟩ := hs.found (v :: t) p (by simp)
    refine ⟨i, by simp [choose, h1], h1, q, ((h q i).1 h2).1, ((h q i).1 h2).2, ?_⟩
    intro j r hj hc
    exact h3 (r, j) ((h r j).2 ⟨hj, hc⟩)

/-! ### Histories -/

/-- A tree that counts as up to date was built from the grid as it is, in the box. -/
structure Good [PointLike P] (o : Eye P B) (b : B) (s : Seen P B) : Prop where
  nodes : s.nodesDirty = true ∨ (s.box = b ∧ s.nodesTree = buildPoints o (pointsOf o s.grid .nodes) b)
  edges : s.edgesDirty = true ∨ (s.box = b ∧ s.edgesTree = buildPoints o (pointsOf o s.grid .edges) b ∧
    computeEdges s.grid = .ok s.edges)
  faces : s.facesDirty = true ∨ (s.box = b ∧ s.facesTree = buildPoints o (pointsOf o s.grid .faces) b)

theorem good_dirty [PointLike P] (o : Eye P B) (b : B) (s : Seen P B) (h1 : s.nodesDirty = true) (h2 : s.edgesDirty = true)
    (h3 : s.facesDirty = true) : Good o b s := ⟨.inl h1, .inl h2, .inl h3⟩

/-- What a search does to the state. -/
structure Built [PointLike P] (o : Eye P B) (s s1 : Seen P B) (l : Loc) (b : B) : Prop where
  good : Good o b s1
  grid : s1.grid = s.grid
  table : s1.table = s.table
  tree : s1.tree l = buildPoints o (pointsOf o s.grid l) b
  edges : l = .edges → computeEdges s.grid = .ok s1.edges

theorem buildTree_ok [PointLike P] {o : Eye P B} {s : Seen P B} {l : Loc} {b : B} (hg : WF s.grid)
    (h : Good o b s) : ∃ s1, buildTree o s l b = .ok s1 ∧ Built o s s1 l b := by
  cases l with
  | faces =>
    simp only [buildTree]
    split
    · rw [faceCentres_ok, Res.ok_bind]
      refine ⟨_, rfl, ⟨?_, ?_, .inr ⟨rfl, rfl⟩⟩, rfl, rfl, rfl, fun e => by cases e⟩
      · rcases h.nodes with h1 | h1
        · exact .inl h1
        · exact .inr ⟨rfl, h1.2⟩
      · rcases h.edges with h1 | h1
        · exact .inl h1
        · exact .inr ⟨rfl, h1.2⟩
    · next hd =>
      simp only [Bool.or_eq_true, not_or, Bool.not_eq_true] at hd
      refine ⟨s, rfl, h, rfl, rfl, ?_, fun e => by cases e⟩
      rcases h.faces with h1 | h1
      · rw [h1] at hd; exact absurd hd.1 (by simp)
      · exact h1.2
  | nodes =>
    simp only [buildTree]
    split
    · rw [nodes_list _ hg, Res.ok_bind]
      refine ⟨_, rfl, ⟨.inr ⟨rfl, rfl⟩, ?_, ?_⟩, rfl, rfl, rfl, fun e => by cases e⟩
      · rcases h.edges with h1 | h1
        · exact .inl h1
        · exact .inr ⟨rfl, h1.2⟩
      · rcases h.faces with h1 | h1
        · exact .inl h1
        · exact .inr ⟨rfl, h1.2⟩
    · next hd =>
      simp only [Bool.or_eq_true, not_or, Bool.not_eq_true] at hd
      refine ⟨s, rfl, h, rfl, rfl, ?_, fun e => by cases e⟩
      rcases h.nodes with h1 | h1
      · rw [h1] at hd; exact absurd hd.1 (by simp)
      · exact h1.2
  | edges =>
    simp only [buildTree]
    split
    · rw [edges_list _ hg, Res.ok_bind, edgeCentres_ok, Res.ok_bind]
      refine ⟨_, rfl, ⟨?_, .inr ⟨rfl, rfl, edges_list _ hg⟩, ?_⟩, rfl, rfl, rfl, fun _ => edges_list _ hg⟩
      · rcases h.nodes with h1 | h1
        · exact .inl h1
        · exact .inr ⟨rfl, h1.2⟩
      · rcases h.faces with h1 | h1
        · exact .inl h1
        · exact .inr ⟨rfl, h1.2⟩
    · next hd =>
      simp only [Bool.or_eq_true, not_or, Bool.not_eq_true] at hd
      rcases h.edges with h1 | h1
      · rw [h1] at hd; exact absurd hd.1 (by simp)
      · exact ⟨s, rfl, h, rfl, rfl, h1.2.1, fun _ => h1.2.2⟩

theorem run_append [PointLike P] (o : Eye P B) : ∀ (h k : List (Step P B)) (s : Seen P B),
    run o s (h ++ k) = (run o s h >>= fun s1 => run o s1 k) := by
  intro h
  induction h with
  | nil => intro k s; rfl
  | cons a h ih =>
    intro k s
    simp only [List.cons_append, run]
    cases step o s a with
    | ok s1 => simp only [Res.ok_bind]; exact ih k s1
    | throw => rfl
    | ub => rfl

theorem run_snoc [PointLike P] {o : Eye P B} {h : List (Step P B)} {a : Step P B} {s s' : Seen P B}
    (e : run o s (h ++ [a]) = .ok s') : ∃ s1, run o s h = .ok s1 ∧ step o s1 a = .ok s' := by
  rw [run_append] at e
  obtain ⟨s1, h1, h2⟩ := Res.bind_eq_ok.1 e
  simp only [run] at h2
  obtain ⟨s2, h3, h4⟩ := Res.bind_eq_ok.1 h2
  refine ⟨s1, h1, ?_⟩
  rw [h3]; exact h4

theorem buildTree_grid [PointLike P] {o : Eye P B} {s s1 : Seen P B} {l : Loc} {b : B} (h : buildTree o s l b = .ok s1) :
    s1.grid = s.grid ∧ s1.table = s.table := by
  cases l with
  | faces =>
    simp only [buildTree] at h
    split at h
    · obtain ⟨_, _, h⟩ := Res.bind_eq_ok.1 h
      rw [← Res.ok.inj h]; exact ⟨rfl, rfl⟩
    · rw [← Res.ok.inj h]; exact ⟨rfl, rfl⟩
  | nodes =>
    simp only [buildTree] at h
    split at h
    · obtain ⟨_, _, h⟩ := Res.bind_eq_ok.1 h
      rw [← Res.ok.inj h]; exact ⟨rfl, rfl⟩
    · rw [← Res.ok.inj h]; exact ⟨rfl, rfl⟩
  | edges =>
    simp only [buildTree] at h
    split at h
    · obtain ⟨_, _, h⟩ := Res.bind_eq_ok.1 h
      obtain ⟨_, _, h⟩ := Res.bind_eq_ok.1 h
      rw [← Res.ok.inj h]; exact ⟨rfl, rfl⟩
    · rw [← Res.ok.inj h]; exact ⟨rfl, rfl⟩

theorem run_good [PointLike P] {o : Eye P B} {b : B} {s0 : Seen P B} (h0 : Good o b s0) :
    ∀ (h : List (Step P B)) {s : Seen P B}, Steady b h → run o s0 h = .ok s → WF s.grid → Good o b s := by
  intro h
  induction h using List.reverseRecOn with
  | nil => intro s _ hr _; simp only [run] at hr; rw [← Res.ok.inj hr]; exact h0
  | append_singleton h a ih =>
    intro s hst hr hg
    obtain ⟨s1, h1, h2⟩ := run_snoc hr
    cases a with
    | query l b' =>
      obtain rfl : b' = b := hst h [] l b' rfl (by simp)
      have hs1 : s1.grid = s.grid := (buildTree_grid h2).1.symm
      have hst1 : Steady b' h := by
        intro before after l2 b2 e hq
        refine hst before (after ++ [.query l b']) l2 b2 (by rw [e]; simp) ?_
        intro x hx
        rcases List.mem_append.1 hx with hx | hx
        · exact hq x hx
        · rw [List.mem_singleton.1 hx]; exact trivial
      obtain ⟨s2, h3, h4⟩ := buildTree_ok (l := l) (by rw [hs1]; exact hg) (ih hst1 h1 (by rw [hs1]; exact hg))
      rw [step, h3] at h2
      rw [← Res.ok.inj h2]
      exact h4.good
    | write k =>
      rw [step] at h2
      rw [← Res.ok.inj h2]
      exact good_dirty o b _ rfl rfl rfl
    | renumber k =>
      rw [step, renumbered] at h2
      obtain ⟨_, _, h2⟩ := Res.bind_eq_ok.1 h2
      rw [← Res.ok.inj h2]
      exact good_dirty o b _ rfl rfl rfl

/-- The table is the one of the grid. -/
def Listed (s : Seen P B) : Prop := s.table = rowsOf (fun n m => (n, m)) s.grid.numN s.grid.numM

theorem run_listed [PointLike P] {o : Eye P B} : ∀ (h : List (Step P B)) {s0 s : Seen P B}, Listed s0 →
    Numbered s0.grid h → run o s0 h = .ok s → Listed s := by
  intro h
  induction h with
  | nil => intro s0 s h0 _ hr; simp only [run] at hr; rw [← Res.ok.inj hr]; exact h0
  | cons a h ih =>
    intro s0 s h0 hn hr
    simp only [run] at hr
    obtain ⟨s1, h1, h2⟩ := Res.bind_eq_ok.1 hr
    cases a with
    | query l b =>
      obtain ⟨e1, e2⟩ := buildTree_grid h1
      refine ih ?_ ?_ h2
      · unfold Listed; rw [e1, e2]; exact h0
      · rw [e1]; exact hn
    | write k =>
      rw [step] at h1
      obtain ⟨hn1, hn2, hn3⟩ := hn
      rw [← Res.ok.inj h1] at h2
      refine ih ?_ hn3 h2
      show s0.table = rowsOf (fun n m => (n, m)) k.numN k.numM
      rw [hn1, hn2]; exact h0
    | renumber k =>
      rw [step, renumbered, table_list, Res.ok_bind] at h1
      rw [← Res.ok.inj h1] at h2
      refine ih ?_ ?_ h2
      · unfold Listed; rfl
      · exact hn

theorem fresh_ok (g : Grid P) (b : B) :
    fresh g b = .ok ⟨g, rowsOf (fun n m => (n, m)) g.numN g.numM, [], true, true, true, [], [], [], b⟩ := by
  unfold fresh
  rw [table_list, Res.ok_bind]

theorem table_get {s : Seen P B} (h : Listed s) {n m : Nat} (hn : n < s.grid.numN) (hm : m < s.grid.numM) :
    vget s.table (n * s.grid.numM + m) = .ok (n, m) := by
  rw [vget_eq_ok, h, rowsOf_get]
  exact ⟨n, m, hn, hm, rfl, rfl⟩

end Verif.CurviSearch
