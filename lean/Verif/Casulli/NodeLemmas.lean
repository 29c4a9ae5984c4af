import Verif.Casulli.StoreLemmas
import Verif.Mesh.PropsLemmas
import Mathlib.Data.List.Nodup
import Mathlib.Data.List.Flatten
/-!
# The new nodes
-/
namespace Verif.Casulli
open Verif.Mesh Verif.Faces
variable {P : Type} {mid : P → P → P} {m : Mesh P} {t : Tables P} {old : List Mask}

/-- The mask of a new node. -/
def kind : Label → Mask
  | .along _ _ => .newGeneral
  | _ => .newAssigned

/-- What is known when the nodes are made: `old` is the mask of the nodes before. -/
structure Start (m : Mesh P) (t : Tables P) (old : List Mask) : Prop where
  net : Net m t
  length : old.length = m.nodes.length
  ranks : ∀ a ∈ old, 2 ≤ a.rank
  room : ((tasks m t.faces).filter (active old)).length ≤ 9 * m.nodes.length
  fits : m.nodes.length + ((tasks m t.faces).filter (active old)).length ≤ missing

/-- The mesh and the mask after the nodes of `pre`. -/
structure Nodes (mid : P → P → P) (m : Mesh P) (t : Tables P) (old : List Mask) (pre : List Label) (r : Run P) : Prop where
  nodes : r.mesh.nodes = m.nodes ++ (pre.filter (active old)).map (position mid m t)
  edges : r.mesh.edges = m.edges
  lists : r.mesh.nodesEdges = m.nodesEdges ++ List.replicate (pre.filter (active old)).length []
  counts : r.mesh.numEdges = m.numEdges ++ List.replicate (pre.filter (active old)).length 0
  mask : r.mask = old ++ (pre.filter (active old)).map kind ++ List.replicate (9 * m.nodes.length - (pre.filter (active old)).length) .unassigned

/-- The run after the nodes of `pre`. -/
structure Made (mid : P → P → P) (m : Mesh P) (t : Tables P) (old : List Mask) (pre : List Label) (r : Run P) : Prop extends
    Nodes mid m t old pre r where
  table : TableIs m t r.table (fun x _ => if x ∈ pre then num m t.faces old x else missing)

theorem mem_faceTasks {s : State} {f : Nat} {x : Label} : x ∈ faceTasks s f ↔ ∃ ns n, s.facesNodes[f]? = some ns ∧ n ∈ ns ∧ x = .inside f n := by
  unfold faceTasks
  cases h : s.facesNodes[f]? with
  | none => simp
  | some ns =>
    simp only [Option.getD_some, List.mem_map, Option.some.injEq]
    constructor
    · rintro ⟨n, h1, rfl⟩; exact ⟨ns, n, rfl, h1, rfl⟩
    · rintro ⟨_, n, rfl, h1, rfl⟩; exact ⟨n, h1, rfl⟩

theorem mem_rimTasks {s : State} {e : Nat} {x : Label} : x ∈ rimTasks m s e ↔ Rim s e ∧ ∃ n, touches (edgeAt m e) n ∧ x = .along e n := by
  unfold rimTasks Rim
  by_cases h : s.numFaces[e]? = some 1
  · rw [if_pos h]
    simp only [List.mem_cons, List.not_mem_nil, or_false, h, true_and]
    constructor
    · rintro (rfl | rfl)
      · exact ⟨_, Or.inl rfl, rfl⟩
      · exact ⟨_, Or.inr rfl, rfl⟩
    · rintro ⟨n, h1 | h1, rfl⟩
      · rw [h1]; exact Or.inl rfl
      · rw [h1]; exact Or.inr rfl
  · rw [if_neg h]
    simp [h]

theorem mem_tasks (h : Net m t) {x : Label} : x ∈ tasks m t.faces ↔ Occurs m t.faces x ∧ ∀ n, x ≠ .old n := by
  unfold tasks
  simp only [List.mem_append, List.mem_flatMap, List.mem_range]
  constructor
  · rintro (⟨f, h1, h2⟩ | ⟨e, h1, h2⟩)
    · obtain ⟨ns, n, g1, g2, rfl⟩ := mem_faceTasks.1 h2
      exact ⟨⟨ns, g1, g2⟩, fun _ hc => by cases hc⟩
    · obtain ⟨g1, n, g2, rfl⟩ := mem_rimTasks.1 h2
      exact ⟨⟨g1, g2⟩, fun _ hc => by cases hc⟩
  · rintro ⟨h1, h2⟩
    cases x with
    | old n => exact absurd rfl (h2 n)
    | inside f n =>
      obtain ⟨ns, g1, g2⟩ := h1
      exact Or.inl ⟨f, (List.getElem?_eq_some_iff.1 g1).1, mem_faceTasks.2 ⟨ns, n, g1, g2, rfl⟩⟩
    | along e n => exact Or.inr ⟨e, used_lt (h.rim h1.1).1, mem_rimTasks.2 ⟨h1.1, n, h1.2, rfl⟩⟩

theorem nodup_tasks (h : Net m t) : (tasks m t.faces).Nodup := by
  unfold tasks
  rw [List.nodup_append]
  refine ⟨List.nodup_flatMap.2 ⟨?_, ?_⟩, List.nodup_flatMap.2 ⟨?_, ?_⟩, ?_⟩
  · intro f hf
    obtain ⟨ns, es, h1⟩ := h.face (List.mem_range.1 hf)
    unfold faceTasks
    rw [h1.nodes, Option.getD_some]
    exact h1.proper.nodesDistinct.map (fun a b hab => by injection hab)
  · refine List.nodup_range.imp ?_
    intro a b hab x hx hy
    obtain ⟨_, _, _, _, rfl⟩ := mem_faceTasks.1 hx
    obtain ⟨_, _, _, _, hc⟩ := mem_faceTasks.1 hy
    injection hc with hc _
    exact hab hc
  · intro e he
    unfold rimTasks
    split
    · rename_i hr
      have := h.noLoop e (h.rim hr).1
      simpa using this
    · exact List.nodup_nil
  · refine List.nodup_range.imp ?_
    intro a b hab x hx hy
    obtain ⟨_, _, _, rfl⟩ := mem_rimTasks.1 hx
    obtain ⟨_, _, _, hc⟩ := mem_rimTasks.1 hy
    injection hc with hc _
    exact hab hc
  · rintro x hx y hy rfl
    obtain ⟨f, _, hx⟩ := List.mem_flatMap.1 hx
    obtain ⟨e, _, hy⟩ := List.mem_flatMap.1 hy
    obtain ⟨_, _, _, _, rfl⟩ := mem_faceTasks.1 hx
    obtain ⟨_, _, _, hc⟩ := mem_rimTasks.1 hy
    cases hc

/-- Nodes of labels are nodes of the mesh before. -/
theorem Net.node_lt (h : Net m t) {x : Label} (hx : Occurs m t.faces x) : x.node < m.nodes.length := by
  have edge : ∀ {e n : Nat}, edgeAt m e ≠ noEdge → touches (edgeAt m e) n → n < m.nodes.length := by
    intro e n hu ht
    rcases h.wf.bounds e with hb | hb
    · exact absurd hb hu
    · rcases ht with rfl | rfl
      · exact hb.1
      · exact hb.2
  cases x with
  | old n => exact hx
  | inside f n =>
    obtain ⟨ns, h1, h2⟩ := hx
    obtain ⟨es, h3⟩ := h.face_nodes h1
    obtain ⟨e, _, _, he, _, ht, _⟩ := h3.two h2
    exact edge (h3.used he) ht
  | along e n => exact edge (h.rim hx.1).1 hx.2

theorem num_task {pre rest : List Label} {x : Label} (h : Net m t) (hT : tasks m t.faces = pre ++ x :: rest) (ha : active old x = true) :
    num m t.faces old x = m.nodes.length + (pre.filter (active old)).length := by
  have hx : x ∈ tasks m t.faces := by rw [hT]; simp
  have hnd := nodup_tasks h
  rw [hT, List.nodup_append] at hnd
  have hpre : x ∉ pre := fun hc => hnd.2.2 x hc x (by simp) rfl
  have hnum : num m t.faces old x = m.nodes.length + ((tasks m t.faces).filter (active old)).idxOf x := by
    cases x with
    | old n => exact absurd rfl (((mem_tasks h).1 hx).2 n)
    | inside f n => simp only [num]; rw [if_pos ha]
    | along e n => simp only [num]; rw [if_pos ha]
  rw [hnum, hT, List.filter_append, List.filter_cons_of_pos ha, List.idxOf_append_of_notMem (fun hc => hpre (List.mem_filter.1 hc).1), List.idxOf_cons_self,
    Nat.add_zero]

theorem num_inactive {x : Label} (ha : active old x = false) : num m t.faces old x = x.node := by
  cases x with
  | old n => rfl
  | inside f n => simp only [num]; rw [if_neg (by rw [ha]; simp)]
  | along e n => simp only [num]; rw [if_neg (by rw [ha]; simp)]

/-- A new node is inserted, or the node itself is used. -/
theorem newNode_ok (S : Start m t old) {pre rest : List Label} {x : Label} (hT : tasks m t.faces = pre ++ x :: rest) {r : Run P}
    (h : Nodes mid m t old pre r) :
    ∃ r1, newNode (position mid m t x) (kind x) (active old x) x.node r = .ok (num m t.faces old x, r1) ∧ Nodes mid m t old (pre ++ [x]) r1 ∧
      r1.table = r.table := by
  by_cases ha : active old x = true
  · have hlen : (pre.filter (active old)).length + 1 ≤ ((tasks m t.faces).filter (active old)).length := by
      rw [hT, List.filter_append, List.filter_cons_of_pos ha, List.length_append, List.length_cons]; omega
    have hroom := S.room
    have hf : (pre ++ [x]).filter (active old) = pre.filter (active old) ++ [x] := by
      rw [List.filter_append, List.filter_cons_of_pos ha, List.filter_nil]
    have hl1 : r.mesh.nodes.length = m.nodes.length + (pre.filter (active old)).length := by rw [h.nodes]; simp
    have hl2 : r.mesh.nodesEdges.length = r.mesh.nodes.length := by rw [hl1, h.lists]; simp [S.net.wf.lists]
    have hl3 : r.mesh.numEdges.length = r.mesh.nodes.length := by rw [hl1, h.counts, S.net.wf.counts]; simp [S.net.wf.lists]
    have hm : r.mesh.nodes.length < r.mask.length := by
      rw [hl1, h.mask]
      simp only [List.length_append, List.length_map, List.length_replicate, S.length]
      omega
    refine ⟨⟨r.acts ++ [.addNode r.mesh.nodes.length (position mid m t x)], (insertNode r.mesh (position mid m t x)).2,
      r.mask.set r.mesh.nodes.length (kind x), r.table⟩, ?_, ?_, rfl⟩
    · unfold newNode addNode insertNodeU
      rw [if_pos ha, Res.ok_bind, vset_ok _ hm, Res.ok_bind, Res.ok_bind, num_task S.net hT ha, hl1]
    · constructor
      · show r.mesh.nodes ++ [position mid m t x] = _
        rw [hf, h.nodes, List.map_append, List.append_assoc]; rfl
      · exact h.edges
      · show (r.mesh.nodesEdges.take (r.mesh.nodes.length + 1)) ++ List.replicate (r.mesh.nodes.length + 1 - r.mesh.nodesEdges.length) [] = _
        rw [List.take_of_length_le (by omega), hl2, Nat.add_sub_cancel_left, hf, h.lists, List.length_append, List.length_singleton,
          List.replicate_add, List.append_assoc]
      · show ((r.mesh.numEdges.take (r.mesh.nodes.length + 1)) ++ List.replicate (r.mesh.nodes.length + 1 - r.mesh.numEdges.length) 0).set
          r.mesh.nodes.length 0 = _
        rw [List.take_of_length_le (by omega), hl3, Nat.add_sub_cancel_left, List.set_append_right (h := by omega), hl3, Nat.sub_self, hf,
          h.counts, List.length_append, List.length_singleton, List.replicate_add, List.append_assoc]
        rfl
      · show r.mask.set r.mesh.nodes.length (kind x) = _
        rw [h.mask, hf, hl1]
        have e1 : 9 * m.nodes.length - (pre.filter (active old)).length = (9 * m.nodes.length - ((pre.filter (active old)) ++ [x]).length) + 1 := by
          rw [List.length_append, List.length_singleton]; omega
        rw [e1, List.replicate_succ, List.set_append_right (h := by simp [S.length])]
        simp [S.length]
  · have ha' : active old x = false := by simpa using ha
    have hf : (pre ++ [x]).filter (active old) = pre.filter (active old) := by
      rw [List.filter_append, List.filter_cons_of_neg ha, List.filter_nil, List.append_nil]
    refine ⟨r, ?_, ?_, rfl⟩
    · unfold newNode
      rw [if_neg ha, num_inactive ha']
    · exact ⟨hf ▸ h.nodes, h.edges, hf ▸ h.lists, hf ▸ h.counts, hf ▸ h.mask⟩

theorem Nodes.mask_old (S : Start m t old) {pre : List Label} {r : Run P} (h : Nodes mid m t old pre r) {v : Nat} (hv : v < m.nodes.length) :
    ∃ a, old[v]? = some a ∧ vget r.mask v = .ok a ∧ 2 ≤ a.rank := by
  have hv' : v < old.length := by rw [S.length]; exact hv
  refine ⟨old[v], List.getElem?_eq_getElem hv', ?_, S.ranks _ (List.getElem_mem _)⟩
  rw [vget_eq_ok, h.mask, List.append_assoc, List.getElem?_append_left hv']
  exact List.getElem?_eq_getElem hv'

theorem Nodes.node_old {pre : List Label} {r : Run P} (h : Nodes mid m t old pre r) {v : Nat} (hv : v < m.nodes.length) :
    getNode r.mesh v = .ok (m.nodes[v]?).join := by
  unfold getNode
  rw [h.nodes, List.getElem?_append_left hv, List.getElem?_eq_getElem hv]
  rfl

theorem active_iff {v : Nat} {a : Mask} {x : Label} (hx : x.node = v) (ha : old[v]? = some a) : active old x = decide (a ≠ .unassigned) := by
  unfold active
  rw [hx, ha]
  simp

theorem active_rank {v : Nat} {a : Mask} {x : Label} (hx : x.node = v) (ha : old[v]? = some a) (h2 : 2 ≤ a.rank) :
    active old x = decide (a.rank > Mask.unassigned.rank) := by
  rw [active_iff hx ha]
  cases a <;> first | rfl | (exfalso; simp [Mask.rank] at h2)

theorem made_table {pre : List Label} {x : Label} {tab : List (List Nat)} {new : Nat} (hnew : num m t.faces old x = new)
    (h : TableIs m t tab (fun y _ => if y = x then new else if y ∈ pre then num m t.faces old y else missing)) :
    TableIs m t tab (fun y _ => if y ∈ pre ++ [x] then num m t.faces old y else missing) := by
  refine h.congr ?_
  intro y e k _
  by_cases hy : y = x
  · subst hy
    rw [if_pos rfl, if_pos (by simp), hnew]
  · rw [if_neg hy]
    by_cases hp : y ∈ pre
    · rw [if_pos hp, if_pos (by simp [hp])]
    · rw [if_neg hp, if_neg (by simp [hp, hy])]

theorem not_mem_pre (h : Net m t) {pre rest : List Label} {x : Label} (hT : tasks m t.faces = pre ++ x :: rest) : x ∉ pre := by
  have hnd := nodup_tasks h
  rw [hT, List.nodup_append] at hnd
  exact fun hc => hnd.2.2 x hc x (by simp) rfl

theorem num_lt (S : Start m t old) {x : Label} (hx : Occurs m t.faces x) :
    num m t.faces old x < m.nodes.length + ((tasks m t.faces).filter (active old)).length := by
  have hv := S.net.node_lt hx
  by_cases ha : active old x = true
  · by_cases ho : ∃ n, x = .old n
    · obtain ⟨n, rfl⟩ := ho
      exact Nat.lt_of_lt_of_le hv (Nat.le_add_right _ _)
    · have hx' := (mem_tasks S.net).2 ⟨hx, fun n hc => ho ⟨n, hc⟩⟩
      obtain ⟨pre, rest, hT⟩ := List.append_of_mem hx'
      rw [num_task S.net hT ha, hT, List.filter_append, List.filter_cons_of_pos ha, List.length_append, List.length_cons]
      omega
  · rw [num_inactive (by simpa using ha)]
    omega

theorem num_ne (S : Start m t old) {x : Label} (hx : Occurs m t.faces x) : num m t.faces old x ≠ missing := by
  have := num_lt S hx
  have := S.fits
  omega

/-- One corner of a face. -/
theorem faceCorner_ok (S : Start m t old) {f v : Nat} {ns es : List Nat} (hf : FaceOf m t.faces f ns es) (hv : v ∈ ns) {c : P}
    (hc : t.centres[f]? = some c) {pre rest : List Label} (hT : tasks m t.faces = pre ++ .inside f v :: rest) {r : Run P} (h : Made mid m t old pre r) :
    ∃ r1, faceCorner mid t.faces c es v r = .ok r1 ∧ Made mid m t old (pre ++ [.inside f v]) r1 := by
  have hvn : v < m.nodes.length := S.net.node_lt (x := .inside f v) ⟨ns, hf.nodes, hv⟩
  obtain ⟨e1, e2, g1, g2, g3, g4, g5, g6, g7⟩ := (hf.congr h.edges).edgesAt hv
  simp only [edgeAt_congr h.edges] at g5 g6 g7
  obtain ⟨a, a1, a2, a3⟩ := h.toNodes.mask_old S hvn
  obtain ⟨r1, q1, q2, q3⟩ := newNode_ok S hT h.toNodes
  have hpos : halfway mid (some c) (m.nodes[v]?).join = position mid m t (.inside f v) := by simp only [position, hc]
  have hact : decide (a.rank > Mask.unassigned.rank) = active old (.inside f v) := (active_rank rfl a1 a3).symm
  have hpre := not_mem_pre S.net hT
  obtain ⟨tab, w1, w2⟩ := store_inside S.net q2.edges hf g2 g3 g4 g5 g6 g7 h.table (num m t.faces old (.inside f v)) (fun _ => if_neg hpre)
  refine ⟨{ r1 with table := tab }, ?_, ⟨⟨q2.nodes, q2.edges, q2.lists, q2.counts, q2.mask⟩, made_table rfl w2⟩⟩
  unfold faceCorner
  rw [g1, Res.ok_bind]
  simp only
  rw [a2, Res.ok_bind, h.toNodes.node_old hvn, Res.ok_bind, hpos, hact]
  have q1' : newNode (position mid m t (.inside f v)) .newAssigned (active old (.inside f v)) v r = .ok (num m t.faces old (.inside f v), r1) := q1
  rw [q1', Res.ok_bind]
  unfold store
  simp only
  rw [q3, w1, Res.ok_bind]

theorem faceCorners_ok (S : Start m t old) {f : Nat} {ns es : List Nat} (hf : FaceOf m t.faces f ns es) {c : P} (hc : t.centres[f]? = some c) :
    ∀ (l : List Nat) {pre rest : List Label} {r : Run P}, (∀ v ∈ l, v ∈ ns) → tasks m t.faces = pre ++ l.map (Label.inside f) ++ rest →
      Made mid m t old pre r → ∃ r1, faceCorners mid t.faces c es l r = .ok r1 ∧ Made mid m t old (pre ++ l.map (Label.inside f)) r1 := by
  intro l
  induction l with
  | nil =>
    intro pre rest r _ _ h
    exact ⟨r, rfl, by simpa using h⟩
  | cons v l ih =>
    intro pre rest r hl hT h
    obtain ⟨r1, h1, h2⟩ := faceCorner_ok S hf (hl v (by simp)) hc (rest := l.map (Label.inside f) ++ rest) (by rw [hT]; simp) h
    obtain ⟨r2, h3, h4⟩ := ih (rest := rest) (fun w hw => hl w (by simp [hw])) (by rw [hT]; simp) h2
    refine ⟨r2, ?_, by simpa using h4⟩
    rw [faceCorners, h1, Res.ok_bind, h3]

/-- One end of a boundary edge. -/
theorem edgeEnd_ok (S : Start m t old) {e v : Nat} (hr : Rim t.faces e) (hv : touches (edgeAt m e) v) {c : Option P}
    (hc : c = halfway mid (m.nodes[(edgeAt m e).1]?).join (m.nodes[(edgeAt m e).2]?).join) {pre rest : List Label}
    (hT : tasks m t.faces = pre ++ .along e v :: rest) {r : Run P} (h : Made mid m t old pre r) :
    ∃ r1, edgeEnd mid t.faces e c v r = .ok r1 ∧ Made mid m t old (pre ++ [.along e v]) r1 := by
  have hvn : v < m.nodes.length := S.net.node_lt (x := .along e v) ⟨hr, hv⟩
  obtain ⟨a, a1, a2, a3⟩ := h.toNodes.mask_old S hvn
  obtain ⟨r1, q1, q2, q3⟩ := newNode_ok S hT h.toNodes
  have hpos : halfway mid c (m.nodes[v]?).join = position mid m t (.along e v) := by simp only [position, hc]
  have hact : decide (a ≠ Mask.unassigned) = active old (.along e v) := (active_iff rfl a1).symm
  have hpre := not_mem_pre S.net hT
  obtain ⟨tab, w1, w2⟩ := store_along S.net q2.edges hr hv h.table (num m t.faces old (.along e v)) (num_ne S ⟨hr, hv⟩) (fun _ => if_neg hpre)
  refine ⟨{ r1 with table := tab }, ?_, ⟨⟨q2.nodes, q2.edges, q2.lists, q2.counts, q2.mask⟩, made_table rfl w2⟩⟩
  unfold edgeEnd
  rw [a2, Res.ok_bind, h.toNodes.node_old hvn, Res.ok_bind, hpos, hact]
  have q1' : newNode (position mid m t (.along e v)) .newGeneral (active old (.along e v)) v r = .ok (num m t.faces old (.along e v), r1) := q1
  rw [q1', Res.ok_bind]
  unfold store
  simp only
  rw [q3, w1, Res.ok_bind]

theorem flatMap_range {α : Type} (g : Nat → List α) {i n : Nat} (h : i < n) :
    ∃ rest, (List.range n).flatMap g = (List.range i).flatMap g ++ g i ++ rest := by
  refine ⟨((List.range n).drop (i + 1)).flatMap g, ?_⟩
  have h1 : (List.range n).take (i + 1) = List.range i ++ [i] := by
    rw [List.take_range, Nat.min_eq_left (by omega), List.range_succ]
  calc (List.range n).flatMap g = ((List.range n).take (i + 1) ++ (List.range n).drop (i + 1)).flatMap g := by rw [List.take_append_drop]
    _ = _ := by rw [h1]; simp

theorem flatMap_range_succ {α : Type} (g : Nat → List α) (i : Nat) : (List.range (i + 1)).flatMap g = (List.range i).flatMap g ++ g i := by
  rw [List.range_succ]; simp

/-- **The nodes stage**: all new nodes are made and their numbers are in their places. -/
theorem computeNewNodes_ok (S : Start m t old) {mask : List Mask} (hmask : mask = old ++ List.replicate (9 * m.nodes.length) .unassigned)
    (acts : List (Act P)) :
    ∃ r, computeNewNodes mid t ⟨acts, m, mask, List.replicate m.edges.length [missing, missing, missing, missing]⟩ = .ok r ∧
      Made mid m t old (tasks m t.faces) r := by
  have h0 : Made mid m t old [] ⟨acts, m, mask, List.replicate m.edges.length [missing, missing, missing, missing]⟩ := by
    refine ⟨⟨by simp, rfl, by simp, by simp, by simp [hmask]⟩, ⟨by simp, fun e he => ⟨[missing, missing, missing, missing], ?_, rfl, ?_, fun _ => rfl⟩⟩⟩
    · simp [he]
    · intro x k ho
      have hk := ho.lt
      have : k = 0 ∨ k = 1 ∨ k = 2 ∨ k = 3 := by omega
      rcases this with rfl | rfl | rfl | rfl <;> rfl
  obtain ⟨r1, h1, h2⟩ := forRange_inv (f := newFaceNodes mid t) (fun i r => Made mid m t old ((List.range i).flatMap (faceTasks t.faces)) r)
    (Nat.zero_le t.faces.facesNodes.length) h0 (by
      intro f r _ hf h
      obtain ⟨ns, es, hfo⟩ := S.net.face hf
      have hcl : f < t.centres.length := by rw [S.net.centres]; exact hf
      have hft : faceTasks t.faces f = ns.map (Label.inside f) := by unfold faceTasks; rw [hfo.nodes]; rfl
      obtain ⟨rest, hrest⟩ := flatMap_range (faceTasks t.faces) hf
      obtain ⟨r1, q1, q2⟩ := faceCorners_ok S hfo (List.getElem?_eq_getElem hcl) ns
        (rest := rest ++ (List.range m.edges.length).flatMap (rimTasks m t.faces)) (fun v hv => hv)
        (by unfold tasks; rw [hrest, hft]; simp) h
      refine ⟨r1, ?_, by rw [flatMap_range_succ, hft]; exact q2⟩
      unfold newFaceNodes
      rw [vget_ok hcl, Res.ok_bind, vget_eq_ok.2 hfo.nodes, Res.ok_bind, vget_eq_ok.2 hfo.edges, Res.ok_bind, q1])
  obtain ⟨r2, h3, h4⟩ := forRange_inv (f := newEdgeNodes mid t.faces)
    (fun i r => Made mid m t old ((List.range t.faces.facesNodes.length).flatMap (faceTasks t.faces) ++ (List.range i).flatMap (rimTasks m t.faces)) r)
    (Nat.zero_le m.edges.length) (s := r1) (by simpa using h2) (by
      intro e r _ he h
      obtain ⟨c, p, l, g1, g2, g3, g4, g5, _⟩ := S.net.places he
      obtain ⟨rest, hrest⟩ := flatMap_range (rimTasks m t.faces) he
      by_cases hc : c = 1
      · subst hc
        have hr : Rim t.faces e := g1
        have hrt : rimTasks m t.faces e = [.along e (edgeAt m e).1, .along e (edgeAt m e).2] := by unfold rimTasks; rw [if_pos g1]
        have hb : (edgeAt m e).1 < m.nodes.length ∧ (edgeAt m e).2 < m.nodes.length :=
          ⟨S.net.node_lt (x := .along e (edgeAt m e).1) ⟨hr, Or.inl rfl⟩, S.net.node_lt (x := .along e (edgeAt m e).2) ⟨hr, Or.inr rfl⟩⟩
        obtain ⟨r1, q1, q2⟩ := edgeEnd_ok S hr (Or.inl rfl) rfl (rest := .along e (edgeAt m e).2 :: rest)
          (by unfold tasks; rw [hrest, hrt]; simp) h
        obtain ⟨r2, q3, q4⟩ := edgeEnd_ok S hr (Or.inr rfl) rfl (rest := rest) (by unfold tasks; rw [hrest, hrt]; simp) q2
        refine ⟨r2, ?_, by rw [flatMap_range_succ, hrt]; simpa using q4⟩
        have hfit := S.net.wf.nodesFit
        unfold newEdgeNodes
        rw [vget_eq_ok.2 g1, Res.ok_bind, if_neg (by simp), getEdge_ok (by rw [h.edges]; exact he), Res.ok_bind, edgeAt_congr h.edges,
          if_neg (by omega), h.toNodes.node_old hb.1, Res.ok_bind, h.toNodes.node_old hb.2, Res.ok_bind, q1, Res.ok_bind, q3]
      · have hrt : rimTasks m t.faces e = [] := by
          unfold rimTasks
          rw [if_neg (by rw [g1]; simpa using hc)]
        refine ⟨r, ?_, by rw [flatMap_range_succ, hrt, List.append_nil]; exact h⟩
        unfold newEdgeNodes
        rw [vget_eq_ok.2 g1, Res.ok_bind, if_pos hc])
  refine ⟨r2, ?_, h4⟩
  unfold computeNewNodes
  rw [h1, Res.ok_bind, h3]

end Verif.Casulli
