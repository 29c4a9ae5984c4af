import Verif.Convert.Model
import Mathlib.Data.List.Basic
import Mathlib.Tactic.SplitIfs

/-!
# What is proved of converting projections (C93)
-/
namespace Verif.Convert

variable {P : Type} {k k' : Kernel P} {n : Int} {zone : Option (Zone P)} {r : Record P}

/-- On all valid nodes of the mesh, the formulas of the zone undo each other. -/
def Invertible (f g : P → Option P) (m : Mesh P) : Prop :=
  ∀ p, some p ∈ m.nodes → ∃ q, f p = some q ∧ g q = some p

theorem convert_cases (h : convert k n zone = .ok (k', some r)) :
    ∃ z, zone = some z ∧ r = (k.mesh.nodes, k.mesh.proj) ∧ k'.line = k.line ∧
      ((k.mesh.proj = .cartesian ∧ k'.mesh = convertMesh k.mesh z.inverse .spherical ∧
          k'.own = .spherical) ∨
        (k.mesh.proj = .spherical ∧ k'.mesh = convertMesh k.mesh z.forward .cartesian ∧
          k'.own = .cartesian)) := by
  unfold convert at h
  cases hp : projectionOf n with
  | none => rw [hp] at h; cases h
  | some t =>
    rw [hp] at h
    simp only at h
    by_cases hs : k.mesh.proj = t
    · rw [if_pos hs] at h; simp at h
    · rw [if_neg hs] at h
      cases zone with
      | none => cases hm : k.mesh.proj <;> rw [hm] at h <;> simp at h
      | some z =>
        cases hm : k.mesh.proj <;> rw [hm] at h <;>
          simp only [Res.ok.injEq, Prod.mk.injEq, Option.some.injEq, reduceCtorEq] at h
        all_goals
          obtain ⟨rfl, rfl⟩ := h
          exact ⟨z, rfl, rfl, rfl, by simp⟩

/-- Every edge of the mesh has its two nodes. -/
def Sound (m : Mesh P) : Prop :=
  ∀ e ∈ m.edges, ∃ p q, m.nodes[e.1]? = some (some p) ∧ m.nodes[e.2]? = some (some q)

/-- Every node of the mesh that is there is an end of an edge. -/
def NoLoose (m : Mesh P) : Prop :=
  ∀ (i : Nat) p, m.nodes[i]? = some (some p) → ∃ e ∈ m.edges, e.1 = i ∨ e.2 = i

/-- All nodes that are there can be converted. -/
def Convertible (f : P → Option P) (m : Mesh P) : Prop := ∀ p, some p ∈ m.nodes → ∃ q, f p = some q

theorem convertible_of_invertible {f g : P → Option P} {m : Mesh P} (h : Invertible f g m) :
    Convertible f m := fun p hp => (h p hp).imp fun _ hq => hq.1

theorem whole_map {f : P → Option P} {m : Mesh P} (hs : Sound m) (hf : Convertible f m)
    {e : Nat × Nat} (he : e ∈ m.edges) : whole (m.nodes.map fun n => n.bind f) e = true := by
  obtain ⟨p, q, hp, hq⟩ := hs e he
  obtain ⟨p', hp'⟩ := hf p (List.mem_of_getElem? hp)
  obtain ⟨q', hq'⟩ := hf q (List.mem_of_getElem? hq)
  simp [whole, hp, hq, hp', hq']

theorem joined_map {f : P → Option P} {m : Mesh P} (hs : Sound m) (hf : Convertible f m)
    {e : Nat × Nat} (he : e ∈ m.edges) {i : Nat} (hi : e.1 = i ∨ e.2 = i) :
    joined (m.nodes.map fun n => n.bind f) m.edges i = true := by
  unfold joined
  rw [List.any_eq_true]
  exact ⟨e, he, by simp [whole_map hs hf he, hi]⟩

theorem tidy_map {f : P → Option P} {m : Mesh P} (hs : Sound m) (hl : NoLoose m)
    (hf : Convertible f m) :
    tidy (m.nodes.map fun n => n.bind f) m.edges = m.nodes.map fun n => n.bind f := by
  apply List.ext_getElem?
  intro i
  unfold tidy
  rw [List.getElem?_mapIdx, List.getElem?_map]
  cases hi : m.nodes[i]? with
  | none => rfl
  | some v =>
    cases v with
    | none => simp
    | some p =>
      obtain ⟨e, he, hei⟩ := hl i p hi
      simp [joined_map hs hf he hei]

/-- Without loose nodes the administration changes nothing. -/
theorem convertMesh_eq {f : P → Option P} {m : Mesh P} {t : Proj} (hs : Sound m) (hl : NoLoose m)
    (hf : Convertible f m) :
    convertMesh m f t = ⟨m.nodes.map fun n => n.bind f, m.edges, t, m.tree, true⟩ := by
  unfold convertMesh
  simp only [tidy_map hs hl hf]
  rw [List.filter_eq_self.2 fun e he => whole_map hs hf he]

theorem convertMesh_length {f : P → Option P} {m : Mesh P} {t : Proj} :
    (convertMesh m f t).nodes.length = m.nodes.length := by
  simp [convertMesh, tidy]

theorem sound_convertMesh {f : P → Option P} {m : Mesh P} {t : Proj} (hs : Sound m)
    (hl : NoLoose m) (hf : Convertible f m) :
    Sound (convertMesh m f t) ∧ NoLoose (convertMesh m f t) := by
  rw [convertMesh_eq hs hl hf]
  constructor
  · intro e he
    obtain ⟨p, q, hp, hq⟩ := hs e he
    obtain ⟨p', hp'⟩ := hf p (List.mem_of_getElem? hp)
    obtain ⟨q', hq'⟩ := hf q (List.mem_of_getElem? hq)
    exact ⟨p', q', by simp [hp, hp'], by simp [hq, hq']⟩
  · intro i p hi
    simp only [List.getElem?_map, Option.map_eq_some_iff] at hi
    obtain ⟨v, hv, hvp⟩ := hi
    cases v with
    | none => simp at hvp
    | some p0 => exact hl i p0 hv

/-- A conversion changes nothing but coordinates: there are as many nodes as before, with the same
edges, missing nodes stay missing, and each node is converted by the formula of the zone, whatever the
order. -/
theorem node_by_node_partial (h : convert k n zone = .ok (k', some r)) (hs : Sound k.mesh)
    (hl : NoLoose k.mesh)
    (hf : ∀ z, zone = some z → Convertible z.forward k.mesh ∧ Convertible z.inverse k.mesh) :
    ∃ z f, zone = some z ∧ (k.mesh.proj = .cartesian ∧ f = z.inverse ∨
        k.mesh.proj = .spherical ∧ f = z.forward) ∧
      k'.mesh.nodes.length = k.mesh.nodes.length ∧ k'.mesh.edges = k.mesh.edges ∧
      ∀ i : Nat, (k.mesh.nodes[i]? = some none → k'.mesh.nodes[i]? = some none) ∧
        ∀ p, k.mesh.nodes[i]? = some (some p) → k'.mesh.nodes[i]? = some (f p) := by
  obtain ⟨z, hz, -, -, ⟨hp, hm, -⟩ | ⟨hp, hm, -⟩⟩ := convert_cases h
  · rw [convertMesh_eq hs hl (hf z hz).2] at hm
    refine ⟨z, z.inverse, hz, Or.inl ⟨hp, rfl⟩, by simp [hm], by rw [hm], fun i => ⟨?_, ?_⟩⟩
    · intro hi; rw [hm]; simp [hi]
    · intro p hi; rw [hm]; simp [hi]
  · rw [convertMesh_eq hs hl (hf z hz).1] at hm
    refine ⟨z, z.forward, hz, Or.inr ⟨hp, rfl⟩, by simp [hm], by rw [hm], fun i => ⟨?_, ?_⟩⟩
    · intro hi; rw [hm]; simp [hi]
    · intro p hi; rw [hm]; simp [hi]

theorem map_back {f g : P → Option P} {m : Mesh P} (h : Invertible f g m) :
    (m.nodes.map fun n => n.bind f).map (fun n => n.bind g) = m.nodes := by
  rw [List.map_map]
  conv_rhs => rw [← List.map_id m.nodes]
  apply List.map_congr_left
  intro a ha
  cases a with
  | none => rfl
  | some p =>
    obtain ⟨q, h1, h2⟩ := h p ha
    simp [h1, h2]

theorem convertMesh_back {f g : P → Option P} {m : Mesh P} {t t' : Proj} (hs : Sound m)
    (hl : NoLoose m) (h : Invertible f g m) :
    (convertMesh (convertMesh m f t) g t').nodes = m.nodes ∧
      (convertMesh (convertMesh m f t) g t').edges = m.edges := by
  have hf := convertible_of_invertible h
  obtain ⟨h1, h2⟩ := sound_convertMesh (t := t) hs hl hf
  have h3 : Convertible g (convertMesh m f t) := by
    rw [convertMesh_eq hs hl hf]
    intro q hq
    simp only [List.mem_map] at hq
    obtain ⟨v, hv, hvq⟩ := hq
    cases v with
    | none => simp at hvq
    | some p =>
      obtain ⟨q', e1, e2⟩ := h p hv
      simp only [Option.bind_some, e1, Option.some.injEq] at hvq
      exact ⟨p, by rw [← hvq, e2]⟩
  rw [convertMesh_eq h1 h2 h3, convertMesh_eq hs hl hf]
  exact ⟨map_back h, rfl⟩

/-- Converting to longitude and latitude and back gives the mesh there was, in the projection there
was. -/
theorem there_and_back {z : Zone P} (hc : k.mesh.proj = .cartesian)
    (hs : Sound k.mesh) (hl : NoLoose k.mesh) (hz : Invertible z.inverse z.forward k.mesh) :
    ∃ k1 r1 k2 r2, convert k 1 (some z) = .ok (k1, some r1) ∧
      convert k1 0 (some z) = .ok (k2, some r2) ∧
      k1.mesh.proj = .spherical ∧ k1.own = .spherical ∧
      k2.mesh.proj = .cartesian ∧ k2.own = .cartesian ∧ k2.mesh.nodes = k.mesh.nodes ∧
      k2.mesh.edges = k.mesh.edges := by
  refine ⟨⟨convertMesh k.mesh z.inverse .spherical, .spherical, k.line⟩, (k.mesh.nodes, .cartesian),
    ⟨convertMesh (convertMesh k.mesh z.inverse .spherical) z.forward .cartesian, .cartesian, k.line⟩,
    ((convertMesh k.mesh z.inverse .spherical).nodes, .spherical), ?_, ?_, rfl, rfl, rfl, rfl,
    convertMesh_back hs hl hz⟩
  · simp [convert, projectionOf, hc]
  · simp [convert, projectionOf, convertMesh]

/-- The same the other way round. -/
theorem back_and_there {z : Zone P} (hc : k.mesh.proj = .spherical)
    (hs : Sound k.mesh) (hl : NoLoose k.mesh) (hz : Invertible z.forward z.inverse k.mesh) :
    ∃ k1 r1 k2 r2, convert k 0 (some z) = .ok (k1, some r1) ∧
      convert k1 1 (some z) = .ok (k2, some r2) ∧
      k1.mesh.proj = .cartesian ∧ k1.own = .cartesian ∧
      k2.mesh.proj = .spherical ∧ k2.own = .spherical ∧ k2.mesh.nodes = k.mesh.nodes ∧
      k2.mesh.edges = k.mesh.edges := by
  refine ⟨⟨convertMesh k.mesh z.forward .cartesian, .cartesian, k.line⟩, (k.mesh.nodes, .spherical),
    ⟨convertMesh (convertMesh k.mesh z.forward .cartesian) z.inverse .spherical, .spherical, k.line⟩,
    ((convertMesh k.mesh z.forward .cartesian).nodes, .cartesian), ?_, ?_, rfl, rfl, rfl, rfl,
    convertMesh_back hs hl hz⟩
  · simp [convert, projectionOf, hc]
  · simp [convert, projectionOf, convertMesh]

/-- Undo gives back the nodes and the projection of the mesh, redo the converted ones.  Edges are left
as they are, which are those before the conversion by `node_by_node_partial`. -/
theorem undone (h : convert k n zone = .ok (k', some r)) :
    ∃ m r' m' r'', swap k'.mesh r = .ok (m, r') ∧ m.nodes = k.mesh.nodes ∧ m.proj = k.mesh.proj ∧
      m.edges = k'.mesh.edges ∧ swap m r' = .ok (m', r'') ∧ m'.nodes = k'.mesh.nodes ∧
      m'.edges = k'.mesh.edges ∧ m'.proj = k'.mesh.proj := by
  obtain ⟨z, -, hr, -, hm⟩ := convert_cases h
  have hl : k'.mesh.nodes.length = k.mesh.nodes.length := by
    rcases hm with ⟨-, hm, -⟩ | ⟨-, hm, -⟩ <;> rw [hm] <;> exact convertMesh_length
  refine ⟨⟨k.mesh.nodes, k'.mesh.edges, k.mesh.proj, k'.mesh.tree, k'.mesh.refresh⟩,
    (k'.mesh.nodes, k'.mesh.proj),
    ⟨k'.mesh.nodes, k'.mesh.edges, k'.mesh.proj, k'.mesh.tree, k'.mesh.refresh⟩,
    (k.mesh.nodes, k.mesh.proj), ?_, rfl, rfl, rfl, ?_, rfl, rfl, rfl⟩
  · subst hr
    unfold swap
    rw [if_neg (by simp [hl])]
    simp only [← hl, List.drop_length, List.take_length, List.append_nil]
  · unfold swap
    rw [if_neg (by simp [hl])]
    simp only [hl, List.drop_length, List.take_length, List.append_nil]

/-- A search right after a conversion looks at the converted nodes, and goes on to do so. -/
theorem search_fresh (h : convert k n zone = .ok (k', some r)) :
    (search k'.mesh).2 = k'.mesh.nodes ∧ (search (search k'.mesh).1).2 = k'.mesh.nodes := by
  have hf : k'.mesh.refresh = true := by
    obtain ⟨z, -, -, -, ⟨-, hm, -⟩ | ⟨-, hm, -⟩⟩ := convert_cases h <;> rw [hm] <;> rfl
  constructor
  · unfold search
    rw [if_pos hf]
  · have hs : search k'.mesh = (⟨k'.mesh.nodes, k'.mesh.edges, k'.mesh.proj, k'.mesh.nodes, false⟩,
        k'.mesh.nodes) := by
      unfold search
      rw [if_pos hf]
    rw [hs]
    rfl

/-- Asking for the projection the mesh has changes nothing, whatever the zone. -/
theorem same_projection (h : projectionOf n = some k.mesh.proj) : convert k n zone = .ok (k, none) := by
  simp [convert, h]

/-- A number that is no projection is refused; so is a zone that cannot be read, and a mesh in the
accurate projection, unless nothing has to be done. -/
theorem refused (h : projectionOf n = none ∨ (projectionOf n ≠ some k.mesh.proj ∧
    (zone = none ∨ k.mesh.proj = .accurate))) : convert k n zone = .throw := by
  unfold convert
  rcases h with h | ⟨h1, h2⟩
  · rw [h]
  · cases hp : projectionOf n with
    | none => rfl
    | some t =>
      simp only
      rw [if_neg (by intro he; exact h1 (by rw [hp, he]))]
      rcases h2 with rfl | h2
      · cases k.mesh.proj <;> rfl
      · rw [h2]

/-- Cartesian and spherical are made when they are asked for. -/
theorem asked_partial (h : convert k n zone = .ok (k', some r)) (hn : n = 0 ∨ n = 1) :
    projectionOf n = some k'.mesh.proj ∧ k'.own = k'.mesh.proj := by
  have hne : projectionOf n ≠ some k.mesh.proj := by
    intro he; rw [same_projection he] at h; simp at h
  obtain ⟨z, -, -, -, ⟨hp, hm, ho⟩ | ⟨hp, hm, ho⟩⟩ := convert_cases h <;>
    rcases hn with rfl | rfl <;> simp_all [projectionOf, convertMesh]

/-! ## A plane with a single zone -/

/-- Points of the plane with halves and doubles as formulas. -/
def demo : Kernel Nat :=
  ⟨⟨[some 2, none, some 6], [(0, 2)], .cartesian, [], true⟩, .cartesian,
    ⟨[some 4], [], .cartesian, [], true⟩⟩

/-- The formulas. -/
def demoZone : Zone Nat := ⟨fun x => some (2 * x), fun x => some (x / 2)⟩

example : Invertible demoZone.inverse demoZone.forward demo.mesh := by
  intro p hp
  simp only [demo, List.mem_cons, Option.some.injEq, reduceCtorEq, List.not_mem_nil, or_false,
    false_or] at hp
  rcases hp with rfl | rfl <;> exact ⟨_, rfl, rfl⟩

example : Sound demo.mesh := by
  intro e he
  simp only [demo, List.mem_cons, List.not_mem_nil, or_false] at he
  subst he
  exact ⟨2, 6, rfl, rfl⟩

example : NoLoose demo.mesh := by
  intro i p hi
  refine ⟨(0, 2), by simp [demo], ?_⟩
  match i, hi with
  | 0, _ => simp
  | 1, h => simp [demo] at h
  | 2, _ => simp
  | i + 3, h => simp [demo] at h

example : ∃ k' r, convert demo 1 (some demoZone) = .ok (k', some r) ∧
    k'.mesh.nodes = [some 1, none, some 3] := ⟨_, _, rfl, rfl⟩

/-- The demo after conversion. -/
def demoRound : Kernel Nat := ⟨convertMesh demo.mesh demoZone.inverse .spherical, .spherical, demo.line⟩

example : demoRound.mesh.nodes = [some 1, none, some 3] ∧ demoRound.mesh.edges = [(0, 2)] ∧
    Invertible demoZone.forward demoZone.inverse demoRound.mesh := by
  refine ⟨rfl, rfl, ?_⟩
  intro p hp
  have hp' : some p ∈ [some 1, none, some 3] := hp
  simp only [List.mem_cons, Option.some.injEq, reduceCtorEq, List.not_mem_nil, or_false,
    false_or] at hp'
  rcases hp' with rfl | rfl <;> exact ⟨_, rfl, rfl⟩

/-! ## Where it fails -/

/-- The accurate projection is never made, although the call succeeds: from the plane the mesh
becomes spherical, and a spherical mesh is turned into one in the plane. -/
theorem accurate_not_made (z : Zone P) (hk : k.mesh.proj ≠ .accurate) :
    ∃ k' r, convert k 2 (some z) = .ok (k', some r) ∧ k'.mesh.proj ≠ .accurate ∧
      (k.mesh.proj = .spherical → k'.mesh.proj = .cartesian) := by
  cases hp : k.mesh.proj with
  | cartesian =>
    refine ⟨⟨convertMesh k.mesh z.inverse .spherical, .spherical, k.line⟩,
      (k.mesh.nodes, k.mesh.proj), ?_, ?_, ?_⟩
    · simp [convert, projectionOf, hp]
    · simp [convertMesh]
    · intro h; cases h
  | spherical =>
    refine ⟨⟨convertMesh k.mesh z.forward .cartesian, .cartesian, k.line⟩,
      (k.mesh.nodes, k.mesh.proj), ?_, ?_, ?_⟩
    · simp [convert, projectionOf, hp]
    · simp [convertMesh]
    · intro _; rfl
  | accurate => exact absurd hp hk

/-- A node without an edge is lost, in every mesh and for every zone. -/
theorem loose_node_lost (h : convert k n zone = .ok (k', some r)) {i : Nat}
    (hi : i < k.mesh.nodes.length) (hl : ∀ e ∈ k.mesh.edges, e.1 ≠ i ∧ e.2 ≠ i) :
    k'.mesh.nodes[i]? = some none := by
  have key : ∀ (f : P → Option P) t, (convertMesh k.mesh f t).nodes[i]? = some none := by
    intro f t
    have hj : joined (k.mesh.nodes.map fun n => n.bind f) k.mesh.edges i = false := by
      unfold joined
      rw [List.any_eq_false]
      intro e he
      simp [hl e he]
    simp [convertMesh, tidy, hj, List.getElem?_mapIdx, List.getElem?_eq_getElem hi]
  obtain ⟨z, -, -, -, ⟨-, hm, -⟩ | ⟨-, hm, -⟩⟩ := convert_cases h
  · rw [hm]; exact key _ _
  · rw [hm]; exact key _ _

/-- The other meshes of the kernel are not converted: a 1D mesh in the projection of the kernel is in
another one afterwards. -/
theorem line_left (h : convert k n zone = .ok (k', some r)) (h1 : k.own = k.mesh.proj)
    (h2 : k.line.proj = k.own) : k'.line = k.line ∧ k'.line.proj ≠ k'.own := by
  obtain ⟨z, -, -, hl, ⟨hp, -, ho⟩ | ⟨hp, -, ho⟩⟩ := convert_cases h
  · exact ⟨hl, by rw [hl, h2, h1, hp, ho]; decide⟩
  · exact ⟨hl, by rw [hl, h2, h1, hp, ho]; decide⟩

/-- After a conversion, a search and undo, a search looks at the converted nodes, for every mesh with
a node that is changed. -/
theorem undo_search_stale (h : convert k n zone = .ok (k', some r))
    (hne : k'.mesh.nodes ≠ k.mesh.nodes) :
    ∃ m r', swap (search k'.mesh).1 r = .ok (m, r') ∧ m.nodes = k.mesh.nodes ∧
      (search m).2 = k'.mesh.nodes ∧ (search m).2 ≠ m.nodes := by
  obtain ⟨z, -, hr, -, hm⟩ := convert_cases h
  have hl : k'.mesh.nodes.length = k.mesh.nodes.length := by
    rcases hm with ⟨-, hm, -⟩ | ⟨-, hm, -⟩ <;> rw [hm] <;> exact convertMesh_length
  have hf : k'.mesh.refresh = true := by
    rcases hm with ⟨-, hm, -⟩ | ⟨-, hm, -⟩ <;> rw [hm] <;> rfl
  refine ⟨⟨k.mesh.nodes, k'.mesh.edges, k.mesh.proj, k'.mesh.nodes, false⟩, (k'.mesh.nodes, k'.mesh.proj), ?_, rfl,
    ?_, ?_⟩
  · subst hr
    unfold search swap
    rw [if_pos hf, if_neg (by simp [hl])]
    simp only [← hl, List.drop_length, List.take_length, List.append_nil]
  · rfl
  · exact hne

end Verif.Convert
