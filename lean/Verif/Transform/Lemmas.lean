import Verif.Transform.Model
import Verif.Mesh.CompactLemmas
import Verif.Mesh.AdminLemmas
import Verif.Mesh.UndoLemmas
import Mathlib.Tactic.Ring
import Mathlib.Tactic.LinearCombination
/-!
# Lemmas: translation and rotation
-/
namespace Verif.Transform
open Verif.Mesh

theorem swap_numbered {P : Type} : ∀ (saved ns pre : List (Option P)) (_ : ns.length = saved.length),
    swapNodes ((List.range' pre.length saved.length).zip saved) (pre ++ ns) = .ok ((List.range' pre.length saved.length).zip ns, pre ++ saved)
  | [], [], pre, _ => by simp [swapNodes]
  | [], _ :: _, _, h => by simp at h
  | _ :: _, [], _, h => by simp at h
  | v :: saved, w :: ns, pre, h => by
    have ih := swap_numbered saved ns (pre ++ [v]) (by simpa using h)
    have h1 : vget (pre ++ w :: ns) pre.length = .ok w := by rw [vget_eq_ok]; simp
    have h2 : vset (pre ++ w :: ns) pre.length v = .ok (pre ++ v :: ns) := by rw [vset_eq_ok]; simp
    simp only [List.length_cons, List.range'_succ, List.zip_cons_cons, swapNodes, h1, h2, Res.ok_bind]
    simp only [List.length_append, List.length_cons, List.length_nil, Nat.zero_add, List.append_assoc, List.cons_append, List.nil_append] at ih
    rw [ih]
    rfl

theorem swap_all {P : Type} {saved ns : List (Option P)} (h : ns.length = saved.length) :
    swapNodes (numbered saved) ns = .ok (numbered ns, saved) := by
  have := swap_numbered saved ns [] h
  simp only [List.length_nil, List.nil_append] at this
  unfold numbered
  rw [this, h]

theorem seg_map {f : Pt → Pt} {gone : Pt → Bool} {nodes : List (Option Pt)} (hno : ∀ p, some p ∈ nodes → gone (f p) = false) (e : Edge) :
    (seg (nodes.map (fun v => v.bind (fun p => if gone (f p) then none else some (f p)))) e).isSome = (seg nodes e).isSome := by
  have hmap : nodes.map (fun v => v.bind (fun p => if gone (f p) then none else some (f p))) = nodes.map (Option.map f) := by
    apply List.map_congr_left
    intro v hv
    cases v with
    | none => rfl
    | some p => simp [hno p hv]
  rw [hmap]
  unfold seg
  simp only [List.getElem?_map]
  cases nodes[e.1]? with
  | none => simp
  | some a =>
    cases nodes[e.2]? with
    | none => cases a <;> simp
    | some b => cases a <;> cases b <;> simp

/-- What the transformation does to the mesh. -/
theorem transform_run {gone : Pt → Bool} {order : Nat → List Nat → List Nat} {f : Pt → Pt} {m : Mesh Pt} (hn : m.nodes.length ≤ missing)
    (hb : inBounds m = true) (hno : ∀ p, some p ∈ m.nodes → gone (f p) = false) :
    ∃ m', transform true gone order f m = .ok ([.translate (numbered m.nodes)], m') ∧ m'.nodes.length = m.nodes.length ∧
      m'.edges.length = m.edges.length ∧
      (∀ n : Nat, (Used m n → m'.nodes[n]?.join = (m.nodes[n]?.join).map f) ∧ (¬ Used m n → m'.nodes[n]?.join = none)) ∧
      ∀ e, edgeAt m' e = if (seg m.nodes (edgeAt m e)).isSome then edgeAt m e else noEdge := by
  let new := m.nodes.map (fun v => v.bind (fun p => if gone (f p) then none else some (f p)))
  let k : Mesh Pt := { m with nodes := new }
  have hl : new.length = m.nodes.length := List.length_map _
  have hb' : inBounds k = true := by
    simp only [inBounds] at hb ⊢
    show m.edges.all _ = true
    simp only [k, hl]
    exact hb
  have hn' : k.nodes.length ≤ missing := by show new.length ≤ _; omega
  obtain ⟨m1, h1, h2, h3, h4⟩ := setUnconnectedInvalid_ok hn' hb'
  have hseg : ∀ e, (seg new e).isSome = (seg m.nodes e).isSome := seg_map hno
  have hused : ∀ n, connected k n = true ↔ Used m n := by
    intro n
    rw [connected_iff hn']
    unfold Used
    constructor
    · rintro ⟨e, he, hs, hx⟩
      exact ⟨e, he, by rw [← hseg]; exact hs, hx⟩
    · rintro ⟨e, he, hs, hx⟩
      exact ⟨e, he, by show (seg new e).isSome = true; rw [hseg]; exact hs, hx⟩
  have hnode : ∀ n : Nat, m1.nodes[n]?.join = if connected k n then new[n]?.join else none := by
    intro n
    rw [h2, connectedNodes_get]
  have hnew : ∀ n : Nat, new[n]?.join = (m.nodes[n]?.join).map f := by
    intro n
    simp only [new, List.getElem?_map]
    cases hx : m.nodes[n]? with
    | none => rfl
    | some v =>
      cases v with
      | none => rfl
      | some p => simp [hno p (List.mem_of_getElem? hx)]
  have hmain : ∀ m' : Mesh Pt, m'.nodes = m1.nodes → m'.edges = m1.edges → m'.nodes.length = m.nodes.length ∧ m'.edges.length = m.edges.length ∧
      (∀ n : Nat, (Used m n → m'.nodes[n]?.join = (m.nodes[n]?.join).map f) ∧ (¬ Used m n → m'.nodes[n]?.join = none)) ∧
      ∀ e, edgeAt m' e = if (seg m.nodes (edgeAt m e)).isSome then edgeAt m e else noEdge := by
    intro m' e1 e2
    refine ⟨by rw [e1, h2, connectedNodes_length]; exact hl, by rw [e2, h3], fun n => ⟨fun hu => ?_, fun hu => ?_⟩, fun e => ?_⟩
    · rw [e1, hnode, if_pos ((hused n).2 hu), hnew]
    · rw [e1, hnode, if_neg fun h => hu ((hused n).1 h)]
    · have := h4 e
      have hk : edgeAt k e = edgeAt m e := rfl
      rw [hk] at this
      rw [hseg] at this
      rw [← this]
      simp [edgeAt, e2]
  unfold transform
  simp only [Bool.not_true, Bool.false_eq_true, if_false]
  show ∃ m', ((administrate order k).bind _) = _ ∧ _
  unfold administrate
  rw [h1]
  simp only
  split
  · exact ⟨m1, rfl, hmain m1 rfl rfl⟩
  · exact ⟨_, rfl, hmain _ rfl rfl⟩

/-- The transformation in general. -/
theorem transform_edges {gone : Pt → Bool} {order : Nat → List Nat → List Nat} {f : Pt → Pt} {m : Mesh Pt} (hn : m.nodes.length ≤ missing)
    (hb : inBounds m = true) :
    ∃ m', transform true gone order f m = .ok ([.translate (numbered m.nodes)], m') ∧ m'.nodes.length = m.nodes.length ∧
      (∀ e, (seg (m.nodes.map (fun v => v.bind (fun p => if gone (f p) then none else some (f p)))) (edgeAt m e)).isSome = false → edgeAt m' e = noEdge) := by
  let new := m.nodes.map (fun v => v.bind (fun p => if gone (f p) then none else some (f p)))
  let k : Mesh Pt := { m with nodes := new }
  have hl : new.length = m.nodes.length := List.length_map _
  have hb' : inBounds k = true := by
    simp only [inBounds] at hb ⊢
    show m.edges.all _ = true
    simp only [k, hl]
    exact hb
  have hn' : k.nodes.length ≤ missing := by show new.length ≤ _; omega
  obtain ⟨m1, h1, h2, h3, h4⟩ := setUnconnectedInvalid_ok hn' hb'
  have hmain : ∀ m' : Mesh Pt, m'.nodes = m1.nodes → m'.edges = m1.edges → m'.nodes.length = m.nodes.length ∧
      (∀ e, (seg new (edgeAt m e)).isSome = false → edgeAt m' e = noEdge) := by
    intro m' e1 e2
    refine ⟨by rw [e1, h2, connectedNodes_length]; exact hl, fun e hs => ?_⟩
    have := h4 e
    have hk : edgeAt k e = edgeAt m e := rfl
    rw [hk, if_neg (by show ¬ ((seg new (edgeAt m e)).isSome = true); rw [hs]; decide)] at this
    rw [← this]
    simp [edgeAt, e2]
  unfold transform
  simp only [Bool.not_true, Bool.false_eq_true, if_false]
  show ∃ m', ((administrate order k).bind _) = _ ∧ _
  unfold administrate
  rw [h1]
  simp only
  split
  · exact ⟨m1, rfl, hmain m1 rfl rfl⟩
  · exact ⟨_, rfl, hmain _ rfl rfl⟩

theorem rotate_dist (a : ℝ) (p q : Pt) :
    ((rotate a p).x - (rotate a q).x) ^ 2 + ((rotate a p).y - (rotate a q).y) ^ 2 = (p.x - q.x) ^ 2 + (p.y - q.y) ^ 2 := by
  simp only [rotate]
  linear_combination ((p.x - q.x) ^ 2 + (p.y - q.y) ^ 2) * Real.sin_sq_add_cos_sq (a * degToRad)

theorem rotate_cross (a : ℝ) (p q r : Pt) :
    ((rotate a q).x - (rotate a p).x) * ((rotate a r).y - (rotate a p).y) - ((rotate a q).y - (rotate a p).y) * ((rotate a r).x - (rotate a p).x) =
      (q.x - p.x) * (r.y - p.y) - (q.y - p.y) * (r.x - p.x) := by
  simp only [rotate]
  linear_combination ((q.x - p.x) * (r.y - p.y) - (q.y - p.y) * (r.x - p.x)) * Real.sin_sq_add_cos_sq (a * degToRad)

theorem rotationAbout_apply (c : Pt) (a : ℝ) (p : Pt) :
    (rotationAbout c a).apply p = (rotate a ⟨p.x - c.x, p.y - c.y⟩).add c := by
  ext
  · simp only [rotationAbout, Rigid.move, Rigid.turn, Rigid.start, Rigid.apply, Pt.add, rotate, add_zero]; ring
  · simp only [rotationAbout, Rigid.move, Rigid.turn, Rigid.start, Rigid.apply, Pt.add, rotate, add_zero]; ring

end Verif.Transform
