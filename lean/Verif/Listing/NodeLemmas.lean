import Verif.Listing.Lemmas
import Verif.Polygons.ContainsProps
/-!
# Lemmas: the loops over the nodes
-/
namespace Verif.Listing
open Verif.Mesh Verif.Polygons

/-- What is left of the selection from node `i` on. -/
def chosenFrom (mask : List Nat) (i : Nat) : List Nat := (List.range' i (mask.length - i)).filter fun j => decide (mask[j]?.getD 0 > 0)

theorem chosenFrom_step {mask : List Nat} {i : Nat} (h : i < mask.length) :
    chosenFrom mask i = (if mask[i] > 0 then [i] else []) ++ chosenFrom mask (i + 1) := by
  unfold chosenFrom
  rw [show mask.length - i = (mask.length - (i + 1)) + 1 by omega, List.range'_succ, List.filter_cons]
  simp only [List.getElem?_eq_getElem h, Option.getD_some, decide_eq_true_eq]
  split <;> rfl

theorem select_loop {mask : List Nat} (k i : Nat) (hk : i + k = mask.length) (b : List Int) (c : Nat) (hc : c ≤ b.length) :
    loopN (selectStep mask) k i (b, c) =
      if c + (chosenFrom mask i).length ≤ b.length then
        .ok (b.take c ++ (chosenFrom mask i).map (fun (j : Nat) => (j : Int)) ++ b.drop (c + (chosenFrom mask i).length), c + (chosenFrom mask i).length)
      else .ub := by
  induction k generalizing i b c with
  | zero =>
    have e : chosenFrom mask i = [] := by unfold chosenFrom; rw [show mask.length - i = 0 by omega]; rfl
    rw [e, if_pos (by simpa using hc)]
    simp [loopN]
  | succ k ih =>
    have hi : i < mask.length := by omega
    rw [loopN, selectStep, vget_ok hi, Res.ok_bind, chosenFrom_step hi]
    by_cases hb : mask[i] > 0
    · rw [if_pos hb, if_pos hb]
      simp only []
      by_cases hl : c < b.length
      · rw [vset_ok _ hl]
        simp only [Res.ok_bind]
        rw [ih (i + 1) (by omega) _ _ (by simp; omega)]
        simp only [List.length_set, List.length_append, List.length_cons, List.length_nil]
        have e1 : List.take (c + 1) (b.set c (i : Int)) = b.take c ++ [(i : Int)] := by
          rw [List.take_set, List.take_add_one, List.getElem?_eq_getElem (by omega)]
          rw [List.set_append_right _ _ (by simp)]
          simp [List.length_take, Nat.min_eq_left (by omega : c ≤ b.length)]
        have e2 : List.drop (c + 1 + (chosenFrom mask (i + 1)).length) (b.set c (i : Int)) = b.drop (c + (0 + 1 + (chosenFrom mask (i + 1)).length)) := by
          rw [List.drop_set_of_lt (by omega)]
          congr 1; omega
        by_cases hf : c + 1 + (chosenFrom mask (i + 1)).length ≤ b.length
        · rw [if_pos hf, if_pos (by omega), e1, e2]
          congr 1
          refine Prod.ext ?_ (by simp only []; omega)
          simp
        · rw [if_neg hf, if_neg (by omega)]
      · rw [vset_ub _ (by omega), if_neg (by simp only [List.length_append, List.length_cons, List.length_nil]; omega)]
        rfl
    · rw [if_neg hb, if_neg hb, Res.ok_bind, ih (i + 1) (by omega) _ _ hc]
      rfl

theorem count_loop {mask : List Nat} (k i : Nat) (hk : i + k = mask.length) (c : Nat) :
    loopN (countStep mask) k i c = .ok (c + (chosenFrom mask i).length) := by
  induction k generalizing i c with
  | zero =>
    have e : chosenFrom mask i = [] := by unfold chosenFrom; rw [show mask.length - i = 0 by omega]; rfl
    rw [e]; rfl
  | succ k ih =>
    have hi : i < mask.length := by omega
    rw [loopN, countStep, vget_ok hi, Res.ok_bind, Res.ok_bind, chosenFrom_step hi, ih (i + 1) (by omega)]
    congr 1
    split <;> simp; omega

theorem mem_chosen {mask : List Nat} {i : Nat} : i ∈ chosenFrom mask 0 ↔ i < mask.length ∧ mask[i]?.getD 0 > 0 := by
  unfold chosenFrom
  simp [List.mem_filter, List.mem_range'_1]

theorem chosen_increasing (mask : List Nat) : (chosenFrom mask 0).Pairwise (· < ·) := List.Pairwise.filter _ List.pairwise_lt_range'

theorem invalid_outside (test : List Pt → Pt → Bool) {es : List Enclosure} (h : es ≠ []) {p : Pt} (hp : p.isValid = false) :
    (isPointInPolygons test es p).1 = false := by
  have key : ∀ (es : List Enclosure) (i : Nat), (inPolygonsLoop test p es i).1 = false := by
    intro es
    induction es with
    | nil => intro i; rfl
    | cons e es ih => intro i; simp [inPolygonsLoop, containsRegion, hp, ih]
  have he : es.isEmpty = false := by cases es <;> simp at h ⊢
  simp only [isPointInPolygons, he, Bool.false_eq_true, if_false]
  exact key es 0

theorem mask_get (test : List Pt → Pt → Bool) (es : List Enclosure) (nodes : List (Option Pt)) (inside : Bool) (i : Nat) (v : Option Pt)
    (h : nodes[i]? = some v) :
    (nodeMaskFromPolygon test es nodes inside)[i]?.getD 0 > 0 ↔ (inside = true ↔ (isPointInPolygons test es (Quality.stored v)).1 = true) := by
  unfold nodeMaskFromPolygon pointsInPolygons
  simp only [List.getElem?_map, h, Option.map_some, Option.getD_some]
  cases inside <;> cases (isPointInPolygons test es (Quality.stored v)).1 <;> simp

theorem mask_length (test : List Pt → Pt → Bool) (es : List Enclosure) (nodes : List (Option Pt)) (inside : Bool) :
    (nodeMaskFromPolygon test es nodes inside).length = nodes.length := by simp [nodeMaskFromPolygon, pointsInPolygons]

end Verif.Listing
