import Verif.Refine.RoundLemmas
/-!
# Lemmas: the whole refinement
-/
namespace Verif.Refine
open Verif.Mesh Verif.Faces Verif.Circular
variable {P : Type}

theorem administrateAll_makes {mid : P → P → P} {g : Setting P} {m : Mesh P} {a : List (Act P) × Mesh P × State} (h : administrateAll g m = .ok a) :
    Makes mid m a.1 a.2.1 := by
  simp only [administrateAll, Res.bind_eq_ok] at h
  obtain ⟨⟨as, m'⟩, h1, st, _, h2⟩ := h
  simp only [Res.ok.injEq] at h2
  subst h2
  exact (administrateU_makes h1).1

theorem refineLevel_makes {g : Setting P} {w : Spread} {v v' : Level P} (h : refineLevel g w v = .ok v') :
    ∃ as, v'.acts = v.acts ++ as ∧ Makes g.mid v.mesh as v'.mesh := by
  simp only [refineLevel, Res.bind_eq_ok] at h
  obtain ⟨s, h1, a, h2, bro, _, h3⟩ := h
  simp only [Res.ok.injEq] at h3
  subst h3
  obtain ⟨as, c1, c2⟩ := refineBySplitting_ran h1
  exact ⟨as ++ a.1, by show s.acts ++ a.1 = _; rw [c1, List.append_assoc], c2.trans (administrateAll_makes h2)⟩

theorem levels_makes {g : Setting P} : ∀ {r level : Nat} {v v' : Level P}, levels g r level v = .ok v' →
    ∃ as, v'.acts = v.acts ++ as ∧ Makes g.mid v.mesh as v'.mesh
  | 0, level, v, v', h => by
    simp only [levels, Res.ok.injEq] at h
    subst h
    exact ⟨[], by simp, Makes.refl _ _⟩
  | r + 1, level, v, v', h => by
    simp only [levels, Res.bind_eq_ok] at h
    obtain ⟨w, _, h⟩ := h
    split at h
    · simp only [Res.ok.injEq] at h
      subst h
      exact ⟨[], by simp, Makes.refl _ _⟩
    · simp only [Res.bind_eq_ok] at h
      obtain ⟨u, h1, h2⟩ := h
      obtain ⟨as, a1, a2⟩ := refineLevel_makes h1
      obtain ⟨bs, b1, b2⟩ := levels_makes h2
      exact ⟨as ++ bs, by rw [b1, a1, List.append_assoc], a2.trans b2⟩

theorem connectHangingNodes_ran {mid : P → P → P} {st : State} {s u : Split P} (h : connectHangingNodes st s = .ok u) : Ran mid s u := by
  refine forRange_of_ok (fun _ v => Ran mid s v) (Nat.zero_le _) h (Ran.refl mid s) ?_
  intro j u v _ _ hu hv
  simp only [connectHangingStep, Res.bind_eq_ok] at hv
  obtain ⟨es, _, c, _, hv⟩ := hv
  split at hv
  · simp only [Res.ok.injEq] at hv
    exact hv ▸ hu
  · split at hv
    · cases hv
    · exact hu.trans (connectAll_ran hv).1

theorem finish_makes {g : Setting P} {v : Level P} {r : List (Act P) × Mesh P} (h : finish g v = .ok r) :
    ∃ as, r.1 = v.acts ++ as ∧ Makes g.mid v.mesh as r.2 := by
  simp only [finish] at h
  split at h
  · simp only [Res.bind_eq_ok] at h
    obtain ⟨s, h1, a, h2, h3⟩ := h
    simp only [Res.ok.injEq] at h3
    subst h3
    obtain ⟨as, c1, c2⟩ := connectHangingNodes_ran (mid := g.mid) h1
    exact ⟨as ++ a.1, by show s.acts ++ a.1 = _; rw [c1, List.append_assoc], c2.trans (administrateAll_makes h2)⟩
  · simp only [Res.ok.injEq] at h
    subst h
    exact ⟨[], by simp, Makes.refl _ _⟩

theorem compute_makes {g : Setting P} {m m' : Mesh P} {as : List (Act P)} (h : compute g m = .ok (as, m')) : Makes g.mid m as m' := by
  simp only [compute, Res.bind_eq_ok] at h
  obtain ⟨a, h1, bro, _, node, _, v, h2, h3⟩ := h
  obtain ⟨bs, b1, b2⟩ := levels_makes h2
  obtain ⟨cs, c1, c2⟩ := finish_makes h3
  have : as = a.1 ++ bs ++ cs := by
    have : as = v.acts ++ cs := c1
    rw [this, b1]
  rw [this]
  exact ((administrateAll_makes h1).trans b2).trans c2

end Verif.Refine
