import Verif.Lemmas.Locate
import Verif.Model.Locate
import Verif.Spec.Locate
import Mathlib.Algebra.Order.Field.Basic
import Mathlib.Algebra.Order.Ring.Rat
import Mathlib.Algebra.Field.Rat
import Mathlib.Tactic.LinearCombination
import Mathlib.Tactic.FieldSimp
import Mathlib.Tactic.Ring
import Mathlib.Tactic.Linarith
import Mathlib.Tactic.NormNum
/-!
Property C50.
-/
namespace Verif.Props.Locate
open Verif.Locate Verif.Spec.Locate

variable {T P : Type}

/-- C50. At an existing level the search never reads past the stored levels; a returned triangle contains the
point, and so do its ancestors at all coarser levels; otherwise it throws. -/
theorem c50_existing_level (h : Hier T P) (hw : WF h) (p : P) (level : Nat) (hl : level < h.meshes.length) :
    (∃ a t, locatePoint h p level = .ok t ∧ Chain h.meshes h.c2f h.inside p a level t) ∨ (locatePoint h p level).Throws := by
  have h0 : 0 < h.meshes.length := by omega
  have hm := List.getElem?_eq_getElem h0
  simp only [locatePoint, hm]
  rcases findIn_cases h h.meshes[0] p (List.range (h.meshes[0]).length) (by simp) with ⟨t, cl, e1, e2, e3, e4⟩ | ⟨e1, _⟩
  · simp only [e1, Outcome.bind_ok]
    have hc : Chain h.meshes h.c2f h.inside p t 0 t := .base _ cl hm e3 e4
    by_cases hpos : level > 0
    · rw [if_pos hpos]
      rcases locateRec_spec h hw p t level hl level 0 t (by omega) hc with ⟨t', h1, h2⟩ | h1
      · exact .inl ⟨t, t', h1, h2⟩
      · right; rw [h1]; trivial
    · have : level = 0 := by omega
      subst this
      exact .inl ⟨t, t, by simp, hc⟩
  · right
    simp [e1]

/-- A hierarchy with one triangle refined into two, for the examples. -/
def exH : Hier Nat Nat := ⟨[[0], [0, 1]], [[[0, 1]]], fun t p => t = p % 2 || t = 0 && p < 2⟩

theorem exH_wf : WF exH := by
  refine ⟨rfl, ?_, ?_⟩
  · intro k mesh m h1 h2
    match k with
    | 0 => cases h1; cases h2; rfl
    | k + 1 => simp [exH] at h2
  · intro k t mesh m ts h1 h2 h3
    match k with
    | 0 =>
      cases h1; cases h2
      match t with
      | 0 => cases h3; simp
      | t + 1 => simp at h3
    | k + 1 => simp [exH] at h2

example : WF exH ∧ 1 < exH.meshes.length := ⟨exH_wf, by decide⟩

/-- C50. Levels beyond the number of stored meshes are rejected. -/
theorem c50_far_level (h : Hier T P) (p : P) (level : Nat) (hl : level > h.meshes.length) :
    (locatePoint h p level).Throws := by
  unfold locatePoint
  cases hm : h.meshes[0]? with
  | none => simp
  | some mesh =>
    simp only
    rcases findIn_cases h mesh p (List.range mesh.length) (by simp) with ⟨t, cl, e1, _⟩ | ⟨e1, _⟩
    · have hpos : level > 0 := by omega
      simp only [e1, Outcome.bind_ok, if_pos hpos]
      cases level with
      | zero => omega
      | succ l => rw [locateRec, if_pos hl]; trivial
    · simp [e1]

example : (5 : Nat) > exH.meshes.length := by decide

/-- C50 violation. The level equal to the number of stored meshes does not exist but is accepted: whenever the
finest level has an answer, asking for one level more reads past the stored meshes. -/
theorem c50_violation (h : Hier T P) (p : P) (t : Nat) (hok : locatePoint h p (h.meshes.length - 1) = .ok t) :
    (locatePoint h p h.meshes.length).IsUB := by
  unfold locatePoint at hok ⊢
  cases hm : h.meshes[0]? with
  | none => simp only [hm] at hok; cases hok
  | some mesh =>
    simp only [hm] at hok ⊢
    have hlen : 0 < h.meshes.length := (List.getElem?_eq_some_iff.1 hm).1
    cases e1 : findIn h mesh p (List.range mesh.length) with
    | throws e => simp only [e1] at hok; cases hok
    | ub e => simp
    | ok r =>
      simp only [e1, Outcome.bind_ok] at hok ⊢
      cases r with
      | none => cases hok
      | some s =>
        simp only [if_pos (show h.meshes.length > 0 from hlen)]
        by_cases h1 : h.meshes.length - 1 > 0
        · simp only [if_pos h1] at hok
          have := locateRec_deep h p (h.meshes.length - 1) 0 s t (by omega) hok
          rwa [Nat.sub_add_cancel hlen] at this
        · have h2 : h.meshes.length = 1 := by omega
          have h3 : h.meshes[1]? = none := List.getElem?_eq_none (by omega)
          rw [h2, locateRec]
          simp [h2, h3]

example : locatePoint exH 1 (exH.meshes.length - 1) = .ok 0 := by decide

variable {K : Type} [Field K] [LinearOrder K] [IsStrictOrderedRing K]

/-- C50. On a triangle that is not degenerate, the inside test decides membership in the closed triangle. -/
theorem c50_inside (a b c p : K × K) (hnd : (b.1 - a.1) * (c.2 - a.2) - (b.2 - a.2) * (c.1 - a.1) ≠ 0) :
    ∃ r, isInside (a, b, c) p = some r ∧ (r = true ↔ InTriangle a b c p) := by
  have hden : dot (sub b a) (sub b a) * dot (sub c a) (sub c a) - dot (sub b a) (sub c a) * dot (sub b a) (sub c a) ≠ 0 := by
    rw [den_eq]; exact pow_ne_zero 2 hnd
  simp only [isInside]
  rw [if_neg hden]
  refine ⟨_, rfl, ?_⟩
  simp only [Bool.and_eq_true, decide_eq_true_eq]
  rw [den_eq]
  have hu : ∀ (d : K), d = (b.1 - a.1) * (c.2 - a.2) - (b.2 - a.2) * (c.1 - a.1) →
      (dot (sub c a) (sub c a) * dot (sub b a) (sub p a) - dot (sub b a) (sub c a) * dot (sub c a) (sub p a)) * (1 / d ^ 2) =
        ((p.1 - a.1) * (c.2 - a.2) - (p.2 - a.2) * (c.1 - a.1)) / d ∧
      (dot (sub b a) (sub b a) * dot (sub c a) (sub p a) - dot (sub b a) (sub c a) * dot (sub b a) (sub p a)) * (1 / d ^ 2) =
        ((b.1 - a.1) * (p.2 - a.2) - (b.2 - a.2) * (p.1 - a.1)) / d := by
    intro d hd
    have hd0 : d ≠ 0 := by rw [hd]; exact hnd
    constructor
    · rw [mul_one_div, div_eq_div_iff (pow_ne_zero 2 hd0) hd0]
      simp only [dot, sub]
      rw [hd]; ring
    · rw [mul_one_div, div_eq_div_iff (pow_ne_zero 2 hd0) hd0]
      simp only [dot, sub]
      rw [hd]; ring
  obtain ⟨e1, e2⟩ := hu _ rfl
  rw [e1, e2]
  constructor
  · rintro ⟨⟨h1, h2⟩, h3⟩
    have hU := div_mul_cancel₀ ((p.1 - a.1) * (c.2 - a.2) - (p.2 - a.2) * (c.1 - a.1)) hnd
    have hV := div_mul_cancel₀ ((b.1 - a.1) * (p.2 - a.2) - (b.2 - a.2) * (p.1 - a.1)) hnd
    refine ⟨_, _, 1 - ((p.1 - a.1) * (c.2 - a.2) - (p.2 - a.2) * (c.1 - a.1)) / ((b.1 - a.1) * (c.2 - a.2) - (b.2 - a.2) * (c.1 - a.1)) -
      ((b.1 - a.1) * (p.2 - a.2) - (b.2 - a.2) * (p.1 - a.1)) / ((b.1 - a.1) * (c.2 - a.2) - (b.2 - a.2) * (c.1 - a.1)), h1, h2, by linarith, by ring, ?_, ?_⟩
    · apply mul_left_cancel₀ hnd
      generalize (((p.1 - a.1) * (c.2 - a.2) - (p.2 - a.2) * (c.1 - a.1)) / ((b.1 - a.1) * (c.2 - a.2) - (b.2 - a.2) * (c.1 - a.1))) = U at hU ⊢
      generalize (((b.1 - a.1) * (p.2 - a.2) - (b.2 - a.2) * (p.1 - a.1)) / ((b.1 - a.1) * (c.2 - a.2) - (b.2 - a.2) * (c.1 - a.1))) = V at hV ⊢
      linear_combination -(b.1 - a.1) * hU - (c.1 - a.1) * hV
    · apply mul_left_cancel₀ hnd
      generalize (((p.1 - a.1) * (c.2 - a.2) - (p.2 - a.2) * (c.1 - a.1)) / ((b.1 - a.1) * (c.2 - a.2) - (b.2 - a.2) * (c.1 - a.1))) = U at hU ⊢
      generalize (((b.1 - a.1) * (p.2 - a.2) - (b.2 - a.2) * (p.1 - a.1)) / ((b.1 - a.1) * (c.2 - a.2) - (b.2 - a.2) * (c.1 - a.1))) = V at hV ⊢
      linear_combination -(b.2 - a.2) * hU - (c.2 - a.2) * hV
  · rintro ⟨u, v, w, hu0, hv0, hw0, hsum, hp1, hp2⟩
    have hw : w = 1 - u - v := by linarith
    have e3 : ((p.1 - a.1) * (c.2 - a.2) - (p.2 - a.2) * (c.1 - a.1)) / ((b.1 - a.1) * (c.2 - a.2) - (b.2 - a.2) * (c.1 - a.1)) = u := by
      rw [div_eq_iff hnd, hp1, hp2, hw]; ring
    have e4 : ((b.1 - a.1) * (p.2 - a.2) - (b.2 - a.2) * (p.1 - a.1)) / ((b.1 - a.1) * (c.2 - a.2) - (b.2 - a.2) * (c.1 - a.1)) = v := by
      rw [div_eq_iff hnd, hp1, hp2, hw]; ring
    rw [e3, e4]
    exact ⟨⟨hu0, hv0⟩, by linarith⟩

example : ((1 : ℚ) - 0) * (1 - 0) - (0 - 0) * (0 - 0) ≠ 0 := by norm_num

end Verif.Props.Locate
