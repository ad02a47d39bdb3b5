import Verif.Model.Locate
import Verif.Spec.Locate
import Mathlib.Algebra.Order.Field.Basic
import Mathlib.Algebra.Order.Ring.Rat
import Mathlib.Algebra.Field.Rat
import Mathlib.Tactic.LinearCombination
import Mathlib.Tactic.FieldSimp
import Mathlib.Tactic.Ring
import Mathlib.Tactic.Linarith
import Mathlib.Tactic.NormNum
/-! Lemmas for Locate.lean. -/
namespace Verif.Props.Locate
open Verif.Locate Verif.Spec.Locate

variable {T P : Type}

theorem findIn_cases (h : Hier T P) (mesh : List T) (p : P) (ts : List Nat) (hts : ∀ t ∈ ts, t < mesh.length) :
    (∃ t cl, findIn h mesh p ts = .ok (some t) ∧ t ∈ ts ∧ mesh[t]? = some cl ∧ h.inside cl p = true) ∨
    (findIn h mesh p ts = .ok none ∧ ∀ t ∈ ts, ∀ cl, mesh[t]? = some cl → h.inside cl p = false) := by
  induction ts with
  | nil => exact .inr ⟨rfl, by simp⟩
  | cons t ts ih =>
    have ht : t < mesh.length := hts t (by simp)
    by_cases hi : h.inside mesh[t] p = true
    · exact .inl ⟨t, mesh[t], by simp [findIn, List.getElem?_eq_getElem ht, hi], by simp, List.getElem?_eq_getElem ht, hi⟩
    · rcases ih (fun s hs => hts s (by simp [hs])) with ⟨s, cl, h1, h2, h3, h4⟩ | ⟨h1, h2⟩
      · exact .inl ⟨s, cl, by simp only [findIn, List.getElem?_eq_getElem ht, if_neg hi]; exact h1, by simp [h2], h3, h4⟩
      · refine .inr ⟨by simp only [findIn, List.getElem?_eq_getElem ht, if_neg hi]; exact h1, ?_⟩
        intro s hs cl hcl
        rw [List.mem_cons] at hs
        rcases hs with rfl | hs
        · rw [List.getElem?_eq_getElem ht] at hcl
          cases hcl
          simpa using hi
        · exact h2 s hs cl hcl

theorem chain_lt (h : Hier T P) (p : P) (a k t : Nat) (hc : Chain h.meshes h.c2f h.inside p a k t) :
    ∃ mesh, h.meshes[k]? = some mesh ∧ t < mesh.length := by
  cases hc with
  | base mesh cl h0 h1 h2 => exact ⟨mesh, h0, (List.getElem?_eq_some_iff.1 h1).1⟩
  | step k t t' mesh m ts cl hc h1 h2 h3 h4 h5 h6 => exact ⟨mesh, h1, (List.getElem?_eq_some_iff.1 h5).1⟩

theorem locateRec_spec (h : Hier T P) (hw : WF h) (p : P) (a maxLevel : Nat) (hl : maxLevel < h.meshes.length) (fuel k t : Nat)
    (hk : k + fuel = maxLevel) (hc : Chain h.meshes h.c2f h.inside p a k t) :
    (∃ t', locateRec h p maxLevel fuel (k + 1) t = .ok t' ∧ Chain h.meshes h.c2f h.inside p a maxLevel t') ∨
    locateRec h p maxLevel fuel (k + 1) t = .throws "point not found (s)" := by
  induction fuel generalizing k t with
  | zero =>
    have h1 : ¬ maxLevel > h.meshes.length := by omega
    have h2 : k + 1 > maxLevel := by omega
    have h3 : k = maxLevel := by omega
    exact .inl ⟨t, by rw [locateRec, if_neg h1, if_pos h2], h3 ▸ hc⟩
  | succ fuel ih =>
    have h1 : ¬ maxLevel > h.meshes.length := by omega
    have h2 : ¬ k + 1 > maxLevel := by omega
    have hk1 : k + 1 < h.meshes.length := by omega
    have hcnt := hw.count
    have hk2 : k < h.c2f.length := by omega
    have hm := List.getElem?_eq_getElem hk1
    have hcf := List.getElem?_eq_getElem hk2
    obtain ⟨mesh0, hm0, ht0⟩ := chain_lt h p a k t hc
    have hrow := hw.rows k mesh0 _ hm0 hcf
    have htl : t < (h.c2f[k]).length := by omega
    have hts := List.getElem?_eq_getElem htl
    have hkids := hw.kids k t _ _ _ hm hcf hts
    rw [locateRec, if_neg h1, if_neg h2]
    simp only [hm, Nat.add_sub_cancel, hcf, hts]
    rcases findIn_cases h h.meshes[k + 1] p _ hkids with ⟨t', cl, e1, e2, e3, e4⟩ | ⟨e1, _⟩
    · simp only [e1, Outcome.bind_ok]
      exact ih (k + 1) t' (by omega) (.step k t t' _ _ _ cl hc hm hcf hts e2 e3 e4)
    · simp only [e1, Outcome.bind_ok]
      exact .inr trivial

theorem locateRec_deep (h : Hier T P) (p : P) (fuel k t t' : Nat) (hk : k + fuel + 1 = h.meshes.length)
    (hok : locateRec h p (h.meshes.length - 1) fuel (k + 1) t = .ok t') :
    (locateRec h p h.meshes.length (fuel + 1) (k + 1) t).IsUB := by
  induction fuel generalizing k t with
  | zero =>
    have h1 : ¬ h.meshes.length > h.meshes.length := by omega
    have h2 : ¬ k + 1 > h.meshes.length := by omega
    have h3 : h.meshes[k + 1]? = none := List.getElem?_eq_none (by omega)
    rw [locateRec, if_neg h1, if_neg h2]
    simp [h3]
  | succ fuel ih =>
    have h1 : ¬ h.meshes.length > h.meshes.length := by omega
    have h2 : ¬ k + 1 > h.meshes.length := by omega
    have h1' : ¬ h.meshes.length - 1 > h.meshes.length := by omega
    have h2' : ¬ k + 1 > h.meshes.length - 1 := by omega
    rw [locateRec, if_neg h1', if_neg h2'] at hok
    rw [locateRec, if_neg h1, if_neg h2]
    cases e1 : h.meshes[k + 1]? with
    | none => simp only [e1] at hok; cases hok
    | some mesh =>
      simp only [e1] at hok ⊢
      cases e2 : h.c2f[k + 1 - 1]? with
      | none => simp only [e2] at hok; cases hok
      | some m =>
        simp only [e2] at hok ⊢
        cases e3 : m[t]? with
        | none => simp only [e3] at hok; cases hok
        | some ts =>
          simp only [e3] at hok ⊢
          cases e4 : findIn h mesh p ts with
          | throws e => simp only [e4] at hok; cases hok
          | ub e => simp
          | ok r =>
            simp only [e4, Outcome.bind_ok] at hok ⊢
            cases r with
            | none => cases hok
            | some s => exact ih (k + 1) s (by omega) hok

variable {K : Type} [Field K] [LinearOrder K] [IsStrictOrderedRing K]

/-- Twice the signed area. -/
theorem den_eq (a b c : K × K) :
    dot (sub b a) (sub b a) * dot (sub c a) (sub c a) - dot (sub b a) (sub c a) * dot (sub b a) (sub c a) =
      ((b.1 - a.1) * (c.2 - a.2) - (b.2 - a.2) * (c.1 - a.1)) ^ 2 := by
  simp only [dot, sub]; ring

end Verif.Props.Locate
