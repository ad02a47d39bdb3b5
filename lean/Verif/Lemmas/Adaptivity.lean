import Verif.Model.Adaptivity
import Verif.Spec.Adaptivity
/-! Lemmas for Adaptivity.lean. -/
namespace Verif.Props.Adaptivity
open Verif.Adaptivity Verif.Spec

/-- Writes to cell degrees in a history: key is the cell number. -/
def cellDegreeWrites : List Op → List (Nat × Nat)
  | [] => []
  | .cellDegree i d :: os => (i, d) :: cellDegreeWrites os
  | _ :: os => cellDegreeWrites os
/-- Writes to face degrees. -/
def faceDegreeWrites : List Op → List (Nat × Nat)
  | [] => []
  | .faceDegree i d :: os => (i, d) :: faceDegreeWrites os
  | _ :: os => faceDegreeWrites os
/-- Writes to the unknowns flags of cells. -/
def cellUnknownsWrites : List Op → List (Nat × Bool)
  | [] => []
  | .cellUnknowns i b :: os => (i, b) :: cellUnknownsWrites os
  | _ :: os => cellUnknownsWrites os
/-- Writes to the unknowns flags of faces. -/
def faceUnknownsWrites : List Op → List (Nat × Bool)
  | [] => []
  | .faceUnknowns i b :: os => (i, b) :: faceUnknownsWrites os
  | _ :: os => faceUnknownsWrites os

/-- The element an update refers to exists. -/
def InMesh (nc nf : Nat) : Op → Prop
  | .cellDegree i _ | .cellUnknowns i _ => i < nc
  | .faceDegree i _ | .faceUnknowns i _ => i < nf

theorem upd_spec (v : List DegreeInfo) (i : Nat) (f : DegreeInfo → DegreeInfo) (h : i < v.length) :
    ∃ v', upd v i f = .ok v' ∧ v'.length = v.length ∧ ∀ k, v'[k]? = if k = i then v[k]?.map f else v[k]? := by
  refine ⟨v.set i (f v[i]), by simp [upd, h], by simp, ?_⟩
  intro k
  by_cases hk : k = i
  · subst hk; simp [h]
  · have : i ≠ k := fun e => hk e.symm
    simp [hk, this]

theorem run_spec (os : List Op) (s : State) (h : ∀ o ∈ os, InMesh s.cells.length s.faces.length o) :
    ∃ s', run s os = .ok s' ∧ s'.gradient = s.gradient ∧ s'.reconstruction = s.reconstruction ∧
      (∀ i : Nat, s'.cells[i]? = s.cells[i]?.map (fun x =>
        ⟨lastWrite i x.hasUnknowns (cellUnknownsWrites os), lastWrite i x.degree (cellDegreeWrites os)⟩)) ∧
      (∀ i : Nat, s'.faces[i]? = s.faces[i]?.map (fun x =>
        ⟨lastWrite i x.hasUnknowns (faceUnknownsWrites os), lastWrite i x.degree (faceDegreeWrites os)⟩)) := by
  induction os generalizing s with
  | nil =>
    refine ⟨s, rfl, rfl, rfl, ?_, ?_⟩ <;> intro i <;>
      simp [cellUnknownsWrites, cellDegreeWrites, faceUnknownsWrites, faceDegreeWrites, lastWrite]
  | cons o os ih =>
    have ho := h o (by simp)
    have step : ∃ s1, exec s o = .ok s1 ∧ s1.gradient = s.gradient ∧ s1.reconstruction = s.reconstruction ∧
        s1.cells.length = s.cells.length ∧ s1.faces.length = s.faces.length ∧
        (∀ i : Nat, s1.cells[i]? = s.cells[i]?.map (fun x =>
          ⟨lastWrite i x.hasUnknowns (cellUnknownsWrites [o]), lastWrite i x.degree (cellDegreeWrites [o])⟩)) ∧
        (∀ i : Nat, s1.faces[i]? = s.faces[i]?.map (fun x =>
          ⟨lastWrite i x.hasUnknowns (faceUnknownsWrites [o]), lastWrite i x.degree (faceDegreeWrites [o])⟩)) := by
      cases o with
      | cellDegree i d =>
        obtain ⟨v, h1, h2, h3⟩ := upd_spec s.cells i (·.setDegree d) ho
        refine ⟨{ s with cells := v }, by simp only [exec, h1, Outcome.bind_ok], rfl, rfl, h2, rfl, ?_, ?_⟩
        · intro k
          simp only [h3 k, cellUnknownsWrites, cellDegreeWrites, lastWrite]
          by_cases hk : k = i
          · subst hk; simp; rfl
          · have : i ≠ k := fun e => hk e.symm
            simp [hk, this]
        · intro k; simp [faceUnknownsWrites, faceDegreeWrites, lastWrite]
      | faceDegree i d =>
        obtain ⟨v, h1, h2, h3⟩ := upd_spec s.faces i (·.setDegree d) ho
        refine ⟨{ s with faces := v }, by simp only [exec, h1, Outcome.bind_ok], rfl, rfl, rfl, h2, ?_, ?_⟩
        · intro k; simp [cellUnknownsWrites, cellDegreeWrites, lastWrite]
        · intro k
          simp only [h3 k, faceUnknownsWrites, faceDegreeWrites, lastWrite]
          by_cases hk : k = i
          · subst hk; simp; rfl
          · have : i ≠ k := fun e => hk e.symm
            simp [hk, this]
      | cellUnknowns i d =>
        obtain ⟨v, h1, h2, h3⟩ := upd_spec s.cells i (·.setUnknowns d) ho
        refine ⟨{ s with cells := v }, by simp only [exec, h1, Outcome.bind_ok], rfl, rfl, h2, rfl, ?_, ?_⟩
        · intro k
          simp only [h3 k, cellUnknownsWrites, cellDegreeWrites, lastWrite]
          by_cases hk : k = i
          · subst hk; simp; rfl
          · have : i ≠ k := fun e => hk e.symm
            simp [hk, this]
        · intro k; simp [faceUnknownsWrites, faceDegreeWrites, lastWrite]
      | faceUnknowns i d =>
        obtain ⟨v, h1, h2, h3⟩ := upd_spec s.faces i (·.setUnknowns d) ho
        refine ⟨{ s with faces := v }, by simp only [exec, h1, Outcome.bind_ok], rfl, rfl, rfl, h2, ?_, ?_⟩
        · intro k; simp [cellUnknownsWrites, cellDegreeWrites, lastWrite]
        · intro k
          simp only [h3 k, faceUnknownsWrites, faceDegreeWrites, lastWrite]
          by_cases hk : k = i
          · subst hk; simp; rfl
          · have : i ≠ k := fun e => hk e.symm
            simp [hk, this]
    obtain ⟨s1, h1, h2, h3, h4, h5, h6, h7⟩ := step
    obtain ⟨s', k1, k2, k3, k6, k7⟩ := ih s1 (by rw [h4, h5]; exact fun x hx => h x (List.mem_cons_of_mem _ hx))
    refine ⟨s', by simp only [run, h1, Outcome.bind_ok, k1], k2.trans h2, k3.trans h3, ?_, ?_⟩
    · intro i
      rw [k6, h6, Option.map_map]
      cases o <;> rfl
    · intro i
      rw [k7, h7, Option.map_map]
      cases o <;> rfl

end Verif.Props.Adaptivity
