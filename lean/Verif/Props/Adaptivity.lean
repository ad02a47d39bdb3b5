import Verif.Lemmas.Adaptivity
import Verif.Model.Adaptivity
import Verif.Spec.Adaptivity
/-!
Property C48.
-/
namespace Verif.Props.Adaptivity
open Verif.Adaptivity Verif.Spec

/-- C48. After any history of updates on existing elements, each field of each cell and face holds the
last value written to it, or the constructor's; gradient and reconstruction degrees never change. -/
theorem c48_last_write (nc nf : Nat) (ini : Init) (hini : ini ≠ .none) (os : List Op)
    (h : ∀ o ∈ os, InMesh nc nf o) :
    ∃ s, run (construct nc nf ini) os = .ok s ∧
      s.gradient = (construct nc nf ini).gradient ∧ s.reconstruction = (construct nc nf ini).reconstruction ∧
      (∀ i, i < nc → ∃ x0 x, cellInfo (construct nc nf ini) i = .ok x0 ∧ cellInfo s i = .ok x ∧
        x.degree = lastWrite i x0.degree (cellDegreeWrites os) ∧
        x.hasUnknowns = lastWrite i x0.hasUnknowns (cellUnknownsWrites os)) ∧
      (∀ i, i < nf → ∃ x0 x, faceInfo (construct nc nf ini) i = .ok x0 ∧ faceInfo s i = .ok x ∧
        x.degree = lastWrite i x0.degree (faceDegreeWrites os) ∧
        x.hasUnknowns = lastWrite i x0.hasUnknowns (faceUnknownsWrites os)) := by
  have hc : (construct nc nf ini).cells.length = nc := by cases ini <;> simp_all [construct]
  have hf : (construct nc nf ini).faces.length = nf := by cases ini <;> simp_all [construct]
  obtain ⟨s, h1, h2, h3, h4, h5⟩ := run_spec os (construct nc nf ini) (by rw [hc, hf]; exact h)
  refine ⟨s, h1, h2, h3, ?_, ?_⟩
  · intro i hi
    have hi' : i < (construct nc nf ini).cells.length := by omega
    have e := h4 i
    rw [List.getElem?_eq_getElem hi'] at e
    refine ⟨(construct nc nf ini).cells[i], ⟨lastWrite i (construct nc nf ini).cells[i].hasUnknowns (cellUnknownsWrites os),
      lastWrite i (construct nc nf ini).cells[i].degree (cellDegreeWrites os)⟩, ?_, ?_, rfl, rfl⟩
    · simp only [cellInfo, rd, List.getElem?_eq_getElem hi']
    · simp only [cellInfo, rd, e, Option.map_some]
  · intro i hi
    have hi' : i < (construct nc nf ini).faces.length := by omega
    have e := h5 i
    rw [List.getElem?_eq_getElem hi'] at e
    refine ⟨(construct nc nf ini).faces[i], ⟨lastWrite i (construct nc nf ini).faces[i].hasUnknowns (faceUnknownsWrites os),
      lastWrite i (construct nc nf ini).faces[i].degree (faceDegreeWrites os)⟩, ?_, ?_, rfl, rfl⟩
    · simp only [faceInfo, rd, List.getElem?_eq_getElem hi']
    · simp only [faceInfo, rd, e, Option.map_some]

example : ∀ o ∈ [Op.cellDegree 1 3, .faceUnknowns 2 false, .cellDegree 1 4], InMesh 2 3 o := by
  simp [InMesh]

example : (run (construct 2 3 (.degree 1)) [.cellDegree 1 3, .cellDegree 0 7, .cellDegree 1 4]).bind
    (fun s => cellInfo s 1) = .ok ⟨true, 4⟩ := by decide

/-- C48. What the constructors store. -/
theorem c48_initial (nc nf d c f g i : Nat) :
    (i < nc → cellInfo (construct nc nf (.degree d)) i = .ok ⟨true, d⟩ ∧
      cellInfo (construct nc nf (.cellFace c f)) i = .ok ⟨true, c⟩ ∧
      cellInfo (construct nc nf (.cellFaceGrad c f g)) i = .ok ⟨true, c⟩ ∧
      cellInfo (construct nc nf .mesh) i = .ok ⟨false, 0⟩) ∧
    (i < nf → faceInfo (construct nc nf (.degree d)) i = .ok ⟨true, d⟩ ∧
      faceInfo (construct nc nf (.cellFace c f)) i = .ok ⟨true, f⟩ ∧
      faceInfo (construct nc nf (.cellFaceGrad c f g)) i = .ok ⟨true, f⟩ ∧
      faceInfo (construct nc nf .mesh) i = .ok ⟨false, 0⟩) := by
  constructor <;> intro h <;>
    simp [cellInfo, faceInfo, rd, construct, h, DegreeInfo.ofDegree, DegreeInfo.empty, List.getElem?_replicate]

/-- C48. Updating one field of one element leaves every other element and field alone. -/
theorem c48_frame (s : State) (i d : Nat) (hi : i < s.cells.length) :
    ∃ s', exec s (.cellDegree i d) = .ok s' ∧ s'.faces = s.faces ∧ s'.gradient = s.gradient ∧
      s'.reconstruction = s.reconstruction ∧ (∀ k : Nat, k ≠ i → s'.cells[k]? = s.cells[k]?) ∧
      (cellInfo s' i).bind (fun x => .ok x.degree) = .ok d ∧
      (cellInfo s' i).bind (fun x => .ok x.hasUnknowns) = (cellInfo s i).bind (fun x => .ok x.hasUnknowns) := by
  obtain ⟨v, h1, h2, h3⟩ := upd_spec s.cells i (·.setDegree d) hi
  refine ⟨{ s with cells := v }, by simp only [exec, h1, Outcome.bind_ok], rfl, rfl, rfl, ?_, ?_, ?_⟩
  · intro k hk; rw [h3 k, if_neg hk]
  · have := h3 i
    rw [if_pos rfl, List.getElem?_eq_getElem hi] at this
    simp only [cellInfo, rd, this, Option.map_some, Outcome.bind_ok]; rfl
  · have := h3 i
    rw [if_pos rfl, List.getElem?_eq_getElem hi] at this
    simp only [cellInfo, rd, this, Option.map_some, List.getElem?_eq_getElem hi, Outcome.bind_ok]; rfl

/-- C48. The per-cell summary collects the current entries of the cell and of its faces. -/
theorem c48_cell_summary (s : State) (i : Nat) (fcs : List Nat) (c : CellInfo)
    (h : cellDegreeInfo s i fcs = .ok c) :
    s.cells[i]? = some c.cell ∧ s.reconstruction[i]? = some c.reconstruction ∧
      s.gradient[i]? = some c.gradient ∧ fcs.map (fun f => s.faces[f]?) = c.faces.map some := by
  have hf : ∀ (fcs : List Nat) (r : List DegreeInfo), facesInfo s fcs = .ok r →
      fcs.map (fun f => s.faces[f]?) = r.map some := by
    intro fcs
    induction fcs with
    | nil => intro r hr; simp [facesInfo] at hr; subst hr; rfl
    | cons f fs ih =>
      intro r hr
      simp only [facesInfo, rd] at hr
      cases hx : s.faces[f]? with
      | none => simp [hx] at hr
      | some x =>
        simp only [hx, Outcome.bind_ok] at hr
        cases hy : facesInfo s fs with
        | ok y =>
          simp only [hy, Outcome.bind_ok, Outcome.ok.injEq] at hr
          subst hr
          simp [hx, ih y hy]
        | throws _ => simp [hy] at hr
        | ub _ => simp [hy] at hr
  simp only [cellDegreeInfo, rd] at h
  cases h1 : s.cells[i]? with
  | none => simp [h1] at h
  | some a =>
    cases h2 : s.reconstruction[i]? with
    | none => simp [h1, h2] at h
    | some b =>
      cases h3 : s.gradient[i]? with
      | none => simp [h1, h2, h3] at h
      | some g =>
        cases h4 : facesInfo s fcs with
        | ok r =>
          simp only [h1, h2, h3, h4, Outcome.bind_ok, Outcome.ok.injEq] at h
          subst h
          exact ⟨rfl, rfl, rfl, hf fcs r h4⟩
        | throws _ => simp [h1, h2, h3, h4] at h
        | ub _ => simp [h1, h2, h3, h4] at h

example : cellDegreeInfo (construct 2 3 (.cellFace 2 1)) 1 [0, 2] =
    .ok ⟨⟨true, 2⟩, ⟨true, 2⟩, ⟨true, 1⟩, [⟨true, 1⟩, ⟨true, 1⟩]⟩ := by decide

end Verif.Props.Adaptivity
