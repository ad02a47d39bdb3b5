import Verif.Model.Mech
/-!
Small strain behaviour laws at a quadrature point: `mechanics/behaviors/laws/law_qp_bones.hpp`,
`LinearElasticityLaw/LinearElasticityLaw.hpp`, `LinearLaw/LinearLaw_qp.hpp`,
`LinearIsotropicAndKinematicHardening/LinearIsotropicAndKinematicHardening_qp.hpp`,
`IsotropicHardeningVMis/IsotropicHardeningVMis_qp.hpp`, `HenckyMises/HenckyMises_qp.hpp`.

Scalars are the reals. A division by zero gives zero here and an infinity or a NaN there; the comparisons of the trace
checks come out the same for `0 / 0`, and the other divisors are nonzero under the hypotheses of the theorems. A thrown
exception drops the partly updated state. The dimension 2 is the flag `plane`.
-/
noncomputable section
namespace Verif.Plastic
open Verif.Tensor Verif.TensorConv Verif.Mech

/-- The members of a quadrature point: `law_qp_bones.hpp:53-62` and the internal variables of the plastic laws. -/
structure Qp where
  estrainPrev : Mat ℝ 3
  estrainCurr : Mat ℝ 3
  pstrainPrev : Mat ℝ 3
  pstrainCurr : Mat ℝ 3
  pPrev : ℝ
  pCurr : ℝ
  isPlastic : Bool

/-- The constructors, `LinearIsotropicAndKinematicHardening_qp.hpp:65-75`. -/
def Qp.fresh : Qp := ⟨0, 0, 0, 0, 0, 0, false⟩

/-- `update`, `LinearIsotropicAndKinematicHardening_qp.hpp:107-113`. -/
def Qp.update (q : Qp) : Qp :=
  { q with estrainPrev := q.estrainCurr, pstrainPrev := q.pstrainCurr, pPrev := q.pCurr }

/-- `convertMatrix3D(convertMatrix<scalar_type, DIM>(M))`. -/
def restrict (plane : Bool) (M : Mat ℝ 3) : Mat ℝ 3 := if plane then matrix3D (matrix2 M) else M

/-- `elastic_modulus3D`, `law_qp_bones.hpp:70-75`. -/
def elasticModulus3D (d : Data) : Tens ℝ 3 := (2 * d.mu) • identitySym ℝ 3 + d.lambda • ixi ℝ 3

/-- `elastic_modulus`, `law_qp_bones.hpp:63-68`. -/
def elasticModulus (d : Data) (D : Nat) : Tens ℝ D := (2 * d.mu) • identitySym ℝ D + d.lambda • ixi ℝ D

/-- `sigmaeq`, `law_qp_bones.hpp:77-81`. -/
def sigmaeq (dev : Mat ℝ 3) : ℝ := Real.sqrt (3 / 2 * sqNorm dev)

/-- `compute_stress3D` of the laws whose stress is linear in the elastic strain,
`LinearIsotropicAndKinematicHardening_qp.hpp:115-124`. -/
def elasticStress (d : Data) (e : Mat ℝ 3) : Mat ℝ 3 := (2 * d.mu) • e + (d.lambda * trace e) • idm 3

/-- The trace checks: `std::abs(M.trace()) / M.norm() > 1E-8`. -/
def traceBad (M : Mat ℝ 3) : Prop := |trace M| / norm M > 1 / 10 ^ 8

/-- The term added to the elastic modulus, `LinearIsotropicAndKinematicHardening_qp.hpp:206-215` and
`IsotropicHardeningVMis_qp.hpp:259-268`. -/
def tangentTerm (mu dp seEq dem : ℝ) (normal : Mat ℝ 3) : Tens ℝ 3 :=
  let pdev : Tens ℝ 3 := identitySym ℝ 3 - (1 / 3 : ℝ) • ixi ℝ 3
  (4 * (mu * mu) * (dp / seEq - 1 / dem)) • kronecker normal normal - (6 * (mu * mu) * dp / seEq) • pdev

/-! ### `LinearElasticity_qp` and `LinearLaw_qp` -/

/-- `LinearElasticity_qp::compute_whole3D`, `LinearElasticityLaw.hpp:98-108`. -/
def linearElasticity3D (q : Qp) (strain : Mat ℝ 3) (d : Data) : (Mat ℝ 3 × Tens ℝ 3) × Qp :=
  let q := { q with estrainCurr := strain }
  ((elasticStress d q.estrainCurr, elasticModulus3D d), q)

/-- `LinearElasticity_qp::compute_whole` in 2D, `LinearElasticityLaw.hpp:110-120`. -/
def linearElasticity2D (q : Qp) (strain : Mat ℝ 2) (d : Data) : (Mat ℝ 2 × Tens ℝ 2) × Qp :=
  let r := linearElasticity3D q (matrix3D strain) d
  ((matrix2 r.1.1, tensor2 r.1.2), r.2)

/-- `LinearLaw_qp::compute_whole3D`, `LinearLaw_qp.hpp:73-85`. -/
def linearLaw3D (q : Qp) (F : Mat ℝ 3) (d : Data) : (Mat ℝ 3 × Tens ℝ 3) × Qp :=
  let q := { q with estrainCurr := F }
  ((d.lambda • q.estrainCurr, d.lambda • identity ℝ 3), q)

/-! ### `LinearIsotropicAndKinematicHardening_qp` -/

/-- The prediction of `compute_whole3D`, `LinearIsotropicAndKinematicHardening_qp.hpp:159-165`: `estrain_trial`. -/
def trialStrain (plane : Bool) (q : Qp) (strain : Mat ℝ 3) : Mat ℝ 3 :=
  q.estrainPrev + (strain - restrict plane (q.estrainPrev + q.pstrainPrev))

/-- `X_prev`. -/
def backStress (q : Qp) (d : Data) : Mat ℝ 3 := d.K • q.pstrainPrev

/-- `se`. -/
def trialStress (plane : Bool) (q : Qp) (strain : Mat ℝ 3) (d : Data) : Mat ℝ 3 :=
  (2 * d.mu) • deviator (trialStrain plane q strain) - backStress q d

/-- `Phi_trial`. -/
def trialYield (plane : Bool) (q : Qp) (strain : Mat ℝ 3) (d : Data) : ℝ :=
  sigmaeq (trialStress plane q strain d) - d.sigmaY0 - d.H * q.pPrev

open Classical in
/-- `compute_whole3D`, `LinearIsotropicAndKinematicHardening_qp.hpp:154-252`. -/
def linHard3D (plane : Bool) (q : Qp) (strain : Mat ℝ 3) (d : Data) (tangent : Bool) :
    Outcome ((Mat ℝ 3 × Tens ℝ 3) × Qp) :=
  let etrial := trialStrain plane q strain
  let X := backStress q d
  let se := trialStress plane q strain d
  let seEq := sigmaeq se
  let Phi := trialYield plane q strain d
  if traceBad X then .throws "X_trace" else
  if traceBad se then .throws "Se_trace" else
  let dem := 3 * d.mu + d.H + 3 * d.K / 2
  let normal : Mat ℝ 3 := (3 / (2 * seEq)) • se
  let dp := Phi / dem
  let q' : Qp := if Phi < 0 then
      { q with isPlastic := false, estrainCurr := etrial, pstrainCurr := q.pstrainPrev, pCurr := q.pPrev }
    else
      { q with isPlastic := true, pCurr := q.pPrev + dp, estrainCurr := etrial - dp • normal,
               pstrainCurr := q.pstrainPrev + dp • normal }
  let Cep := elasticModulus3D d + if Phi < 0 ∨ tangent = false then 0 else tangentTerm d.mu dp seEq dem normal
  if traceBad q'.pstrainCurr then .throws "eps_p" else
  .ok ((elasticStress d q'.estrainCurr, Cep), q')

/-- `compute_whole` in 2D, `LinearIsotropicAndKinematicHardening_qp.hpp:254-264`. -/
def linHard2D (q : Qp) (strain : Mat ℝ 2) (d : Data) (tangent : Bool) : Outcome ((Mat ℝ 2 × Tens ℝ 2) × Qp) :=
  (linHard3D true q (matrix3D strain) d tangent).bind fun r => .ok ((matrix2 r.1.1, tensor2 r.1.2), r.2)

/-! ### `IsotropicHardeningVMis_qp` -/

/-- A subtraction of `size_t`. -/
def wrapSub (n k : Nat) : Nat := (n + 2 ^ 64 - k) % 2 ^ 64

/-- A segment of the curve: `p`, `R(p)` at its start and its slope. -/
structure Seg where
  p : ℝ
  R : ℝ
  H : ℝ

/-- The reads of points `i` and `i + 1`, `IsotropicHardeningVMis_qp.hpp:190-192, 241-243`. -/
def readSeg (c : List (ℝ × ℝ)) (i : Nat) : Outcome Seg :=
  match c[i]?, c[i + 1]? with
  | some a, some b => .ok ⟨a.1, a.2, (b.2 - a.2) / (b.1 - a.1)⟩
  | _, _ => .ub "RpCurve[i]"

open Classical in
/-- The search of `i0`, `IsotropicHardeningVMis_qp.hpp:179-188`. -/
def findI0 (c : List (ℝ × ℝ)) (pPrev : ℝ) : Nat :=
  ((List.range (c.length - 1)).find? fun i => decide (pPrev < (c.getD (i + 1) (0, 0)).1)).getD (wrapSub c.length 2)

open Classical in
/-- The search of `i1`, `IsotropicHardeningVMis_qp.hpp:228-239`. -/
def findI1 (c : List (ℝ × ℝ)) (mu pPrev seEq : ℝ) (i0 : Nat) : Nat :=
  match (List.range (c.length - 1)).find? fun i =>
      decide (i0 + 1 ≤ i) &&
        decide ((c.getD i (0, 0)).2 - 3 * mu * (pPrev - (c.getD i (0, 0)).1) - seEq > 0) with
  | some i => i - 1
  | none => wrapSub c.length 2

open Classical in
/-- `compute_whole3D`, `IsotropicHardeningVMis_qp.hpp:156-298`. -/
def vmis3D (plane : Bool) (q : Qp) (strain : Mat ℝ 3) (d : Data) (tangent : Bool) :
    Outcome ((Mat ℝ 3 × Tens ℝ 3) × Qp) :=
  let etrial := trialStrain plane q strain
  let elastic : Qp :=
    { q with isPlastic := false, estrainCurr := etrial, pstrainCurr := q.pstrainPrev, pCurr := q.pPrev }
  let finish (r : Qp × Tens ℝ 3) : Outcome ((Mat ℝ 3 × Tens ℝ 3) × Qp) :=
    if |trace r.1.pstrainCurr| > 1 / 10 ^ 8 then .throws "eps_p" else
    .ok ((elasticStress d r.1.estrainCurr, r.2), r.1)
  if d.curve.length = 0 then finish (elastic, elasticModulus3D d) else
  let i0 := findI0 d.curve q.pPrev
  (readSeg d.curve i0).bind fun s0 =>
  let se : Mat ℝ 3 := (2 * d.mu) • deviator etrial
  let seEq := sigmaeq se
  let Phi0 := seEq - s0.R - s0.H * (q.pPrev - s0.p)
  if traceBad se then .throws "Se_trace" else
  if Phi0 < 0 then finish (elastic, elasticModulus3D d) else
  let i1 := findI1 d.curve d.mu q.pPrev seEq i0
  (readSeg d.curve i1).bind fun s1 =>
  let Phi1 := seEq - s1.R - s1.H * (q.pPrev - s1.p)
  let dem := 3 * d.mu + s1.H
  let normal : Mat ℝ 3 := (3 / (2 * seEq)) • se
  let dp := Phi1 / dem
  finish ({ q with isPlastic := true, pCurr := q.pPrev + dp, estrainCurr := etrial - dp • normal,
                   pstrainCurr := q.pstrainPrev + dp • normal },
    elasticModulus3D d + if tangent then tangentTerm d.mu dp seEq dem normal else 0)

/-- `compute_whole` in 2D, `IsotropicHardeningVMis_qp.hpp:300-310`. -/
def vmis2D (q : Qp) (strain : Mat ℝ 2) (d : Data) (tangent : Bool) : Outcome ((Mat ℝ 2 × Tens ℝ 2) × Qp) :=
  (vmis3D true q (matrix3D strain) d tangent).bind fun r => .ok ((matrix2 r.1.1, tensor2 r.1.2), r.2)

/-- The states of a quadrature point after any sequence of evaluations of the law (for strains in `ok`) and calls of
`update`. -/
inductive Reach (step : Qp → Mat ℝ 3 → Outcome ((Mat ℝ 3 × Tens ℝ 3) × Qp)) (ok : Mat ℝ 3 → Prop) : Qp → Prop
  | fresh : Reach step ok Qp.fresh
  | compute {q strain r} : Reach step ok q → ok strain → step q strain = .ok r → Reach step ok r.2
  | update {q} : Reach step ok q → Reach step ok q.update

/-! ### `HenckyMises_qp` -/

/-- `tildemu`, `HenckyMises_qp.hpp:66-70`. -/
def tildemu (d : Data) (n : ℝ) : ℝ := d.mu * (1 + 1 / Real.sqrt (1 + n * n))
/-- `tildelambda`, `HenckyMises_qp.hpp:72-76`. -/
def tildelambda (d : Data) (n : ℝ) : ℝ := (d.lambda + d.mu / 2) - d.mu / (2 * Real.sqrt (1 + n * n))

/-- `compute_stress3D` (`D = 3`) and `compute_stress`, `HenckyMises_qp.hpp:100-120`, of the block `Gs` of the strain. -/
def henckyStress {D : Nat} (d : Data) (Gs : Mat ℝ D) : Mat ℝ D :=
  let n := norm (deviator Gs)
  tildemu d n • Gs + (tildelambda d n * trace Gs) • idm D

/-- `compute_whole` in 2D, `HenckyMises_qp.hpp:122-134`. -/
def hencky2D (strain : Mat ℝ 2) (d : Data) : Mat ℝ 2 × Tens ℝ 2 :=
  (henckyStress d (matrix2 (matrix3D strain)), elasticModulus d 2)

/-- `compute_whole` in 3D. -/
def hencky3D (strain : Mat ℝ 3) (d : Data) : Mat ℝ 3 × Tens ℝ 3 := (henckyStress d strain, elasticModulus d 3)

end Verif.Plastic
