import Verif.Model.Plastic
import Mathlib.Analysis.SpecialFunctions.Log.Basic
/-!
The logarithmic strain framework: `mechanics/behaviors/logarithmic_strain/logarithmic_tools.hpp` and
`LogarithmicStrain_qp.hpp`.

Scalars are the reals and `log` is exact. Eigen's `SelfAdjointEigenSolver` is a parameter `solver`; the machine epsilon
and the smallest normal number are parameters `eps` and `tiny`. Sums into a zero matrix are finite sums.
-/
noncomputable section
namespace Verif.LogStrain
open Verif.Tensor Verif.TensorConv Verif.Mech Finset

abbrev Vec3 := Fin 3 → ℝ

/-- `compute_ei`, `logarithmic_tools.hpp:66-76`. -/
def ei (lam : Vec3) : Vec3 := fun i => Real.log (lam i) / 2
/-- `compute_di`, `:123-133`. -/
def di (lam : Vec3) : Vec3 := fun i => 1 / lam i
/-- `compute_fi`, `:137-147`. -/
def fi (lam : Vec3) : Vec3 := fun i => -2 / (lam i * lam i)

/-- `compute_Elog`, `:80-87`. -/
def elog (lam : Vec3) (P : Mat ℝ 3) : Mat ℝ 3 := mul (mul P (fun i j => if i = j then ei lam i else 0)) (tpose P)

/-- `compute_Ni`, `:93-104`. -/
def Ni (evec : Mat ℝ 3) : Fin 3 → Vec3 := fun i a => evec a i
/-- `compute_ni`, `:108-119`. -/
def ni (F : Mat ℝ 3) (N : Fin 3 → Vec3) : Fin 3 → Vec3 := fun i a => ∑ b, F a b * N i b
/-- `Kronecker` of vectors, `maths_tensor.hpp:152-157`. -/
def outer (a b : Vec3) : Mat ℝ 3 := fun i j => a i * b j
/-- `compute_zeta`, `logarithmic_tools.hpp:151-164`. -/
def zeta (T : Mat ℝ 3) (N : Fin 3 → Vec3) : Mat ℝ 3 := fun i j => inner T (outer (N i) (N j))
/-- `compute_Mij`, `:169-185`. -/
def Mij (N n : Fin 3 → Vec3) (i j : Fin 3) : Mat ℝ 3 := fun a b => n i a * N j b + n j a * N i b

/-- `EigenCase`, `:187-194`. -/
inductive EigenCase
  | threeEqual
  | twoEqual01
  | twoEqual02
  | twoEqual12
  | threeDiff
deriving DecidableEq

/-- `almost_equal` with `ulp = 2`, `:199-207`. -/
def almostEqual (eps tiny x y : ℝ) : Prop := |x - y| ≤ eps * |x + y| * 2 ∨ |x - y| < tiny

open Classical in
/-- `selectCase`, `:210-241`. -/
def selectCase (eps tiny : ℝ) (lam : Vec3) : EigenCase :=
  if almostEqual eps tiny (lam 0) (lam 1) then
    if almostEqual eps tiny (lam 1) (lam 2) then .threeEqual else .twoEqual01
  else if almostEqual eps tiny (lam 1) (lam 2) then .twoEqual12
  else if almostEqual eps tiny (lam 0) (lam 2) then .twoEqual02
  else .threeDiff

/-- The coefficients `theta`, `xi` and `eta`. -/
structure Coef where
  theta : Mat ℝ 3
  xi : Mat ℝ 3
  eta : ℝ

/-- `compute_three_diff`, `:245-275`. -/
def threeDiff (lam e d : Vec3) : Coef where
  theta i j := if j = i then 0 else (e i - e j) / (lam i - lam j)
  xi i j := if j = i then 0 else ((e i - e j) / (lam i - lam j) - d j / 2) / (lam i - lam j)
  eta := ∑ i, ∑ j, ∑ k, if j ≠ i ∧ k ≠ i ∧ k ≠ j then e i / (2 * (lam i - lam j) * (lam i - lam k)) else 0

/-- `compute_three_equal`, `:279-302`. -/
def threeEqual (d f : Vec3) : Coef where
  theta i j := if j = i then 0 else d 0 / 2
  xi i j := if j = i then 0 else f 0 / 8
  eta := f 0 / 8

/-- The quotient `(ei(i) - ei(j)) / (lambda_i(i) - lambda_i(j))`. -/
def quot (lam e : Vec3) (i j : Fin 3) : ℝ := (e i - e j) / (lam i - lam j)
/-- `xi(i, j) = (theta(i, j) - di(j) / T(2)) / (lambda_i(i) - lambda_i(j))`; `theta` is symmetric, stored from `(a, b)`. -/
def xiQuot (lam e d : Vec3) (a b i j : Fin 3) : ℝ := (quot lam e a b - d j / 2) / (lam i - lam j)

/-- `compute_two_equal`, `:306-393`. -/
def twoEqual (lam e d f : Vec3) : EigenCase → Coef
  | .twoEqual01 =>
    { theta := ![![0, d 0 / 2, quot lam e 0 2], ![d 0 / 2, 0, quot lam e 1 2], ![quot lam e 0 2, quot lam e 1 2, 0]]
      xi := ![![0, f 0 / 8, xiQuot lam e d 0 2 0 2], ![f 0 / 8, 0, xiQuot lam e d 1 2 1 2],
        ![xiQuot lam e d 0 2 2 0, xiQuot lam e d 1 2 2 1, 0]]
      eta := xiQuot lam e d 0 2 2 0 }
  | .twoEqual02 =>
    { theta := ![![0, quot lam e 0 1, d 0 / 2], ![quot lam e 0 1, 0, quot lam e 1 2], ![d 0 / 2, quot lam e 1 2, 0]]
      xi := ![![0, xiQuot lam e d 0 1 0 1, f 0 / 8], ![xiQuot lam e d 0 1 1 0, 0, xiQuot lam e d 1 2 1 2],
        ![f 0 / 8, xiQuot lam e d 1 2 2 1, 0]]
      eta := xiQuot lam e d 0 1 0 1 }
  | .twoEqual12 =>
    { theta := ![![0, quot lam e 0 1, quot lam e 0 2], ![quot lam e 0 1, 0, d 0 / 2], ![quot lam e 0 2, d 0 / 2, 0]]
      xi := ![![0, xiQuot lam e d 0 1 0 1, xiQuot lam e d 0 2 0 2], ![xiQuot lam e d 0 1 1 0, 0, f 0 / 8],
        ![xiQuot lam e d 0 2 2 0, f 0 / 8, 0]]
      eta := f 0 / 8 }
  -- `std::invalid_argument(..)` is constructed but not thrown
  | _ => { theta := fun _ _ => 0, xi := fun _ _ => 0, eta := 0 }

/-- `compute_coefficient`, `:397-416`. -/
def coefficient (eps tiny : ℝ) (lam : Vec3) : Coef :=
  match selectCase eps tiny lam with
  | .threeDiff => threeDiff lam (ei lam) (di lam)
  | .threeEqual => threeEqual (di lam) (fi lam)
  | c => twoEqual lam (ei lam) (di lam) (fi lam) c

/-- The projector tensor `P` of `compute_projector`, `:420-533`, which the law calls with `compute_TL = false`. -/
def projector (eps tiny : ℝ) (F : Mat ℝ 3) (lam : Vec3) (evec : Mat ℝ 3) : Tens ℝ 3 :=
  let N := Ni evec
  let n := ni F N
  let c := coefficient eps tiny lam
  ∑ i, (kronecker ((di lam i / 2) • outer (N i) (N i)) (Mij N n i i) +
    ∑ j, if j ≠ i then kronecker (c.theta i j • outer (N i) (N j)) (Mij N n i j) else 0)

/-- The projector tensor `P` of `compute_projector_PK2`, `:537-625`. -/
def projectorPK2 (eps tiny : ℝ) (lam : Vec3) (evec : Mat ℝ 3) : Tens ℝ 3 :=
  let N := Ni evec
  let c := coefficient eps tiny lam
  ∑ i, ((di lam i / 2) • kronecker (outer (N i) (N i)) (Mij N N i i) +
    ∑ j, if j ≠ i then c.theta i j • kronecker (outer (N i) (N j)) (Mij N N i j) else 0)

/-- The tensor `TL` of `compute_projector_PK2`. -/
def tlPK2 (eps tiny : ℝ) (T : Mat ℝ 3) (lam : Vec3) (evec : Mat ℝ 3) : Tens ℝ 3 :=
  let N := Ni evec
  let z := zeta T N
  let c := coefficient eps tiny lam
  let m := Mij N N
  ∑ i, ((fi lam i / 4 * z i i) • kronecker (m i i) (m i i) +
    ∑ j, if j ≠ i then
      (2 * c.xi i j) • (z i j • (kronecker (m i j) (m j j) + kronecker (m j j) (m i j)) +
        z j j • kronecker (m i j) (m i j)) +
      ∑ k, if k ≠ i ∧ k ≠ j then (2 * c.eta * z i j) • kronecker (m i k) (m j k) else 0
    else 0)

/-- `compute_whole3D`, `LogarithmicStrain_qp.hpp:80-149`; `hpp` is the small strain law at the point for the given
material data, returning stress and tangent. The stress that `compute_stress3D_T` reads back from the law is the one
just returned. The bound `0.01` is read as `1/100`. -/
def whole3D (eps tiny : ℝ) (solver : Mat ℝ 3 → Vec3 × Mat ℝ 3) (hpp : Mat ℝ 3 → Outcome (Mat ℝ 3 × Tens ℝ 3))
    (tangent : Bool) (F : Mat ℝ 3) : Outcome (Mat ℝ 3 × Tens ℝ 3) :=
  if det F ≤ 1 / 100 then .throws "J <= 0" else
  let C := cauchyGreenRight F
  let ev := solver C
  (hpp (elog ev.1 ev.2)).bind fun r =>
    let Pn := projector eps tiny F ev.1 ev.2
    let PK1 := mtProd r.1 Pn
    if tangent = false then .ok (PK1, r.2) else
    let P2 := projectorPK2 eps tiny ev.1 ev.2
    let CP2 := contracted r.2 P2
    let C2 := contracted (Tensor.transpose zero P2) CP2 + tlPK2 eps tiny r.1 ev.1 ev.2
    let PK2 := mtProd r.1 P2
    .ok (PK1, ctoa C2 PK2 F)

/-- `compute_whole` in 2D, `LogarithmicStrain_qp.hpp:236-246`. -/
def whole2D (eps tiny : ℝ) (solver : Mat ℝ 3 → Vec3 × Mat ℝ 3) (hpp : Mat ℝ 3 → Outcome (Mat ℝ 3 × Tens ℝ 3))
    (tangent : Bool) (F : Mat ℝ 2) : Outcome (Mat ℝ 2 × Tens ℝ 2) :=
  (whole3D eps tiny solver hpp tangent (matrix3DOne F)).bind fun r => .ok (matrix2 r.1, tensor2 r.2)

end Verif.LogStrain
