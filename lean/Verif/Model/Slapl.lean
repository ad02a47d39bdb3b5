import Verif.Model.Outcome
import Verif.Model.HhoLocal
/-!
The scalar HHO operators of the new interface: `methods/hho_slapl.hpp`, with the integrals of
`bases/bases_new.hpp:908-945` and the projection of `bases/bases_operations.hpp:326-336`.

The same simplifications as in `Model/HhoLocal.lean`: matrices are functions of two indices, scalars are elements of a
field, a basis is its size and evaluations, Eigen's factorisations are a `Solver`. `Space::face_basis_type::
size_of_degree(di.face)` and the size of the basis object of a face are the same number. What
`local_stabilization_hdg` prints is left out.
-/
namespace Verif.Slapl
open Verif.Hho LocalMatrix

variable {K P : Type} [Field K]

/-- `degree_info`, `hho_slapl.hpp:33-50`. -/
structure DegreeInfo where
  cell : Nat
  face : Nat
  reco : Nat
  deriving DecidableEq, Repr

/-- `degree_info()`, lines 38-40. -/
def DegreeInfo.default : DegreeInfo := ⟨0, 0, 1⟩
/-- `degree_info(deg)`, lines 42-44. -/
def DegreeInfo.equal (deg : Nat) : DegreeInfo := ⟨deg, deg, deg + 1⟩
/-- `degree_info(cdeg, fdeg)`, lines 46-48. -/
def DegreeInfo.mixed (cdeg fdeg : Nat) : DegreeInfo := ⟨cdeg, fdeg, fdeg + 1⟩

/-- `integrate(msh, elem, trial, test)` for scalar bases of the degrees `kt` and `ks`, `bases_new.hpp:926-943`: rows are
test functions. -/
def integrateTT (e : Elem P K) (kt : Nat) (trial : P → Nat → K) (ks : Nat) (test : P → Nat → K) : Mat K :=
  accum (e.integrate (kt + ks)) test trial

/-- `integration_degree()` of `grad(basis)`, `bases_operations.hpp`: one less than that of the basis, but zero for degree
zero. -/
def gradDegree (k : Nat) : Nat := if k > 0 then k - 1 else k

/-- `integrate(msh, cl, grad(phi), grad(phi))`. -/
def gradGrad (d : Nat) (e : Elem P K) (k : Nat) : Mat K :=
  accumDot d (e.integrate (gradDegree k + gradDegree k)) (e.basis k).grad (e.basis k).grad

/-- `grad(phi).dot(n)` at a point; its `integration_degree()` is the degree of `phi`. -/
def gradDotN (d : Nat) (b : Basis P K) (n : Nat → K) : P → Nat → K := fun x i => dot d (b.grad x i) n

/-- One face of `local_operator`, lines 91-98. -/
def operFace (d : Nat) (di : DegreeInfo) (cell : Elem P K) (fc : Face P K) (off : Nat) (rhs : Mat K) : Mat K :=
  let phiR := cell.basis di.reco
  let phiT := cell.basis di.cell
  let phiF := fc.basis di.face
  let dn := gradDotN d phiR fc.normal
  let rhs := addBlock rhs 0 off (phiR.size - 1) phiF.size
    (block (integrateTT fc.toElem di.face phiF.fn di.reco dn) 1 0)
  subBlock rhs 0 0 (phiR.size - 1) phiT.size (block (integrateTT fc.toElem di.cell phiT.fn di.reco dn) 1 0)

/-- The face loop of `local_operator`, lines 87-101. -/
def operFaces (d : Nat) (di : DegreeInfo) (cell : Elem P K) : List (Face P K) → Nat → Mat K → Mat K
  | [], _, rhs => rhs
  | fc :: fs, off, rhs =>
    operFaces d di cell fs (off + (fc.basis di.face).size) (operFace d di cell fc off rhs)

/-- `lhs` of `local_operator`, line 83. -/
def operLhs (d : Nat) (di : DegreeInfo) (cell : Elem P K) : Mat K := block (gradGrad d cell di.reco) 1 1

/-- `rhs` of `local_operator`, lines 84-101. -/
def operRhs (d : Nat) (di : DegreeInfo) (cell : Elem P K) (faces : List (Face P K)) : Mat K :=
  let szR := (cell.basis di.reco).size
  let szT := (cell.basis di.cell).size
  operFaces d di cell faces szT (setBlock zero 0 0 (szR - 1) szT (block (gradGrad d cell di.reco) 1 0))

/-- `local_operator`, lines 63-106. `assert(szR > 0)`, and `stiffness.bottomLeftCorner(szR-1, szT)` asserts that the
`szR × szR` matrix has `szT` columns. -/
def localOperator (d : Nat) (S : Solver K) (di : DegreeInfo) (cell : Elem P K) (faces : List (Face P K)) :
    Outcome (Mat K × Mat K) :=
  let szR := (cell.basis di.reco).size
  let szT := (cell.basis di.cell).size
  if szR = 0 then .ub "hho_slapl.hpp:78 assert(szR > 0)"
  else if szT > szR then .ub "hho_slapl.hpp:85 bottomLeftCorner out of range"
  else
    let R := S.solveMat (szR - 1) (operLhs d di cell) (operRhs d di cell faces)
    .ok (R, mul (szR - 1) (tpose (operRhs d di cell faces)) R)

/-- `scale * M` -/
def scaleMat (s : K) (M : Mat K) : Mat K := fun i j => s * M i j

/-- `scale * rhs.transpose() * MF * rhs` -/
def penalty (s : K) (fbs : Nat) (MF rhs : Mat K) : Mat K := mul fbs (mul fbs (scaleMat s (tpose rhs)) MF) rhs

/-- `P1` of `local_stabilization`, lines 128-134. -/
def stabP1 (S : Solver K) (di : DegreeInfo) (cell : Elem P K) (R : Mat K) : Mat K :=
  let phiT := cell.basis di.cell
  let phiR := cell.basis di.reco
  let MT := integrateTT cell di.cell phiT.fn di.cell phiT.fn
  let R2T := block (integrateTT cell di.reco phiR.fn di.cell phiT.fn) 0 1
  addBlock (negMat (S.solveMat phiT.size MT (mul (phiR.size - 1) R2T R))) 0 0 phiT.size phiT.size ident

/-- `rhs` of one face of `local_stabilization`, lines 139-151. -/
def stabRhs (S : Solver K) (di : DegreeInfo) (cell : Elem P K) (R P1 : Mat K) (fc : Face P K) (off : Nat) : Mat K :=
  let phiT := cell.basis di.cell
  let phiR := cell.basis di.reco
  let phiF := fc.basis di.face
  let MF := integrateTT fc.toElem di.face phiF.fn di.face phiF.fn
  let T2F := integrateTT fc.toElem di.cell phiT.fn di.face phiF.fn
  let P2 := S.solveMat phiF.size MF (mul phiT.size T2F P1)
  let R2F := block (integrateTT fc.toElem di.reco phiR.fn di.face phiF.fn) 0 1
  let P3 := subBlock (S.solveMat phiF.size MF (mul (phiR.size - 1) R2F R)) 0 off phiF.size phiF.size ident
  addMat P2 P3

/-- The face loop of `local_stabilization`, lines 136-155. -/
def stabFaces (S : Solver K) (di : DegreeInfo) (cell : Elem P K) (R P1 : Mat K) : List (Face P K) → Nat → Mat K → Mat K
  | [], _, M => M
  | fc :: fs, off, M =>
    let phiF := fc.basis di.face
    let MF := integrateTT fc.toElem di.face phiF.fn di.face phiF.fn
    stabFaces S di cell R P1 fs (off + phiF.size)
      (addMat M (penalty (1 / cell.diam) phiF.size MF (stabRhs S di cell R P1 fc off)))

/-- `local_stabilization`, lines 108-158. -/
def localStabilization (S : Solver K) (di : DegreeInfo) (cell : Elem P K) (R : Mat K) (faces : List (Face P K)) : Mat K :=
  stabFaces S di cell R (stabP1 S di cell R) faces (cell.basis di.cell).size zero

/-- `rhs` of one face of `local_stabilization_hdg`, lines 183-200. -/
def hdgRhs (S : Solver K) (di : DegreeInfo) (cell : Elem P K) (fc : Face P K) (off : Nat) : Mat K :=
  let phiT := cell.basis di.cell
  let phiF := fc.basis di.face
  let MF := integrateTT fc.toElem di.face phiF.fn di.face phiF.fn
  let T2F := integrateTT fc.toElem di.cell phiT.fn di.face phiF.fn
  let P2 := S.solveMat phiF.size MF T2F
  setBlock (setBlock zero 0 0 phiF.size phiT.size (negMat P2)) 0 off phiF.size phiF.size ident

/-- The face loop of `local_stabilization_hdg`, lines 180-206, with `scale = 1.` (line 178). -/
def hdgFaces (S : Solver K) (di : DegreeInfo) (cell : Elem P K) : List (Face P K) → Nat → Mat K → Mat K
  | [], _, M => M
  | fc :: fs, off, M =>
    let phiF := fc.basis di.face
    let MF := integrateTT fc.toElem di.face phiF.fn di.face phiF.fn
    hdgFaces S di cell fs (off + phiF.size) (addMat M (penalty 1 phiF.size MF (hdgRhs S di cell fc off)))

/-- `local_stabilization_hdg`, lines 160-209. -/
def localStabilizationHdg (S : Solver K) (di : DegreeInfo) (cell : Elem P K) (faces : List (Face P K)) : Mat K :=
  hdgFaces S di cell faces (cell.basis di.cell).size zero

/-- `integrate(msh, elem, f, basis)`, `bases_new.hpp:911-923`: the rule has degree `2 * degree + 1`. -/
def integrateFn (e : Elem P K) (k : Nat) (f : P → K) : Nat → K :=
  (e.integrate (2 * k + 1)).foldl (fun v q => fun i => v i + q.w * ((e.basis k).fn q.pt i * f q.pt)) fun _ => 0

/-- `L2_project(msh, elem, f, basis)`, `bases_operations.hpp:326-336`. -/
def l2Project (S : Solver K) (e : Elem P K) (k : Nat) (f : P → K) : Nat → K :=
  S.solve (e.basis k).size (integrateTT e k (e.basis k).fn k (e.basis k).fn) (integrateFn e k f)

/-- The face loop of `local_reduction`, lines 228-234. -/
def reductionFaces (S : Solver K) (fd : Nat) (f : P → K) : List (Face P K) → Nat → (Nat → K) → Nat → K
  | [], _, ret => ret
  | fc :: fs, off, ret =>
    reductionFaces S fd f fs (off + (fc.basis fd).size)
      (setSegment ret off (fc.basis fd).size (l2Project S fc.toElem fd f))

/-- `local_reduction`, lines 211-237. -/
def localReduction (S : Solver K) (di : DegreeInfo) (cell : Elem P K) (faces : List (Face P K)) (f : P → K) : Nat → K :=
  let szT := (cell.basis di.cell).size
  reductionFaces S di.face f faces szT (setSegment (fun _ => 0) 0 szT (l2Project S cell di.cell f))

end Verif.Slapl
