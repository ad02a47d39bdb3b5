import Verif.Model.HhoLocal
import Verif.Model.Outcome
import Verif.Model.Util
/-!
Degrees of an HHO method and the vector operators built from the scalar ones.
`methods/implementation_hho/utils_hho.hpp`, `adaptivity/adaptivity.hpp`, `vector_hho_laplacian.hpp`,
`vector_stabilization.hpp`.

`ndebug` says whether `assert` is compiled out; a failing assert and a read outside a matrix are undefined
behaviour. `size_t` overflow is not modelled. The loops are those without `FILL_COLMAJOR`, which nothing defines.
-/
namespace Verif.HhoDegrees
open Verif.Hho Verif.Util

/-- `DegreeInfo`, `adaptivity/adaptivity.hpp:31-66`. -/
structure DegreeInfo where
  unknowns : Bool
  degree : Nat
  deriving DecidableEq, Repr

/-- `DegreeInfo(const size_t degree)`, `adaptivity.hpp:39`. -/
def DegreeInfo.mk' (k : Nat) : DegreeInfo := ⟨true, k⟩

/-- `hho_degree_info`, `utils_hho.hpp:52-61`: cell, face, gradient and reconstruction degree. -/
structure Hdi where
  cell : Nat
  face : Nat
  grad : Nat
  recd : Nat
  deriving DecidableEq, Repr

/-- `hho_degree_info()`, `utils_hho.hpp:69-71`. -/
def Hdi.default : Hdi := ⟨1, 1, 1, 2⟩

/-- `hho_degree_info(degree)`, `utils_hho.hpp:78-80`. -/
def Hdi.equal (k : Nat) : Hdi := ⟨k, k, k, k + 1⟩

/-- `c1 || c2` of the constructors, `utils_hho.hpp:94-95`, `:127-128`. The subtraction is only evaluated for `fd > 0`. -/
def cellOk (cd fd : Nat) : Bool :=
  (decide (fd > 0) && (cd == fd - 1 || cd == fd || cd == fd + 1)) || (fd == 0 && (cd == fd || cd == fd + 1))

/-- `hho_degree_info(cd, fd)`, `utils_hho.hpp:92-111`. -/
def Hdi.mixed (cd fd : Nat) : Hdi := if cellOk cd fd then ⟨cd, fd, fd, fd + 1⟩ else ⟨fd, fd, fd, fd + 1⟩

/-- `hho_degree_info(cd, fd, gd)`, `utils_hho.hpp:125-147`: the three tests are joined by `||`. -/
def Hdi.full (cd fd gd : Nat) : Hdi :=
  if cellOk cd fd || decide (gd ≥ fd) then ⟨cd, fd, gd, fd + 1⟩ else ⟨fd, fd, fd, fd + 1⟩

/-- `hho_degree_info(hdi_named_args)`, `utils_hho.hpp:147-153`. -/
def Hdi.named (rd cd fd : Nat) : Hdi := ⟨cd, fd, fd, rd⟩

/-- `reconstruction_degree(k)`, `utils_hho.hpp:198-201`. -/
def Hdi.setRec (h : Hdi) (k : Nat) : Hdi := { h with recd := k }

/-- `CellDegreeInfo`, `adaptivity.hpp:76-77`. -/
structure CellInfo where
  cell : DegreeInfo
  recd : DegreeInfo
  grad : DegreeInfo
  faces : List DegreeInfo
  deriving DecidableEq, Repr

/-- `CellDegreeInfo(msh, cl, cell_degree, face_degree, grad_degree)`, `adaptivity.hpp:100-112`; `nf` faces. -/
def CellInfo.ofDegrees (nf cd fd gd : Nat) : CellInfo :=
  ⟨.mk' cd, .mk' (fd + 1), .mk' gd, List.replicate nf (.mk' fd)⟩

/-- The conversion made in every function with an `hho_degree_info`:
`CellDegreeInfo<Mesh> cell_infos(msh, cl, di.cell_degree(), di.face_degree(), di.grad_degree())`,
e.g. `utils_hho.hpp:433`, `vector_hho_laplacian.hpp:155`. -/
def Hdi.cellInfo (h : Hdi) (nf : Nat) : CellInfo := .ofDegrees nf h.cell h.face h.grad

/-- `MeshDegreeInfo`, `adaptivity.hpp:225-226`. -/
structure MeshInfo where
  cells : List DegreeInfo
  faces : List DegreeInfo
  grads : List DegreeInfo
  recs : List DegreeInfo
  deriving DecidableEq, Repr

/-- `MeshDegreeInfo(msh, cell_degree, face_degree, grad_degree)`, `adaptivity.hpp:264-270`. -/
def MeshInfo.ofDegrees (ncells nfaces cd fd gd : Nat) : MeshInfo :=
  ⟨List.replicate ncells (.mk' cd), List.replicate nfaces (.mk' fd), List.replicate ncells (.mk' gd),
    List.replicate ncells (.mk' (fd + 1))⟩

/-- `v[i]` -/
def at' (v : List DegreeInfo) (i : Nat) : Outcome DegreeInfo :=
  match v[i]? with
  | some d => .ok d
  | none => .ub "index out of range"

/-- `degreeInfo(msh, fcs)`, `adaptivity.hpp:350-363`; a face is given by `msh.lookup(fc)`. -/
def MeshInfo.facesInfo (m : MeshInfo) : List Nat → Outcome (List DegreeInfo)
  | [] => .ok []
  | f :: fs => (at' m.faces f).bind fun d => (m.facesInfo fs).bind fun ds => .ok (d :: ds)

/-- `cellDegreeInfo(msh, cl)`, `adaptivity.hpp:384-392`. -/
def MeshInfo.cellInfo (m : MeshInfo) (cell : Nat) (fcs : List Nat) : Outcome CellInfo :=
  (at' m.cells cell).bind fun c => (at' m.recs cell).bind fun r => (at' m.grads cell).bind fun g =>
    (m.facesInfo fcs).bind fun fs => .ok ⟨c, r, g, fs⟩

/-- `degree(msh, fc, degree)`, `adaptivity.hpp:287-292`. -/
def MeshInfo.setFaceDegree (m : MeshInfo) (f k : Nat) : Outcome MeshInfo :=
  (at' m.faces f).bind fun d => .ok { m with faces := m.faces.set f { d with degree := k } }

/-- `hasUnknowns(msh, fc, unknowns)`, `adaptivity.hpp:315-320`. -/
def MeshInfo.setFaceUnknowns (m : MeshInfo) (f : Nat) (b : Bool) : Outcome MeshInfo :=
  (at' m.faces f).bind fun d => .ok { m with faces := m.faces.set f { d with unknowns := b } }

/-- `vector_face_dofs(msh, di)`, `utils_hho.hpp:242-251`. -/
def vectorFaceDofs (dim : Nat) (d : DegreeInfo) : Nat :=
  if d.unknowns then vectorBasisSize d.degree (dim - 1) dim else 0

/-- `vector_faces_dofs(msh, faces_degree_infos)`, `utils_hho.hpp:297-308`. -/
def vectorFacesDofs (dim : Nat) : List DegreeInfo → Nat
  | [] => 0
  | d :: ds => vectorFaceDofs dim d + vectorFacesDofs dim ds

/-- `scalar_face_dofs(msh, di)`, `utils_hho.hpp:230-239`. -/
def scalarFaceDofs (dim : Nat) (d : DegreeInfo) : Nat :=
  if d.unknowns then scalarBasisSize d.degree (dim - 1) else 0

/-- `scalar_faces_dofs(msh, faces_degree_infos)`, `utils_hho.hpp:268-279`. -/
def scalarFacesDofs (dim : Nat) : List DegreeInfo → Nat
  | [] => 0
  | d :: ds => scalarFaceDofs dim d + scalarFacesDofs dim ds

/-- A `dynamic_matrix` with its size. -/
structure DMat (K : Type) where
  rows : Nat
  cols : Nat
  at_ : Mat K

variable {K : Type} [Field K]

/-- The three loops `lhs(row + k, col + k) = lhs_scalar(i, j)`, `utils_hho.hpp:408-419`. -/
def expandK (dim : Nat) (A : Mat K) (i j : Nat) (M : Mat K) : Mat K :=
  (List.range dim).foldl (fun M k => fun r c => if r = i * dim + k ∧ c = j * dim + k then A i j else M r c) M

/-- See `expandK`. -/
def expandJ (dim nc : Nat) (A : Mat K) (i : Nat) (M : Mat K) : Mat K :=
  (List.range nc).foldl (fun M j => expandK dim A i j M) M

/-- See `expandK`. -/
def expand (dim nr nc : Nat) (A : Mat K) : Mat K := (List.range nr).foldl (fun M i => expandJ dim nc A i M) zero

/-- The checks before the loops: the asserts unless compiled out, then the reads `grad_scalar(i, j)`, `i < nr`,
`j < nc`, must lie inside the matrix. -/
def checked (ndebug : Bool) (nr nc : Nat) (A : DMat K) (r : DMat K) : Outcome (DMat K) :=
  if ndebug = false ∧ (A.rows ≠ nr ∨ A.cols ≠ nc) then .ub "assert"
  else if 0 < nr ∧ 0 < nc ∧ (A.rows < nr ∨ A.cols < nc) then .ub "read outside the matrix"
  else .ok r

/-- `compute_lhs_vector`, `utils_hho.hpp:373-423`. -/
def lhsVector (ndebug : Bool) (dim : Nat) (ci : CellInfo) (A : DMat K) : Outcome (DMat K) :=
  let total := vectorBasisSize ci.cell.degree dim dim + vectorFacesDofs dim ci.faces
  let ns := total / dim
  checked ndebug ns ns A ⟨total, total, expand dim ns ns A.at_⟩

/-- `compute_grad_vector`, `utils_hho.hpp:438-493`. -/
def gradVector (ndebug : Bool) (dim : Nat) (ci : CellInfo) (A : DMat K) : Outcome (DMat K) :=
  let rbs := vectorBasisSize ci.recd.degree dim dim
  let total := vectorBasisSize ci.cell.degree dim dim + vectorFacesDofs dim ci.faces
  let nr := rbs / dim - 1
  let ns := total / dim
  checked ndebug nr ns A ⟨rbs - dim, total, expand dim nr ns A.at_⟩

/-- `compute_grad_matrix`, `utils_hho.hpp:507-561`. -/
def gradMatrix (ndebug : Bool) (dim : Nat) (ci : CellInfo) (A : DMat K) : Outcome (DMat K) :=
  let gbs := matrixBasisSize ci.grad.degree dim dim
  let total := vectorBasisSize ci.cell.degree dim dim + vectorFacesDofs dim ci.faces
  let nr := gbs / dim
  let ns := total / dim
  checked ndebug nr ns A ⟨gbs, total, expand dim nr ns A.at_⟩

/-- `make_vector_hho_laplacian(msh, cl, hdi, hho_scalar_laplacian)`, `vector_hho_laplacian.hpp:180-192`. -/
def vectorLaplacian (ndebug : Bool) (dim : Nat) (h : Hdi) (nf : Nat) (L : DMat K × DMat K) :
    Outcome (DMat K × DMat K) :=
  (gradVector ndebug dim (h.cellInfo nf) L.1).bind fun oper =>
    (lhsVector ndebug dim (h.cellInfo nf) L.2).bind fun data => .ok (oper, data)

/-- The sizes of what `make_scalar_hho_laplacian(msh, cl, hdi)` returns, `scalar_hho_laplacian.hpp:140-270`:
`oper` has the size of the reconstruction basis less one, one column per scalar unknown; `data` is square. -/
def scalarSizes (dim : Nat) (h : Hdi) (nf : Nat) (L : DMat K × DMat K) : Prop :=
  let n := scalarBasisSize h.cell dim + nf * scalarBasisSize h.face (dim - 1)
  L.1.rows = scalarBasisSize h.recd dim - 1 ∧ L.1.cols = n ∧ L.2.rows = n ∧ L.2.cols = n

end Verif.HhoDegrees
