import Mathlib.Algebra.BigOperators.Group.Finset.Basic
import Mathlib.Algebra.Field.Defs
import Verif.Model.LocalMatrix
/-!
Local operators of the scalar HHO method: interpolation, potential reconstruction, stabilizations.
`methods/implementation_hho/scalar_hho_laplacian.hpp`, `scalar_stabilization.hpp`, `methods_hho.hpp`.

Matrices are functions of two natural numbers; the sizes the code allocates appear as the bounds of block
writes, of products and of solves. Entries outside an allocated matrix are never read by the model. Scalars
are elements of a field. A basis object is given by its size and its evaluations; `integrate` by the points
and weights it returns for each requested degree; `normal(msh, cl, fc)` is constant on a (flat) face.
Eigen's `ldlt()` and `LLT` solves are one assumption (`Solver` below).
-/
namespace Verif.Hho
open Finset LocalMatrix

/-- A dense matrix. -/
abbrev Mat (K : Type) := Nat → Nat → K

variable {K P : Type}

/-- The first `n` rows and columns are symmetric. -/
def SymOn (n : Nat) (A : Mat K) : Prop := ∀ i < n, ∀ j < n, A i j = A j i

section
variable [Field K]

/-- The leading `n × n` block has trivial kernel. -/
def Nonsing (n : Nat) (A : Mat K) : Prop :=
  ∀ x : Nat → K, (∀ i < n, ∑ j ∈ range n, A i j * x j = 0) → ∀ j < n, x j = 0

/-- What is assumed of Eigen's factorisations: on symmetric non-singular matrices `solve` solves. -/
structure Solver (K : Type) [Field K] where
  solve : Nat → Mat K → (Nat → K) → Nat → K
  solves : ∀ (n : Nat) (A : Mat K) (b : Nat → K), SymOn n A → Nonsing n A →
    ∀ i < n, ∑ j ∈ range n, A i j * solve n A b j = b i

/-- `A.ldlt().solve(B)` for a matrix `B`, column by column. -/
def Solver.solveMat (S : Solver K) (n : Nat) (A B : Mat K) : Mat K := fun i j => S.solve n A (fun r => B r j) i

/-- `Zero(r, c)` -/
def zero : Mat K := fun _ _ => 0

/-- `Identity(n, n)` -/
def ident : Mat K := fun i j => if i = j then 1 else 0

/-- `M.block(r, c, nr, nc) += B` -/
def addBlock (M : Mat K) (r c nr nc : Nat) (B : Mat K) : Mat K :=
  fun i j => if r ≤ i ∧ i < r + nr ∧ c ≤ j ∧ j < c + nc then M i j + B (i - r) (j - c) else M i j

/-- `M.block(r, c, nr, nc) -= B` -/
def subBlock (M : Mat K) (r c nr nc : Nat) (B : Mat K) : Mat K :=
  fun i j => if r ≤ i ∧ i < r + nr ∧ c ≤ j ∧ j < c + nc then M i j - B (i - r) (j - c) else M i j

/-- `M.block(r, c, nr, nc) = B` -/
def setBlock (M : Mat K) (r c nr nc : Nat) (B : Mat K) : Mat K :=
  fun i j => if r ≤ i ∧ i < r + nr ∧ c ≤ j ∧ j < c + nc then B (i - r) (j - c) else M i j

/-- `A * B` with `n` columns of `A`. -/
def mul (n : Nat) (A B : Mat K) : Mat K := fun i j => ∑ k ∈ range n, A i k * B k j

/-- `A.transpose()` -/
def tpose (A : Mat K) : Mat K := fun i j => A j i

/-- `M.block(r, c, ...)` read. -/
def block (M : Mat K) (r c : Nat) : Mat K := fun i j => M (r + i) (c + j)

/-- A scalar basis: `size()`, `eval_functions(pt)(i)`, `eval_gradients(pt)(i, c)`. -/
structure Basis (P K : Type) where
  size : Nat
  fn : P → Nat → K
  grad : P → Nat → Nat → K

/-- A cell or a face: `make_scalar_monomial_basis(msh, elem, degree)`, `integrate(msh, elem, degree)`,
`diameter(msh, elem)`. -/
structure Elem (P K : Type) where
  basis : Nat → Basis P K
  integrate : Nat → List (QP P K)
  diam : K

/-- A face of the cell with `normal(msh, cl, fc)`. -/
structure Face (P K : Type) extends Elem P K where
  normal : Nat → K

/-- The loops `M += qp.weight() * a(qp.point()) * b(qp.point()).transpose()`. -/
def accum (qs : List (QP P K)) (a b : P → Nat → K) : Mat K :=
  qs.foldl (fun M q => fun i j => M i j + q.w * a q.pt i * b q.pt j) zero

/-- The scalar product of two rows of `DIM` components. -/
def dot (d : Nat) (a b : Nat → K) : K := ∑ c ∈ range d, a c * b c

/-- The same loops with gradients, `M += qp.weight() * a * b.transpose()` with `DIM` columns. -/
def accumDot (d : Nat) (qs : List (QP P K)) (a b : P → Nat → Nat → K) : Mat K :=
  qs.foldl (fun M q => fun i j => M i j + q.w * dot d (a q.pt i) (b q.pt j)) zero

/-- `make_mass_matrix(msh, elem, basis)`, `bases/bases_utils.hpp:208-232`, for a basis of the given degree
on the points of `e` (the basis of a cell may be integrated on one of its faces). -/
def mass (e : Elem P K) (degree : Nat) (b : Basis P K) : Mat K := accum (e.integrate (2 * degree)) b.fn b.fn

/-- `make_stiffness_matrix(msh, elem, basis)`, `bases/bases_utils.hpp:264-290`. -/
def stiffness (d : Nat) (e : Elem P K) (degree : Nat) (b : Basis P K) : Mat K :=
  if degree > 0 then accumDot d (e.integrate (2 * (degree - 1))) b.grad b.grad else zero

/-- `make_rhs(msh, elem, basis, f, di)`, `bases/bases_utils.hpp:292-313`. -/
def rhsOf (e : Elem P K) (degree di : Nat) (b : Basis P K) (f : P → K) : Nat → K :=
  (e.integrate (2 * (degree + di))).foldl (fun v q => fun i => v i + b.fn q.pt i * (q.w * f q.pt)) fun _ => 0

/-- `project_function(msh, elem, degree, f, di)`, `bases/bases_utils.hpp:340-350`. -/
def projectElem (S : Solver K) (e : Elem P K) (degree : Nat) (f : P → K) (di : Nat) : Nat → K :=
  let b := e.basis degree
  S.solve b.size (mass e degree b) (rhsOf e degree di b f)

/-- `ret.segment(off, n) = v` -/
def setSegment (u : Nat → K) (off n : Nat) (v : Nat → K) : Nat → K :=
  fun k => if off ≤ k ∧ k < off + n then v (k - off) else u k

/-- Face loop of the interpolation operator, `methods_hho.hpp:74-79`: face `i` is written at `cbs + i * fbs`. -/
def projectFaces (S : Solver K) (cbs fbs fd di : Nat) (f : P → K) : Nat → List (Face P K) → (Nat → K) → Nat → K
  | _, [], ret => ret
  | i, fc :: fs, ret =>
    projectFaces S cbs fbs fd di f (i + 1) fs
      (setSegment ret (cbs + i * fbs) fbs (projectElem S fc.toElem fd f di))

/-- The interpolation operator `project_function(msh, cl, hdi, u, di)`, `methods_hho.hpp:56-83`;
`fbs = scalar_basis_size(hdi.face_degree(), DIM - 1)`. -/
def project (S : Solver K) (cell : Elem P K) (faces : List (Face P K)) (cd fd fbs di : Nat) (f : P → K) : Nat → K :=
  let cbs := (cell.basis cd).size
  projectFaces S cbs fbs fd di f 0 faces (setSegment (fun _ => 0) 0 cbs (projectElem S cell cd f di))

/-- `g.block(1, 0, rbs - 1, DIM)`: the rows without the constant function. -/
def tailRows (g : Nat → Nat → K) : Nat → Nat → K := fun i c => g (i + 1) c

/-- `r_dphi * diff_tens.transpose()` when `use_diffusion_tensor`, otherwise `r_dphi`. -/
def flux (d : Nat) (tens : Option (Mat K)) (g : Nat → Nat → K) : Nat → Nat → K :=
  match tens with
  | none => g
  | some D => fun i c => ∑ e ∈ range d, g i e * D c e

/-- The rows `flux` of the reconstruction basis without the constant, at a point. -/
def rflux (d : Nat) (tens : Option (Mat K)) (rb : Basis P K) : P → Nat → Nat → K :=
  fun x => flux d tens (tailRows (rb.grad x))

/-- `(r_dphi * n)` at a point of a face. -/
def fluxN (d : Nat) (tens : Option (Mat K)) (rb : Basis P K) (n : Nat → K) : P → Nat → K :=
  fun x i => dot d (rflux d tens rb x i) n

/-- One face of `priv::make_scalar_hho_laplacian`, `scalar_hho_laplacian.hpp:177-228`. -/
def lapFace (d : Nat) (tens : Option (Mat K)) (useProj : Bool) (S : Solver K) (rb cb : Basis P K) (rd cd fd : Nat)
    (fc : Face P K) (off : Nat) (M : Mat K) : Mat K :=
  let fb := fc.basis fd
  let qs := fc.integrate (rd + max cd fd)
  let rn := fluxN d tens rb fc.normal
  let M1 := qs.foldl (fun M q =>
    let M := addBlock M 0 off (rb.size - 1) fb.size fun i j => q.w * rn q.pt i * fb.fn q.pt j
    if useProj then M else subBlock M 0 0 (rb.size - 1) cb.size fun i j => q.w * rn q.pt i * cb.fn q.pt j) M
  if useProj then
    let MF := accum qs fb.fn fb.fn
    let TF := accum qs fb.fn cb.fn
    let FR := accum qs rn fb.fn
    subBlock M1 0 0 (rb.size - 1) cb.size (mul fb.size FR (S.solveMat fb.size MF TF))
  else M1

/-- The face loop with its running offset, `scalar_hho_laplacian.hpp:175-231`. -/
def lapFaces (d : Nat) (tens : Option (Mat K)) (useProj : Bool) (S : Solver K) (rb cb : Basis P K) (rd cd fd : Nat) :
    List (Face P K) → Nat → Mat K → Mat K
  | [], _, M => M
  | fc :: fs, off, M =>
    lapFaces d tens useProj S rb cb rd cd fd fs (off + (fc.basis fd).size)
      (lapFace d tens useProj S rb cb rd cd fd fc off M)

/-- `gr_lhs` of `priv::make_scalar_hho_laplacian`, `scalar_hho_laplacian.hpp:157-171`. `2*(rd-1)` is computed
for `rd ≥ 1` (for `rd = 0` the code's unsigned subtraction wraps). -/
def lapLhs (d : Nat) (tens : Option (Mat K)) (rb : Basis P K) (rd : Nat) (cell : Elem P K) : Mat K :=
  accumDot d (cell.integrate (2 * (rd - 1))) (rflux d tens rb) (fun x => tailRows (rb.grad x))

/-- `gr_rhs` of `priv::make_scalar_hho_laplacian`, `scalar_hho_laplacian.hpp:157-231`. -/
def lapRhs (d : Nat) (tens : Option (Mat K)) (useProj : Bool) (S : Solver K) (rb : Basis P K) (rd cd fd : Nat)
    (cell : Elem P K) (faces : List (Face P K)) : Mat K :=
  let cb := cell.basis cd
  lapFaces d tens useProj S rb cb rd cd fd faces cb.size
    (addBlock zero 0 0 (rb.size - 1) cb.size
      (accumDot d (cell.integrate (2 * (rd - 1))) (rflux d tens rb) cb.grad))

/-- `oper` and `data`, `scalar_hho_laplacian.hpp:244-245`. -/
def operData (S : Solver K) (n : Nat) (lhs rhs : Mat K) : Mat K × Mat K :=
  let oper := S.solveMat n lhs rhs
  (oper, mul n (tpose rhs) oper)

/-- `priv::make_scalar_hho_laplacian`, `scalar_hho_laplacian.hpp:129-248`. -/
def laplacianWith (d : Nat) (tens : Option (Mat K)) (useProj : Bool) (S : Solver K) (rb : Basis P K) (rd cd fd : Nat)
    (cell : Elem P K) (faces : List (Face P K)) : Mat K × Mat K :=
  operData S (rb.size - 1) (lapLhs d tens rb rd cell) (lapRhs d tens useProj S rb rd cd fd cell faces)

/-- `make_scalar_hho_laplacian(msh, cl, hdi)`, `(…, diff_tens)`, `make_shl_face_proj` with and without a tensor,
`scalar_hho_laplacian.hpp:254-290`: the reconstruction basis is the monomial basis of degree `rd`. -/
def laplacian (d : Nat) (tens : Option (Mat K)) (useProj : Bool) (S : Solver K) (rd cd fd : Nat)
    (cell : Elem P K) (faces : List (Face P K)) : Mat K × Mat K :=
  laplacianWith d tens useProj S (cell.basis rd) rd cd fd cell faces

/-- A face with `facesDegreeInfo()[i]`: its degree if it has unknowns. -/
abbrev InfoFace (P K : Type) := Face P K × Option Nat

/-- `scalar_face_dofs`, `utils_hho.hpp:229-239`. -/
def faceDofs (fc : InfoFace P K) : Nat :=
  match fc.2 with
  | some k => (fc.1.basis k).size
  | none => 0

/-- Face loop of the version with `CellDegreeInfo`, `scalar_hho_laplacian.hpp:97-127`. -/
def lapInfoFaces (d : Nat) (cb : Basis P K) (cbs rd cd : Nat) : List (InfoFace P K) → Nat → Mat K → Mat K
  | [], _, M => M
  | (fc, none) :: fs, off, M => lapInfoFaces d cb cbs rd cd fs off M
  | (fc, some k) :: fs, off, M =>
    let fb := fc.basis k
    let rn := fluxN d none cb fc.normal
    lapInfoFaces d cb cbs rd cd fs (off + fb.size)
      ((fc.integrate (rd - 1 + max k cd)).foldl (fun M q =>
        subBlock (addBlock M 0 off (cb.size - 1) fb.size fun i j => q.w * rn q.pt i * fb.fn q.pt j)
          0 0 (cb.size - 1) cbs fun i j => q.w * rn q.pt i * cb.fn q.pt j) M)

/-- `gr_lhs` of the version with `CellDegreeInfo`, `scalar_hho_laplacian.hpp:90-94`. -/
def lapInfoLhs (d rd : Nat) (cell : Elem P K) : Mat K := block (stiffness d cell rd (cell.basis rd)) 1 1

/-- `gr_rhs` of the version with `CellDegreeInfo`, `scalar_hho_laplacian.hpp:90-127`. -/
def lapInfoRhs (d rd cd : Nat) (cell : Elem P K) (faces : List (InfoFace P K)) : Mat K :=
  let cb := cell.basis rd
  let cbs := (cell.basis cd).size
  lapInfoFaces d cb cbs rd cd faces cbs
    (setBlock zero 0 0 (cb.size - 1) cbs (block (stiffness d cell rd cb) 1 0))

/-- `make_scalar_hho_laplacian(msh, cl, cell_infos)`, `scalar_hho_laplacian.hpp:68-133`. -/
def laplacianInfo (d rd cd : Nat) (S : Solver K) (cell : Elem P K) (faces : List (InfoFace P K)) : Mat K × Mat K :=
  operData S ((cell.basis rd).size - 1) (lapInfoLhs d rd cell) (lapInfoRhs d rd cd cell faces)

/-! ### Stabilizations -/

/-- The scaling length: `h = diameter(msh, fc)` if `hF`, otherwise `diameter(msh, cl)`. -/
def hOf (hF : Bool) (cell : Elem P K) (fc : Face P K) : K := if hF then fc.diam else cell.diam

/-- The trace loop `trace += w * f_phi * c_phi.transpose()`. -/
def traceMat (fc : Face P K) (degree : Nat) (fb cb : Basis P K) : Mat K := accum (fc.integrate degree) fb.fn cb.fn

/-- `data += M` -/
def addMat (A B : Mat K) : Mat K := fun i j => A i j + B i j
/-- `M / h` -/
def divMat (A : Mat K) (h : K) : Mat K := fun i j => A i j / h
/-- `-M` -/
def negMat (A : Mat K) : Mat K := fun i j => -A i j

/-- One face of `make_scalar_hdg_stabilization`, `scalar_stabilization.hpp:182-213`:
`oper = [mass⁻¹ trace, -I]`, `tr = [trace, -mass]`. -/
def hdgFace (S : Solver K) (hF : Bool) (cd k : Nat) (cell : Elem P K) (fc : Face P K) (off : Nat) : Mat K :=
  let cb := cell.basis cd
  let fb := fc.basis k
  let m := mass fc.toElem k fb
  let trace := traceMat fc (k + cd) fb cb
  let tr := setBlock (setBlock zero 0 off fb.size fb.size (negMat m)) 0 0 fb.size cb.size trace
  let oper := setBlock (setBlock zero 0 off fb.size fb.size (negMat ident)) 0 0 fb.size cb.size
    (S.solveMat fb.size m trace)
  divMat (mul fb.size (tpose oper) tr) (hOf hF cell fc)

/-- Face loop of `make_scalar_hdg_stabilization`. -/
def hdgFaces (S : Solver K) (hF : Bool) (cd : Nat) (cell : Elem P K) : List (InfoFace P K) → Nat → Mat K → Mat K
  | [], _, M => M
  | (_, none) :: fs, off, M => hdgFaces S hF cd cell fs off M
  | (fc, some k) :: fs, off, M =>
    hdgFaces S hF cd cell fs (off + (fc.basis k).size) (addMat M (hdgFace S hF cd k cell fc off))

/-- `make_scalar_hdg_stabilization(msh, cl, cell_infos, hF)`, `scalar_stabilization.hpp:145-221`. -/
def hdg (S : Solver K) (hF : Bool) (cd : Nat) (cell : Elem P K) (faces : List (InfoFace P K)) : Mat K :=
  hdgFaces S hF cd cell faces (cell.basis cd).size zero

/-- One face of `make_scalar_dg_stabilization`, `scalar_stabilization.hpp:446-478`. -/
def dgFace (hF : Bool) (cd k : Nat) (cell : Elem P K) (fc : Face P K) (off : Nat) (M : Mat K) : Mat K :=
  let cb := cell.basis cd
  let fb := fc.basis k
  let h := hOf hF cell fc
  let massF := mass fc.toElem k fb
  let massT := mass fc.toElem cd cb
  let trace := traceMat fc (k + cd) fb cb
  let M := addBlock M 0 0 cb.size cb.size (divMat massT h)
  let M := addBlock M off off fb.size fb.size (divMat massF h)
  let M := subBlock M 0 off cb.size fb.size (divMat (tpose trace) h)
  subBlock M off 0 fb.size cb.size (divMat trace h)

/-- Face loop of `make_scalar_dg_stabilization`. -/
def dgFaces (hF : Bool) (cd : Nat) (cell : Elem P K) : List (InfoFace P K) → Nat → Mat K → Mat K
  | [], _, M => M
  | (_, none) :: fs, off, M => dgFaces hF cd cell fs off M
  | (fc, some k) :: fs, off, M =>
    dgFaces hF cd cell fs (off + (fc.basis k).size) (dgFace hF cd k cell fc off M)

/-- `make_scalar_dg_stabilization(msh, cl, cell_infos, hF)`, `scalar_stabilization.hpp:414-482`. -/
def dg (hF : Bool) (cd : Nat) (cell : Elem P K) (faces : List (InfoFace P K)) : Mat K :=
  dgFaces hF cd cell faces (cell.basis cd).size zero

/-- Steps 1 and 2 of `make_scalar_hho_stabilization`: `proj1 = I - M1⁻¹ M2 R`
(`scalar_stabilization.hpp:611-622` and `:827-848`). `R` has `nr` rows. -/
def proj1 (S : Solver K) (cbs nr : Nat) (M1 M2 R : Mat K) : Mat K :=
  addBlock (negMat (S.solveMat cbs M1 (mul nr M2 R))) 0 0 cbs cbs ident

/-- Steps 3a and 3b: `BRF = mass⁻¹ MR1 R - I + mass⁻¹ MR2 proj1` (`scalar_stabilization.hpp:662-671`,
`:881-893`). -/
def brf (S : Solver K) (fbs cbs nr off : Nat) (m MR1 MR2 R pr1 : Mat K) : Mat K :=
  addMat (subBlock (S.solveMat fbs m (mul nr MR1 R)) 0 off fbs fbs ident) (S.solveMat fbs m (mul cbs MR2 pr1))

/-- `BRF.transpose() * mass * BRF / h` -/
def brfTerm (fbs : Nat) (m B : Mat K) (h : K) : Mat K := divMat (mul fbs (mul fbs (tpose B) m) B) h

/-- Face loop of `make_scalar_hho_stabilization` with `CellDegreeInfo`, `scalar_stabilization.hpp:636-676`. -/
def hhoInfoFaces (S : Solver K) (hF : Bool) (rd cbs : Nat) (cell : Elem P K) (R pr1 : Mat K) :
    List (InfoFace P K) → Nat → Mat K → Mat K
  | [], _, M => M
  | (_, none) :: fs, off, M => hhoInfoFaces S hF rd cbs cell R pr1 fs off M
  | (fc, some k) :: fs, off, M =>
    let cb := cell.basis rd
    let fb := fc.basis k
    let m := mass fc.toElem k fb
    let trace := traceMat fc (rd + k) fb cb
    let B := brf S fb.size cbs (cb.size - 1) off m (block trace 0 1) (block trace 0 0) R pr1
    hhoInfoFaces S hF rd cbs cell R pr1 fs (off + fb.size) (addMat M (brfTerm fb.size m B (hOf hF cell fc)))

/-- `make_scalar_hho_stabilization(msh, cl, reconstruction, cell_infos, hF)`, `scalar_stabilization.hpp:584-680`. -/
def hhoInfo (S : Solver K) (hF : Bool) (rd cd : Nat) (cell : Elem P K) (R : Mat K) (faces : List (InfoFace P K)) :
    Mat K :=
  let cb := cell.basis rd
  let cbs := (cell.basis cd).size
  let m := mass cell rd cb
  let pr1 := proj1 S cbs (cb.size - 1) (block m 0 0) (block m 0 1) R
  hhoInfoFaces S hF rd cbs cell R pr1 faces cbs zero

/-- Face loop of `make_scalar_hho_stabilization` with `hho_degree_info`, `scalar_stabilization.hpp:859-898`. The
scaling is the diameter of the cell. -/
def hhoFaces (S : Solver K) (rd fd : Nat) (rb cb : Basis P K) (cell : Elem P K) (R pr1 : Mat K) :
    List (Face P K) → Nat → Mat K → Mat K
  | [], _, M => M
  | fc :: fs, off, M =>
    let fb := fc.basis fd
    let m := mass fc.toElem fd fb
    let MR1 := accum (fc.integrate (rd + fd)) fb.fn (fun x j => rb.fn x (j + 1))
    let MR2 := accum (fc.integrate (rd + fd)) fb.fn cb.fn
    let B := brf S fb.size cb.size (rb.size - 1) off m MR1 MR2 R pr1
    hhoFaces S rd fd rb cb cell R pr1 fs (off + fb.size) (addMat M (brfTerm fb.size m B cell.diam))

/-- `make_scalar_hho_stabilization(msh, cl, rb, reconstruction, hdi)`, `scalar_stabilization.hpp:808-901`. -/
def hhoWith (S : Solver K) (rd cd fd : Nat) (rb : Basis P K) (cell : Elem P K) (R : Mat K) (faces : List (Face P K)) :
    Mat K :=
  let cb := cell.basis cd
  let M1 := mass cell cd cb
  let M2 := accum (cell.integrate (rd + cd)) cb.fn (fun x j => rb.fn x (j + 1))
  let pr1 := proj1 S cb.size (rb.size - 1) M1 M2 R
  hhoFaces S rd fd rb cb cell R pr1 faces cb.size zero

/-- `make_scalar_hho_stabilization(msh, cl, reconstruction, hdi, x)`, `scalar_stabilization.hpp:903-914`: the last
parameter, documented as `hF`, is not used. -/
def hho (S : Solver K) (_x : Bool) (rd cd fd : Nat) (cell : Elem P K) (R : Mat K) (faces : List (Face P K)) : Mat K :=
  hhoWith S rd cd fd (cell.basis rd) cell R faces

end
end Verif.Hho
