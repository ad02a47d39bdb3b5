import Verif.Model.HhoLocal
/-!
Dirichlet conditions in the weak sense for the scalar HHO method.
`methods/implementation_hho/scalar_hho_laplacian.hpp:571-632`, called with the Dirichlet datum by
`apps/unsteady_laplacian/src/unsteady_laplacian.cpp:115` and `apps/obstacle/obstacle.cpp:1010`.

The conventions are those of `Verif.Model.HhoLocal`. The assertion `l.cols() == lhs.cols()` holds by construction:
`n` is the number of columns of `rec_op`, `lhs` and the number of entries of `rhs`. For `rd ≥ 1`.
-/
namespace Verif.Nitsche
open Finset Verif.Hho LocalMatrix

variable {K P : Type} [Field K]

/-- A face of the cell with `msh.is_boundary(fc)` and `measure(msh, fc)`. -/
structure BFace (P K : Type) extends Face P K where
  boundary : Bool
  meas : K

/-- `v.block(r, 0, nr, 1) += b` -/
def addSeg (v : Nat → K) (r nr : Nat) (b : Nat → K) : Nat → K :=
  fun i => if r ≤ i ∧ i < r + nr then v i + b (i - r) else v i

/-- The loop `v += qp.weight() * a(qp.point()) * g(qp.point())`, starting from zero. -/
def accumVec (qs : List (QP P K)) (a : P → Nat → K) (g : P → K) : Nat → K :=
  qs.foldl (fun v q => fun i => v i + q.w * a q.pt i * g q.pt) fun _ => 0

/-- One boundary face, `scalar_hho_laplacian.hpp:600-629`; `ofs` is `blkofs`. -/
def faceTerms (d rd fd n : Nat) (pen : K) (g : P → K) (rb : Basis P K) (R : Mat K) (ofs : Nat) (fc : BFace P K)
    (s : Mat K × (Nat → K)) : Mat K × (Nat → K) :=
  let fb := fc.basis fd
  let qs := fc.integrate (2 * rd)
  let rn := fluxN d none rb fc.normal
  let trace := accum qs fb.fn rn
  let mass := accum qs fb.fn fb.fn
  let vec1 := accumVec qs rn g
  let rhs := qs.foldl (fun b q => addSeg b ofs fb.size fun j => q.w * fb.fn q.pt j * (pen / fc.meas) * g q.pt) s.2
  let l := mul (rb.size - 1) trace R
  let lhs := subBlock s.1 ofs 0 fb.size n l
  let lhs := subBlock lhs 0 ofs n fb.size (tpose l)
  let lhs := addBlock lhs ofs ofs fb.size fb.size fun i j => pen / fc.meas * mass i j
  (lhs, fun i => rhs i - ∑ k ∈ range (rb.size - 1), R k i * vec1 k)

/-- The face loop, `scalar_hho_laplacian.hpp:591-630`: `blkofs = cbs + fbs * face_i`, faces inside the domain are
skipped. -/
def loop (d rd fd n cbs : Nat) (pen : K) (g : P → K) (rb : Basis P K) (R : Mat K) :
    Nat → List (BFace P K) → Mat K × (Nat → K) → Mat K × (Nat → K)
  | _, [], s => s
  | i, fc :: fs, s =>
    loop d rd fd n cbs pen g rb R (i + 1) fs
      (if fc.boundary then faceTerms d rd fd n pen g rb R (cbs + (fc.basis fd).size * i) fc s else s)

/-- `apply_dirichlet_via_nitsche(msh, cl, rec_op, lhs, rhs, hdi, bcs_fun, penalization)`,
`scalar_hho_laplacian.hpp:571-632`; `cbs = scalar_basis_size(hdi.cell_degree(), DIM)` is the size of the cell basis. -/
def apply (d rd cd fd n : Nat) (cell : Elem P K) (faces : List (BFace P K)) (R : Mat K) (lhs : Mat K) (rhs : Nat → K)
    (g : P → K) (pen : K) : Mat K × (Nat → K) :=
  loop d rd fd n (cell.basis cd).size pen g (cell.basis rd) R 0 faces (lhs, rhs)

/-- The default argument `penalization = 1.0`. -/
def applyDefault (d rd cd fd n : Nat) (cell : Elem P K) (faces : List (BFace P K)) (R : Mat K) (lhs : Mat K)
    (rhs : Nat → K) (g : P → K) : Mat K × (Nat → K) :=
  apply d rd cd fd n cell faces R lhs rhs g 1

end Verif.Nitsche
