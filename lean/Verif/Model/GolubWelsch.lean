import Mathlib.Analysis.Real.Sqrt
import Mathlib.Data.Matrix.Mul
/-!
The old one-dimensional rules and integration on one-dimensional meshes: `golub_welsch`, `gauss_legendre`,
`edge_quadrature` (`quadratures/quad_bones.hpp`) and `integrate` of cells and faces of `generic_mesh<T, 1>`
(`quadratures/bits/quad_phys_generic.hpp`).

Arithmetic is exact. Eigen's `SelfAdjointEigenSolver` is a parameter `sol`: it takes a symmetric matrix and returns
eigenvectors, as columns, and eigenvalues; theorems assume that it solves the problem. Like Eigen, only the lower triangle
of the matrix of the program is looked at.
-/
namespace Verif.GolubWelsch

/-- Eigenvectors and eigenvalues of symmetric matrices of any size. -/
abbrev Solver := (n : Nat) → Matrix (Fin n) (Fin n) ℝ → Matrix (Fin n) (Fin n) ℝ × (Fin n → ℝ)

/-- `reqd_nodes`, `quad_bones.hpp:77-81,127-132`. -/
def reqdNodes (degree : Nat) : Nat :=
  let comp := if degree % 2 = 0 then degree + 1 else degree
  (comp + 1) / 2

/-- `M`, `quad_bones.hpp:90-95`. -/
noncomputable def lower (n : Nat) : Matrix (Fin n) (Fin n) ℝ :=
  fun i j => if j.val + 1 = i.val then √(1 / (4 - 1 / (i.val * i.val : ℝ))) else 0

/-- The symmetric matrix that Eigen reads from the lower triangle of `M`. -/
def selfAdjoint {n : Nat} (M : Matrix (Fin n) (Fin n) ℝ) : Matrix (Fin n) (Fin n) ℝ :=
  fun i j => if j ≤ i then M i j else M j i

/-- `golub_welsch`, `quad_bones.hpp:69-113`. -/
noncomputable def golubWelsch (sol : Solver) (degree : Nat) : List (ℝ × ℝ) :=
  match reqdNodes degree with
  | 0 => []
  | 1 => [(0, 2)]
  | n + 2 =>
    let s := sol (n + 2) (selfAdjoint (lower (n + 2)))
    List.ofFn fun i => (s.2 i, 2 * s.1 0 i ^ 2)

/-- `gauss_legendre`, `quad_bones.hpp:122-207`. -/
noncomputable def gaussLegendre (sol : Solver) (degree : Nat) : List (ℝ × ℝ) :=
  match reqdNodes degree with
  | 1 => [(0, 2)]
  | 2 =>
    let qp := 1 / √3
    [(-qp, 1), (qp, 1)]
  | 3 =>
    let qp := √(3 / 5)
    [(-qp, 5 / 9), (qp, 5 / 9), (0, 8 / 9)]
  | 4 =>
    let a1 := 15
    let a2 := 2 * √30
    let qp := √((a1 - a2) / 35)
    let qw := (18 + √30) / 36
    let qp' := √((a1 + a2) / 35)
    let qw' := (18 - √30) / 36
    [(-qp, qw), (qp, qw), (-qp', qw'), (qp', qw')]
  | 5 =>
    let a1 := 5
    let a2 := 2 * √(10 / 7)
    let qp := √(a1 - a2) / 3
    let qw := (322 + 13 * √70) / 900
    let qp' := √(a1 + a2) / 3
    let qw' := (322 - 13 * √70) / 900
    [(0, 128 / 225), (-qp, qw), (qp, qw), (-qp', qw'), (qp', qw')]
  | _ => golubWelsch sol degree

/-- `edge_quadrature`, `quad_bones.hpp:211-217`. -/
noncomputable def edgeQuadrature (sol : Solver) (degree : Nat) : List (ℝ × ℝ) := gaussLegendre sol degree

/-- `integrate` of the cell with points `a`, `b`, `quad_phys_generic.hpp:224-250`. -/
noncomputable def integrateCell (sol : Solver) (a b : ℝ) (degree : Nat) : List (ℝ × ℝ) :=
  (edgeQuadrature sol degree).map fun q =>
    (1 / 2 * (1 - q.1) * a + 1 / 2 * (1 + q.1) * b, q.2 * |b - a| * (1 / 2))

/-- `integrate` of the face at `x`, `quad_phys_generic.hpp:252-265`. -/
def integrateFace (x : ℝ) (_degree : Nat) : List (ℝ × ℝ) := [(x, 1)]

end Verif.GolubWelsch
