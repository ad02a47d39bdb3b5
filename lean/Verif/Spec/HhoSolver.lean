import Verif.Spec.HhoLocal
import Verif.Model.HhoSolver
/-!
Specification vocabulary for the HHO diffusion solver: a polynomial solution of the diffusion problem on the cells
of a mesh, regularity of the cells, matching normals.
-/
namespace Verif.Spec.HhoSolver
open Finset Verif.Hho Verif.HhoSolver Verif.Spec.Hho LocalMatrix

variable {K P : Type} [Field K]

/-- The degrees of the method: the reconstruction has at most one degree more than the faces, the cell unknowns have
at most the degree of the reconstruction and at least two less; the quadrature rules are exact up to degree `N`. -/
structure Degrees (cfg : Config K) (N : Nat) : Prop where
  cell_le : cfg.cd ≤ cfg.rd
  cell_ge : cfg.rd ≤ cfg.cd + 2
  face_ge : cfg.rd ≤ cfg.fd + 1
  exactCell : 2 * (cfg.cd + 2) ≤ N
  exactFace : 2 * (cfg.fd + 2) ≤ N

/-- Regularity of a cell: Green's formula for its basis, faces with `fbs` functions, non-singular mass and stiffness
matrices. -/
structure Regular (cfg : Config K) (cell : Elem P K) (faces : List (Face P K)) {N : Nat}
    (C : PolyCell cfg.d cell faces N) : Prop where
  green : Green C (some cfg.tens) cfg.rd cfg.cd
  size : ∀ g ∈ faces, (g.basis cfg.fd).size = cfg.fbs
  massCell : Nonsing (cell.basis cfg.cd).size (mass cell cfg.cd (cell.basis cfg.cd))
  massFace : ∀ g ∈ faces, Nonsing (g.basis cfg.fd).size (mass g.toElem cfg.fd (g.basis cfg.fd))
  massProj : cfg.useProj = true → ∀ g ∈ faces, Nonsing (g.basis cfg.fd).size
    (accum (g.integrate (cfg.rd + max cfg.cd cfg.fd)) (g.basis cfg.fd).fn (g.basis cfg.fd).fn)
  stiff : Nonsing ((cell.basis cfg.rd).size - 1) (lapLhs cfg.d (some cfg.tens) (cell.basis cfg.rd) cfg.rd cell)

/-- On a cell, `u` is a polynomial of the reconstruction degree with gradient `gu` and `-div(D gu) = f`, the latter in
weak form against the cell unknowns; the load is a polynomial of degree `cd`. -/
structure ExactOn (cfg : Config K) (cell : Elem P K) (faces : List (Face P K)) {N : Nat}
    (C : PolyCell cfg.d cell faces N) (f u : P → K) (gu : P → Nat → K) : Prop where
  sol : ∃ a, (∀ x, u x = evalFn (cell.basis cfg.rd) a x) ∧
    ∀ x, ∀ k < cfg.d, gu x k = evalGrad (cell.basis cfg.rd) a x k
  load_mem : f ∈ C.V cfg.cd
  load : ∀ j < (cell.basis cfg.cd).size,
    C.IT (fun x => dot cfg.d (fluxOf cfg.d (some cfg.tens) (gu x)) ((cell.basis cfg.cd).grad x j)) =
      C.IT (fun x => f x * (cell.basis cfg.cd).fn x j) +
      (faces.map fun g => C.IF g fun x =>
        dot cfg.d (fluxOf cfg.d (some cfg.tens) (gu x)) g.normal * (cell.basis cfg.cd).fn x j).sum

/-- The normals of the occurrences of face `i` in a cell, added up. -/
def cellNormal (c : DCell P K) (i k : Nat) : K := (c.fcs.map fun p => if p.1 = i then p.2 k else 0).sum

/-- The normals of the cells sharing a face inside the domain cancel. -/
def NormalsCancel (d : Nat) (m : DMesh P K) : Prop :=
  ∀ i, m.bnd[i]? = some false → ∀ k < d, (m.cells.map fun c => cellNormal c i k).sum = 0

/-- A cell with its polynomials, on which `u` is an exact solution of reconstruction degree. -/
def PatchCell (cfg : Config K) (m : DMesh P K) (N : Nat) (f u : P → K) (gu : P → Nat → K) (c : DCell P K) : Prop :=
  ∃ C : PolyCell cfg.d c.elem (m.faces c) N, Regular cfg c.elem (m.faces c) C ∧
    ExactOn cfg c.elem (m.faces c) C f u gu

/-- The cell block is invertible and the factorization accepts it. -/
def CellSolvable (S : Solver K) (F : Condensation.LDLT K) (cfg : Config K) (m : DMesh P K) (c : DCell P K) : Prop :=
  IsUnit (Condensation.topLeft (nc := numCell cfg c) (nf := numFace cfg c) (sized _ (operator S cfg m c).2)).det ∧
    F.success (Condensation.topLeft (nc := numCell cfg c) (nf := numFace cfg c) (sized _ (operator S cfg m c).2)) = true

/-- What the theorem on polynomial solutions assumes of the mesh. -/
structure PatchMesh (S : Solver K) (F : Condensation.LDLT K) (cfg : Config K) (m : DMesh P K) (N : Nat) (f u : P → K)
    (gu : P → Nat → K) : Prop where
  cell : ∀ c ∈ m.cells, PatchCell cfg m N f u gu c
  solvable : ∀ c ∈ m.cells, CellSolvable S F cfg m c
  range : ∀ c ∈ m.cells, ∀ q ∈ c.fcs, q.1 < m.bnd.length
  normals : NormalsCancel cfg.d m

/-- A cell that a chain of cells with common faces links to a boundary face. -/
inductive Anchored (m : DMesh P K) : DCell P K → Prop
  | boundary {c : DCell P K} {q : Nat × (Nat → K)} : q ∈ c.fcs → m.bnd[q.1]? = some true → Anchored m c
  | step {c c' : DCell P K} {q q' : Nat × (Nat → K)} : c' ∈ m.cells → Anchored m c' → q ∈ c.fcs → q' ∈ c'.fcs →
      q.1 = q'.1 → Anchored m c

/-- The discrete problem for local matrices `A`, loads `b` and Dirichlet values `g`: local vectors `v` with common
face values `W`, the prescribed ones on the boundary; the cell rows equal the loads, the face rows of the cells around
a face inside the domain add up to zero. -/
structure DiscreteSolution (cfg : Config K) (m : DMesh P K) (A : DCell P K → Mat K) (b : DCell P K → Nat → K)
    (g : Nat → Nat → K) (v : DCell P K → Nat → K) (W : Nat → Nat → K) : Prop where
  trace : ∀ c ∈ m.cells, ∀ p q, c.fcs[p]? = some q → ∀ k < cfg.fbs, v c (numCell cfg c + p * cfg.fbs + k) = W q.1 k
  dirichlet : ∀ i k, m.bnd[i]? = some true → k < cfg.fbs → W i k = g i k
  cellRows : ∀ c ∈ m.cells, ∀ i < numCell cfg c, app (numCell cfg c + numFace cfg c) (A c) (v c) i = b c i
  balance : ∀ i k, m.bnd[i]? = some false → k < cfg.fbs → (m.cells.map fun c => ∑ p ∈ range c.fcs.length,
    if (c.fcs.map Prod.fst).getD p 0 = i then
      app (numCell cfg c + numFace cfg c) (A c) (v c) (numCell cfg c + p * cfg.fbs + k) else 0).sum = 0

/-- Squared norm on a cell of the function with coefficients `w`. -/
def cellSq (cfg : Config K) (cell : Elem P K) (w : Nat → K) : K :=
  quad (cell.integrate (2 * cfg.cd)) fun x => evalFn (cell.basis cfg.cd) w x ^ 2

/-- Squared norm on a cell of a function, with the quadrature of the errors. -/
def l2Sq (cfg : Config K) (cell : Elem P K) (u : P → K) : K :=
  quad (cell.integrate (2 * cfg.cd + 2)) fun x => u x ^ 2

/-- Energy on a cell of a vector field, with the quadrature of the errors. -/
def energySq (cfg : Config K) (cell : Elem P K) (g : P → Nat → K) : K :=
  quad (cell.integrate (2 * cfg.cd + 2)) fun x => dot cfg.d (fluxOf cfg.d (some cfg.tens) (g x)) (g x)

/-- Sum over the cells with their local vectors. -/
def sumCells (g : DCell P K → (Nat → K) → K) (cells : List (DCell P K)) (sols : List (List K)) : K :=
  ((cells.zip sols).map fun p => g p.1 fun i => p.2.getD i 0).sum

section
variable [LinearOrder K]

/-- Positivity of the data of a cell: nested bases, non-negative weights, faces of non-zero measure, positive
diameters. -/
structure Positive (cfg : Config K) (cell : Elem P K) (faces : List (Face P K)) : Prop where
  nested : Nested cell
  weights : ∀ q ∈ cell.integrate (2 * (cfg.rd - 1)), 0 ≤ q.w
  faceWeights : ∀ g ∈ faces, ∀ q ∈ g.integrate (2 * cfg.fd), 0 ≤ q.w
  measure : ∀ g ∈ faces, quad (g.integrate (2 * cfg.fd)) (fun _ => 1) ≠ 0
  diam : 0 < cell.diam
  faceDiam : ∀ g ∈ faces, 0 < g.diam

/-- The diffusion tensor is positive semidefinite. -/
def TensNonneg (cfg : Config K) : Prop := ∀ g : Nat → K, 0 ≤ dot cfg.d (fluxOf cfg.d (some cfg.tens) g) g

/-- What the theorem on solvability assumes of the mesh: regular cells with positive data, linked to the boundary;
faces with unknowns belong to a cell. -/
structure SolvableMesh (cfg : Config K) (m : DMesh P K) (N : Nat) : Prop where
  cell : ∀ c ∈ m.cells, ∃ C : PolyCell cfg.d c.elem (m.faces c) N, Regular cfg c.elem (m.faces c) C
  positive : ∀ c ∈ m.cells, Positive cfg c.elem (m.faces c)
  range : ∀ c ∈ m.cells, ∀ q ∈ c.fcs, q.1 < m.bnd.length
  anchored : ∀ c ∈ m.cells, Anchored m c
  used : ∀ i, m.bnd[i]? = some false → ∃ c ∈ m.cells, ∃ q ∈ c.fcs, q.1 = i

/-- The factorization accepts symmetric positive definite matrices. -/
def AcceptsSPD (F : Condensation.LDLT K) : Prop := ∀ (n : Nat) (A : Matrix (Fin n) (Fin n) K),
  (∀ i j, A i j = A j i) → (∀ x : Fin n → K, x ≠ 0 → 0 < ∑ i, x i * ∑ j, A i j * x j) → F.success A = true

end

end Verif.Spec.HhoSolver
