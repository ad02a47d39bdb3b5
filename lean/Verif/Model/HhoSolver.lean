import Verif.Model.HhoLocal
import Verif.Model.Assembly
import Verif.Model.Condensation
/-!
The HHO diffusion solver `run_hho_diffusion_solver`, `apps/diffusion/src/diffusion_hho_common.hpp:337-518`: local
operators, static condensation, assembly with Dirichlet conditions on all boundary faces, global solve, recovery of
the local solutions, error accumulators.

Simplifications. A cell is an element with the numbers of its faces and its outward normals; a face is an element by
its number (`DMesh.face`). The load, the solution and its gradient are functions of the point. Scalars are elements
of a field; the final square roots and quotients (`:512-516`) and the console and Silo output are not modelled, the
six accumulators are. `mumps_lu` is an assumption (`LU`). The sizes Eigen asserts are those of the arguments.
-/
namespace Verif.HhoSolver
open Finset Verif.Hho LocalMatrix

variable {K P : Type}

/-- A cell: its element, and for each of its faces the number in the mesh and `normal(msh, cl, fc)`. -/
structure DCell (P K : Type) where
  elem : Elem P K
  fcs : List (Nat × (Nat → K))

/-- A mesh: the faces by number, `msh.is_boundary(fc)` by number, the cells. -/
structure DMesh (P K : Type) where
  face : Nat → Elem P K
  bnd : List Bool
  cells : List (DCell P K)

/-- `faces(msh, cl)` with their normals. -/
def DMesh.faces (m : DMesh P K) (c : DCell P K) : List (Face P K) :=
  c.fcs.map fun p => { toElem := m.face p.1, normal := p.2 }

/-- The degrees `hdi`, `fbs = scalar_basis_size(fd, DIM - 1)`, the dimension, `diff_tens` and `use_proj`. -/
structure Config (K : Type) where
  d : Nat
  tens : Mat K
  useProj : Bool
  rd : Nat
  cd : Nat
  fd : Nat
  fbs : Nat

variable [Field K]

/-- What is assumed of `mumps_lu`: it solves non-singular systems. -/
structure LU (K : Type) [Field K] where
  solve : Nat → Mat K → (Nat → K) → Nat → K
  solves : ∀ (n : Nat) (A : Mat K) (b : Nat → K), Nonsing n A →
    ∀ i < n, ∑ j ∈ range n, A i j * solve n A b j = b i

/-- The reconstruction `GR` and the local matrix `A`, `diffusion_hho_common.hpp:363-382` and `:421-440`. The
stabilizations are called with their default flags. -/
def operator (S : Solver K) (cfg : Config K) (m : DMesh P K) (c : DCell P K) : Mat K × Mat K :=
  let fs := m.faces c
  let L := laplacian cfg.d (some cfg.tens) cfg.useProj S cfg.rd cfg.cd cfg.fd c.elem fs
  let stabfree : Bool := decide (cfg.rd > cfg.fd + 1)
  let hdgstab : Bool := decide (cfg.cd > cfg.fd)
  if stabfree then L
  else if hdgstab then (L.1, addMat L.2 (hdg S true cfg.cd c.elem (fs.map fun f => (f, some cfg.fd))))
  else (L.1, addMat L.2 (hho S true cfg.rd cfg.cd cfg.fd c.elem L.1 fs))

/-- `make_rhs(msh, cl, cb, rhs_fun)`, `diffusion_hho_common.hpp:384,442`. -/
def loadVec (cfg : Config K) (c : DCell P K) (f : P → K) : List K :=
  (List.range (c.elem.basis cfg.cd).size).map (rhsOf c.elem cfg.cd 0 (c.elem.basis cfg.cd) f)

/-- Number of cell unknowns. -/
def numCell (cfg : Config K) (c : DCell P K) : Nat := (c.elem.basis cfg.cd).size
/-- Number of face unknowns of a cell. -/
def numFace (cfg : Config K) (c : DCell P K) : Nat := c.fcs.length * cfg.fbs

/-- A matrix with the size of the local system. -/
def sized (n : Nat) (A : Mat K) : Matrix (Fin n) (Fin n) K := fun i j => A i j

/-- The Dirichlet data of the assembler: `project_function(msh, fc, fd, sol_fun, 1)`,
`assembler_hho.hpp:170,199-203` and `:413,431-434`. -/
def dirichletData (S : Solver K) (cfg : Config K) (m : DMesh P K) (u : P → K) (f i : Nat) : K :=
  projectElem S (m.face f) cfg.fd u 1 i

/-- `make_scalar_static_condensation`, `diffusion_hho_common.hpp:385`, as the input of the assembler. -/
def condenseCell (S : Solver K) (F : Condensation.LDLT K) (cfg : Config K) (m : DMesh P K) (f : P → K)
    (c : DCell P K) : Outcome (Assembly.Cell K) :=
  (Condensation.condense F (numCell cfg c) (numFace cfg c) (sized _ (operator S cfg m c).2) (loadVec cfg c f)).bind
    fun r => .ok ⟨c.fcs.map Prod.fst,
      ⟨numFace cfg c, numFace cfg c, fun i j => if h : i < numFace cfg c ∧ j < numFace cfg c then
        r.AC ⟨i, h.1⟩ ⟨j, h.2⟩ else 0⟩, List.ofFn r.bC⟩

/-- The assembly loop, `diffusion_hho_common.hpp:359-387`. -/
def assembleLoop (S : Solver K) (F : Condensation.LDLT K) (cfg : Config K) (m : DMesh P K) (f u : P → K) :
    List (DCell P K) → Assembly.State K → Outcome (Assembly.State K)
  | [], s => .ok s
  | c :: cs, s => (condenseCell S F cfg m f c).bind fun sc =>
      (Assembly.assemble s (dirichletData S cfg m u) sc.fcs sc.lhs sc.rhs).bind fun s =>
        assembleLoop S F cfg m f u cs s

/-- `finalize()` and `mumps_lu(LHS, RHS)`, `diffusion_hho_common.hpp:389-401`. -/
def globalSolve (lu : LU K) (s : Assembly.State K) : List K :=
  (List.range s.systemSize).map (lu.solve s.systemSize (Assembly.toMat s.triplets) fun i => s.rhs.getD i 0)

/-- The accumulators, `diffusion_hho_common.hpp:403-409` (`L2err` is not used). -/
structure Errors (K : Type) where
  Merr : K
  L2norm : K
  H1err : K
  H1norm : K
  Aerr : K
  Anorm : K

/-- `disk::eval(Rsol, dphi)` with the rows of the gradients without the constant. -/
def gradTail (rb : Basis P K) (r : Nat → K) (x : P) (c : Nat) : K :=
  ∑ j ∈ range (rb.size - 1), r j * rb.grad x (j + 1) c

/-- `a.dot(diff_tens * a)` -/
def tensSq (d : Nat) (D : Mat K) (a : Nat → K) : K := dot d a fun c => ∑ e ∈ range d, D c e * a e

/-- `x.dot(M * x)` -/
def quadForm (n : Nat) (M : Mat K) (x : Nat → K) : K := ∑ i ∈ range n, x i * ∑ j ∈ range n, M i j * x j

/-- Contributions of one cell, `diffusion_hho_common.hpp:465-490`. -/
def cellErrors (cfg : Config K) (c : DCell P K) (n : Nat) (op : Mat K × Mat K) (u : P → K) (gu : P → Nat → K)
    (full real : Nat → K) (e : Errors K) : Errors K :=
  let rb := c.elem.basis cfg.rd
  let cb := c.elem.basis cfg.cd
  let Rsol : Nat → K := fun i => ∑ j ∈ range n, op.1 i j * full j
  let e := (c.elem.integrate (2 * cfg.cd + 2)).foldl (fun e q =>
    { e with
      L2norm := e.L2norm + q.w * u q.pt * u q.pt
      H1err := e.H1err + q.w * tensSq cfg.d cfg.tens fun k => gu q.pt k - gradTail rb Rsol q.pt k
      H1norm := e.H1norm + q.w * tensSq cfg.d cfg.tens (gu q.pt) }) e
  let diff : Nat → K := fun i => real i - full i
  { e with
    Aerr := e.Aerr + quadForm n op.2 diff
    Anorm := e.Anorm + quadForm n op.2 real
    Merr := e.Merr + quadForm cb.size (mass c.elem cfg.cd cb) diff }

/-- The local solutions and the accumulators. -/
structure Result (K : Type) where
  sols : List (List K)
  errs : Errors K

/-- The second loop, `diffusion_hho_common.hpp:413-491`. -/
def postLoop (S : Solver K) (F : Condensation.LDLT K) (cfg : Config K) (m : DMesh P K) (f u : P → K)
    (gu : P → Nat → K) (s : Assembly.State K) (sol : List K) :
    List (DCell P K) → Result K → Outcome (Result K)
  | [], r => .ok r
  | c :: cs, r =>
    let op := operator S cfg m c
    (Assembly.takeLocal s (dirichletData S cfg m u) sol (c.fcs.map Prod.fst)).bind fun locsol =>
      (Condensation.decondense F (numCell cfg c) (numFace cfg c) (sized _ op.2) (loadVec cfg c f)
        fun i => locsol.getD i 0).bind fun full =>
        let l := List.ofFn full
        let real := project S c.elem (m.faces c) cfg.cd cfg.fd cfg.fbs 2 u
        postLoop S F cfg m f u gu s sol cs
          ⟨r.sols ++ [l], cellErrors cfg c (numCell cfg c + numFace cfg c) op u gu (fun i => l.getD i 0) real r.errs⟩

/-- `run_hho_diffusion_solver`, `diffusion_hho_common.hpp:337-518`: `f = rhs_fun`, `u = sol_fun`, `gu = sol_grad`. -/
def run (S : Solver K) (F : Condensation.LDLT K) (lu : LU K) (cfg : Config K) (m : DMesh P K) (f u : P → K)
    (gu : P → Nat → K) : Outcome (Result K) :=
  (Assembly.construct m.bnd cfg.fbs).bind fun s =>
    (assembleLoop S F cfg m f u m.cells s).bind fun s =>
      postLoop S F cfg m f u gu s (globalSolve lu s) m.cells ⟨[], ⟨0, 0, 0, 0, 0, 0⟩⟩

end Verif.HhoSolver
