import Verif.Model.VectorAsm
import Mathlib.Analysis.Real.Sqrt
/-!
The obstacle problem, `apps/obstacle/obstacle.cpp`: the assemblers `obstacle_assembler` (Dirichlet conditions imposed
strongly) and `obstacle_assembler_nitsche`, and the active set iterations of `obstacle_solver_strong` and
`obstacle_solver_nitsche`.

Simplifications. A cell is the list of the numbers of its faces; its number is its place. Local matrices and loads, and
the projections of the Dirichlet data on faces, are given. Scalars are a commutative ring, reals in the solver.
Additions to the right-hand side are collected and executed at the end. `alpha` is a pair of functions: values on
cells and coefficients on faces (in the code, one after the other in a vector). Output and the computation of errors are
left out.
-/
namespace Verif.Obstacle
open Verif.Assembly Verif.VectorAsm

/-- `msh.is_boundary` for every face, and the faces of every cell. -/
structure Mesh where
  bnd : List Bool
  cells : List (List Nat)

/-- `bc_mode`, `obstacle.cpp:765-769`. -/
inductive Mode
  | strong
  | nitsche
  deriving DecidableEq

/-- Faces whose unknowns are eliminated: `is_dirichlet`, `obstacle.cpp:238-240`; none in the other assembler. -/
def dirs (mode : Mode) (m : Mesh) : List Bool :=
  match mode with
  | .strong => m.bnd
  | .nitsche => m.bnd.map fun _ => false

/-- Loop that fills a compress table, `obstacle.cpp:255-264`, `:269-278`, `:283-292`: `keep` tells which entries get a
number, the others stay zero. -/
def ctLoop : List Bool → Nat → List Nat
  | [], _ => []
  | b :: bs, co => (if b then co else 0) :: ctLoop bs (if b then co + 1 else co)

/-- The expand table filled by the same loop. -/
def etLoop : List Bool → Nat → List Nat
  | [], _ => []
  | b :: bs, i => if b then i :: etLoop bs (i + 1) else etLoop bs (i + 1)

/-- Tables and counters. -/
structure Tabs where
  inA : List Bool
  aCt : List Nat
  bCt : List Nat
  fCt : List Nat
  aEt : List Nat
  bEt : List Nat
  nI : Nat
  nA : Nat
  nF : Nat

/-- Constructors, `obstacle.cpp:231-307`, `:500-551`. In the second assembler the number of a face is that in the mesh. -/
def construct (mode : Mode) (m : Mesh) (inA : List Bool) : Outcome Tabs :=
  if inA.length = m.cells.length then
    .ok ⟨inA, ctLoop (inA.map (!·)) 0, ctLoop inA 0,
      match mode with
      | .strong => ctLoop (m.bnd.map (!·)) 0
      | .nitsche => List.range m.bnd.length,
      etLoop (inA.map (!·)) 0, etLoop inA 0, inA.count false, inA.count true, (dirs mode m).count false⟩
  else .ub "assert( is_in_set_A.size() == msh.cells_size() )"

/-- A local system; in `obstacle_assembler` the load has `cbs` entries, the others count as zero. -/
structure Loc (K : Type) where
  lhs : Nat → Nat → K
  rhs : Nat → K

variable {K : Type} [CommRing K]

/-- Loop over the faces of a cell, `obstacle.cpp:357-381`, `:591-603`: entries of `asm_map_row`, `asm_map_col` and
`dirichlet_data`. -/
def faceLoop (mode : Mode) (m : Mesh) (t : Tabs) (cbs fbs : Nat) (proj : Nat → Nat → K) :
    List Nat → Outcome (List (Nat × Bool) × List (Nat × Bool) × List K)
  | [] => .ok ([], [], [])
  | f :: fs => (vat t.fCt f).bind fun n => (vat (dirs mode m) f).bind fun d =>
    (faceLoop mode m t cbs fbs proj fs).bind fun r =>
      .ok ((List.range fbs).map (fun i => (cbs * m.cells.length + n * fbs + i, !d)) ++ r.1,
        (List.range fbs).map (fun i => (cbs * t.nI + n * fbs + i, !d)) ++ r.2.1,
        (List.range fbs).map (fun i => if d then proj f i else 0) ++ r.2.2)

/-- The double loop, `obstacle.cpp:385-401`, `:607-622`: triplets. -/
def trips (rows cols : List (Nat × Bool)) (lhs : Nat → Nat → K) : List (Nat × Nat × K) :=
  rows.zipIdx.flatMap fun r => if r.1.2 then
    cols.zipIdx.flatMap fun c => if c.1.2 then [(r.1.1, c.1.1, lhs r.2 c.2)] else []
  else []

/-- The same: contributions to the right-hand side; `data j` is `gamma(cell_offset)` on the cell, `dirichlet_data(j)`
on faces. -/
def duos (rows cols : List (Nat × Bool)) (data : List K) (lhs : Nat → Nat → K) : List (Nat × K) :=
  rows.zipIdx.flatMap fun r => if r.1.2 then
    (cols.zip data).zipIdx.flatMap fun c => if c.1.1.2 then [] else [(r.1.1, -(lhs r.2 c.2 * c.1.2))]
  else []

/-- Loads: all rows in Nitsche's version (`obstacle.cpp:621`), those of the cell in the other (`:405`). -/
def loads (mode : Mode) (cbs : Nat) (rows : List (Nat × Bool)) (rhs : Nat → K) : List (Nat × K) :=
  match mode with
  | .strong => (rows.take cbs).zipIdx.map fun r => (r.1.1, rhs r.2)
  | .nitsche => rows.zipIdx.flatMap fun r => if r.1.2 then [(r.1.1, rhs r.2)] else []

/-- `assemble` on cell number `T`, `obstacle.cpp:327-415`, `:568-631`. -/
def assemble (mode : Mode) (m : Mesh) (t : Tabs) (cbs fbs : Nat) (gamma : Nat → K) (proj : Nat → Nat → K) (T : Nat)
    (fcs : List Nat) (l : Loc K) : Outcome (List (Nat × Nat × K) × List (Nat × K)) :=
  (vat t.aCt T).bind fun a => (vat t.inA T).bind fun isA => (vat t.bCt T).bind fun b =>
    (faceLoop mode m t cbs fbs proj fcs).bind fun r =>
      let rows := (List.range cbs).map (fun i => (T + i, true)) ++ r.1
      let cols := (List.range cbs).map (fun i => (a * cbs + i, !isA)) ++ r.2.1
      let data := (List.range cbs).map (fun _ => gamma T) ++ r.2.2
      .ok (trips rows cols l.lhs ++ (if isA then [(T * cbs, t.nI * cbs + t.nF * fbs + b, 1)] else []),
        duos rows cols data l.lhs ++ loads mode cbs rows l.rhs)

/-- The loop over the cells. -/
def assembleAll (mode : Mode) (m : Mesh) (t : Tabs) (cbs fbs : Nat) (gamma : Nat → K) (proj : Nat → Nat → K)
    (loc : Nat → Loc K) : List (List Nat) → Nat → Outcome (List (Nat × Nat × K) × List (Nat × K))
  | [], _ => .ok ([], [])
  | fcs :: cs, T => (assemble mode m t cbs fbs gamma proj T fcs (loc T)).bind fun a =>
    (assembleAll mode m t cbs fbs gamma proj loc cs (T + 1)).bind fun r => .ok (a.1 ++ r.1, a.2 ++ r.2)

/-- The linear system: size, matrix and right-hand side. -/
structure System (K : Type) where
  size : Nat
  lhs : Nat → Nat → K
  rhs : Nat → K

/-- `assemble` on all cells and `finalize`. -/
def system (mode : Mode) (m : Mesh) (t : Tabs) (cbs fbs : Nat) (gamma : Nat → K) (proj : Nat → Nat → K)
    (loc : Nat → Loc K) : Outcome (System K) :=
  let N := cbs * (t.nI + t.nA) + fbs * t.nF
  (assembleAll mode m t cbs fbs gamma proj loc m.cells 0).bind fun r =>
    (finish N r.1 r.2 fun _ => 0).bind fun s => .ok ⟨N, s.1, s.2⟩

/-- `alpha`: cells and faces. -/
structure Dofs (K : Type) where
  cell : Nat → K
  face : Nat → Nat → K

/-- `v.block(et[i], 0, 1, 1) = sol.block(o + i, 0, 1, 1)` for all `i`. -/
def scatter (sol : Nat → K) : List Nat → Nat → (Nat → K) → Nat → K
  | [], _, v => v
  | e :: es, o, v => scatter sol es (o + 1) fun n => if n = e then sol o else v n

/-- `expand_solution`, `obstacle.cpp:417-463`, `:633-666`: `alpha` and `beta`. `gamma` has one entry per cell, so the
assignment to the block of `alpha` fails the assertion on sizes unless `cbs` is 1. -/
def expand (mode : Mode) (m : Mesh) (t : Tabs) (cbs fbs : Nat) (gamma : Nat → K) (proj : Nat → Nat → K)
    (sol : Nat → K) : Outcome (Dofs K × (Nat → K)) :=
  if m.cells.length * cbs = m.cells.length then
    .ok (⟨scatter sol t.aEt 0 gamma, fun f i =>
        if (dirs mode m).getD f false then proj f i else sol (cbs * t.nI + t.fCt.getD f 0 * fbs + i)⟩,
      scatter sol t.bEt (t.nI * cbs + t.nF * fbs) fun _ => 0)
  else .ub "assert: sizes of a block and of gamma"

/-- What the solvers get: mesh, `fbs`, local systems, obstacle, projections of the Dirichlet data; `solve` is
`mkl_pardiso`. -/
structure Problem where
  mode : Mode
  mesh : Mesh
  fbs : Nat
  loc : Nat → Loc ℝ
  gamma : Nat → ℝ
  proj : Nat → Nat → ℝ
  solve : System ℝ → Nat → ℝ

/-- Active set, `obstacle.cpp:848-853`, `:988-993`, with `c = 1`. -/
noncomputable def active (P : Problem) (s : Dofs ℝ × (Nat → ℝ)) : List Bool :=
  (List.range P.mesh.cells.length).map fun T => decide (s.2 T + 1 * (s.1.cell T - P.gamma T) < 0)

/-- Body of the loop, `obstacle.cpp:844-893`, `:983-1035`; the cell degree is 0. -/
noncomputable def step (P : Problem) (s : Dofs ℝ × (Nat → ℝ)) : Outcome (Dofs ℝ × (Nat → ℝ)) :=
  (construct P.mode P.mesh (active P s)).bind fun t => (system P.mode P.mesh t 1 P.fbs P.gamma P.proj P.loc).bind fun S =>
    expand P.mode P.mesh t 1 P.fbs P.gamma P.proj (P.solve S)

/-- `(alpha_prev - alpha).norm()`. -/
noncomputable def dist (P : Problem) (u v : Dofs ℝ) : ℝ :=
  Real.sqrt (((List.range P.mesh.cells.length).map fun T => (u.cell T - v.cell T) ^ 2).sum +
    ((List.range P.mesh.bnd.length).map fun f => ((List.range P.fbs).map fun i => (u.face f i - v.face f i) ^ 2).sum).sum)

/-- The loop; the last value is true if it was left by `break`, which the code does not tell. -/
noncomputable def loop (P : Problem) (tol : ℝ) : Nat → Dofs ℝ × (Nat → ℝ) → Outcome ((Dofs ℝ × (Nat → ℝ)) × Bool)
  | 0, s => .ok (s, false)
  | n + 1, s => (step P s).bind fun s' => if dist P s.1 s'.1 < tol then .ok (s', true) else loop P tol n s'

/-- `obstacle_solver_strong`, `obstacle_solver_nitsche`, `obstacle.cpp:799-932`, `:936-1081`. -/
noncomputable def solver (P : Problem) (tol : ℝ) (maxiter : Nat) : Outcome ((Dofs ℝ × (Nat → ℝ)) × Bool) :=
  loop P tol maxiter (⟨fun _ => 0, fun _ _ => 0⟩, fun _ => 1)

end Verif.Obstacle
