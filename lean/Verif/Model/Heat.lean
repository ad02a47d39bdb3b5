import Mathlib.Algebra.Order.Field.Basic
import Verif.Model.Nitsche
import Verif.Model.Assembly
import Verif.Model.HhoSolver
/-!
The heat equation with the backward Euler method, `apps/unsteady_laplacian/src/unsteady_laplacian.cpp:66-233`.

The mesh is given by its cells with their faces and the numbers `offset(msh, fc)`. `rhs_fun`, `bcs_fun` (both zero in
the program), `init_fun` and `solution` are parameters, as are the sizes `cbs` and `fbs` of the bases. Printing and the
Silo output are left out. `mkl_pardiso` is assumed to solve non-singular systems (`HhoSolver.LU`). The time is
computed in exact arithmetic.
-/
namespace Verif.Heat
open Finset Verif.Hho Verif.Nitsche LocalMatrix

variable {K P : Type} [Field K]

/-- A cell with its faces and their numbers in the mesh. -/
structure HCell (P K : Type) where
  elem : Elem P K
  faces : List (BFace P K)
  ids : List Nat

/-- The mesh and the data of the program. -/
structure Cfg (P K : Type) where
  d : Nat
  k : Nat
  cbs : Nat
  fbs : Nat
  nc : Nat
  nf : Nat
  cell : Nat → HCell P K
  dt : K
  pen : K
  f : P → K
  g : P → K
  init : P → K
  sol : K → P → K

variable (S : Solver K) (c : Cfg P K)

/-- `cbs*num_cells + fbs*num_faces`, `unsteady_laplacian.cpp:86`. -/
def size : Nat := c.cbs * c.nc + c.fbs * c.nf

/-- The number of unknowns of a cell. -/
def localSize (T : HCell P K) : Nat := c.cbs + T.faces.length * c.fbs

/-- The local operator and load with the boundary conditions, `unsteady_laplacian.cpp:104-115`; the degrees are
`hho_degree_info(degree, degree, degree+1)`. -/
def weak (T : HCell P K) : Mat K × (Nat → K) :=
  let fs := T.faces.map BFace.toFace
  let gr := laplacian c.d none false S (c.k + 1) c.k c.k T.elem fs
  let stab := hho S true (c.k + 1) c.k c.k T.elem gr.1 fs
  let rhs := setSegment (fun _ => 0) 0 c.cbs (rhsOf T.elem c.k 1 (T.elem.basis c.k) c.f)
  Nitsche.apply c.d (c.k + 1) c.k c.k (localSize c T) T.elem T.faces gr.1 (addMat gr.2 stab) rhs c.g c.pen

/-- `make_mass_matrix(msh, cl, cb)` -/
def cellMass (T : HCell P K) : Mat K := mass T.elem c.k (T.elem.basis c.k)

/-- `lhs*dt` plus the mass matrix of the cell, `unsteady_laplacian.cpp:117-119`. -/
def localLhs (T : HCell P K) : Mat K :=
  addBlock (fun i j => (weak S c T).1 i j * c.dt) 0 0 c.cbs c.cbs (cellMass c T)

/-- `l2g`, `unsteady_laplacian.cpp:121-131`. -/
def l2g (ci : Nat) (T : HCell P K) (i : Nat) : Nat :=
  if i < c.cbs then ci * c.cbs + i
  else c.cbs * c.nc + T.ids.getD ((i - c.cbs) / c.fbs) 0 * c.fbs + (i - c.cbs) % c.fbs

/-- The triplets of a cell, `unsteady_laplacian.cpp:134-140`. -/
def cellTriplets (ci : Nat) : List (Nat × Nat × K) :=
  let T := c.cell ci
  (List.range (localSize c T)).flatMap fun i => (List.range (localSize c T)).map fun j =>
    (l2g c ci T i, l2g c ci T j, localLhs S c T i j)

/-- `LHS`, `unsteady_laplacian.cpp:102-148`. -/
def lhs : Mat K := Assembly.toMat ((List.range c.nc).flatMap (cellTriplets S c))

/-- `RHS`, `unsteady_laplacian.cpp:134-140`. -/
def rhs : Nat → K :=
  (List.range c.nc).foldl (fun b ci => (List.range (localSize c (c.cell ci))).foldl (fun b i => fun r =>
    b r + if r = l2g c ci (c.cell ci) i then (weak S c (c.cell ci)).2 i else 0) b) fun _ => 0

/-- `cell_mass * x` written to the block of every cell, the other entries being zero. -/
def massAll (x : Nat → Nat → K) : Nat → K :=
  (List.range c.nc).foldl (fun v ci => setSegment v (ci * c.cbs) c.cbs fun i =>
    ∑ j ∈ range c.cbs, cellMass c (c.cell ci) i j * x ci j) fun _ => 0

/-- `u`, `Mu_prev`, `t` and `L2H1_error`. -/
structure State (K : Type) where
  u : Nat → K
  mu : Nat → K
  t : K
  err : K

/-- Before the time loop, `unsteady_laplacian.cpp:142-160`. -/
def start : State K :=
  ⟨fun _ => 0, massAll c fun ci => projectElem S (c.cell ci).elem c.k c.init 0, 0, 0⟩

/-- What a step adds to `L2H1_error`, `unsteady_laplacian.cpp:185-212`. -/
def errStep (t : K) (u : Nat → K) (err : K) : K :=
  (List.range c.nc).foldl (fun err ci =>
    let T := c.cell ci
    let ex := projectElem S T.elem c.k (c.sol t) 0
    let diff : Nat → K := fun i => u (ci * c.cbs + i) - ex i
    (T.elem.integrate (2 * c.k)).foldl (fun err q =>
      let grad : Nat → K := fun e => ∑ i ∈ range c.cbs, diff i * (T.elem.basis c.k).grad q.pt i e
      err + c.dt * q.w * dot c.d grad grad) err) err

/-- One pass of the time loop, `unsteady_laplacian.cpp:163-214`, with `t += dt`. -/
def step (lu : HhoSolver.LU K) (s : State K) : State K :=
  let mupp := fun r => (if r < c.cbs * c.nc then s.mu r else 0) + c.dt * rhs S c r
  let u := lu.solve (size c) (lhs S c) mupp
  ⟨u, massAll c fun ci j => u (c.cbs * ci + j), s.t + c.dt, errStep S c s.t u s.err⟩

/-- The state after `i` passes. -/
def iter (lu : HhoSolver.LU K) : Nat → State K
  | 0 => start S c
  | i + 1 => step S c lu (iter lu i)

/-- The time loop `for (…; t < 2.0; …)`; `none` if it does not end within the given number of passes. -/
def timeLoop [LinearOrder K] (lu : HhoSolver.LU K) : Nat → State K → Option (State K)
  | 0, s => if s.t < 2 then none else some s
  | n + 1, s => if s.t < 2 then timeLoop lu n (step S c lu s) else some s

end Verif.Heat
