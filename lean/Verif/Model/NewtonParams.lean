import Verif.Model.Outcome
import Mathlib.Algebra.Field.Defs
/-!
Parameters of the Newton solver: `mechanics/NewtonSolver/NewtonSolverParameters.hpp`, and what the constructor of
`NewtonSolver` and `addBehavior` do with the degrees (`mechanics/NewtonSolver/NewtonSolver.hpp`).

Simplifications. A parameters file is a list of words and numbers. A stream that has failed behaves like one at its
end: every extraction leaves its variable unchanged. An extraction of a number that finds a word writes 0 and breaks
the stream. Extracting an `int` from `1.5` reads `1` and leaves `.5`. Numbers fit their types. The line counter,
which is only printed, and printing are left out.
-/
namespace Verif.NewtonParams

/-- `StabilizationType`, `NewtonSolverParameters.hpp:35-41`. -/
inductive Stab
  | hdg
  | hho
  | no
  | dg
deriving DecidableEq, Repr

/-- `FrictionType`, `NewtonSolverParameters.hpp:43-48`. -/
inductive Friction
  | none
  | tresca
  | coulomb
deriving DecidableEq, Repr

/-- `NewtonSolverParameter`, `NewtonSolverParameters.hpp:50-83`, without `m_dyna_para`. -/
structure Params (K : Type) where
  face : Int
  cell : Int
  grad : Int
  timeStep : List (K × Int)
  hasEnd : Bool
  userEnd : K
  sublevel : Int
  iterMax : Int
  eps : K
  verbose : Bool
  precomp : Bool
  stabType : Stab
  beta : K
  stab : Bool
  adaptStab : Bool
  dynamic : Bool
  nSave : Int
  saves : List K
  theta : K
  gamma0 : K
  threshold : K
  frot : Friction

variable {K : Type} [Field K]

/-- The default constructor, `NewtonSolverParameters.hpp:85-92`. -/
def default : Params K where
  face := 1
  cell := 1
  grad := 1
  timeStep := [(1, 1)]
  hasEnd := false
  userEnd := 1
  sublevel := 5
  iterMax := 20
  eps := 1 / 1000000
  verbose := false
  precomp := false
  stabType := .hho
  beta := 1
  stab := true
  adaptStab := false
  dynamic := false
  nSave := 0
  saves := []
  theta := 1
  gamma0 := 1
  threshold := 0
  frot := .none

/-- A word, an integer, or a number whose integer part is followed by the text `rest`. -/
inductive Tok (K : Type) where
  | word (s : String)
  | int (n : Int)
  | real (ip : Int) (rest : String) (x : K)

/-- The characters of a token. -/
def Tok.text : Tok K → String
  | .word s => s
  | .int n => toString n
  | .real ip rest _ => toString ip ++ rest

/-- `ifs >> s` for a string whose value is `prev`. -/
def rdWord (prev : String) : List (Tok K) → String × List (Tok K)
  | [] => (prev, [])
  | t :: ts => (t.text, ts)

/-- `ifs >> n` for an `int` whose value is `prev`. -/
def rdInt (prev : Int) : List (Tok K) → Int × List (Tok K)
  | [] => (prev, [])
  | .int n :: ts => (n, ts)
  | .real ip rest _ :: ts => (ip, .word rest :: ts)
  | .word _ :: _ => (0, [])

/-- `ifs >> x` for a `T` whose value is `prev`. -/
def rdReal (prev : K) : List (Tok K) → K × List (Tok K)
  | [] => (prev, [])
  | .int n :: ts => ((n : K), ts)
  | .real _ _ x :: ts => (x, ts)
  | .word _ :: _ => (0, [])

/-- The loop of `TimeStep`, `NewtonSolverParameters.hpp:170-177`. -/
def rdSteps : Nat → List (Tok K) → List (K × Int) × List (Tok K)
  | 0, ts => ([], ts)
  | n + 1, ts =>
    let t := rdReal 0 ts
    let k := rdInt 0 t.2
    let r := rdSteps n k.2
    ((t.1, k.1) :: r.1, r.2)

/-- The loop of `TimeSave`, `NewtonSolverParameters.hpp:192-198`. -/
def rdSaves : Nat → List (Tok K) → List K × List (Tok K)
  | 0, ts => ([], ts)
  | n + 1, ts =>
    let t := rdReal 0 ts
    let r := rdSaves n t.2
    (t.1 :: r.1, r.2)

/-- `logical == "true" || logical == "True"`. -/
def isTrue (s : String) : Bool := s == "true" || s == "True"

/-- One round of the loop without the extraction of the next keyword, `NewtonSolverParameters.hpp:142-311`; `none`:
the file is refused. -/
def directive (kw : String) (p : Params K) (ts : List (Tok K)) : Outcome (Option (Params K × List (Tok K))) :=
  if kw = "FaceDegree" then let r := rdInt p.face ts; .ok (some ({ p with face := r.1 }, r.2))
  else if kw = "CellDegree" then let r := rdInt p.cell ts; .ok (some ({ p with cell := r.1 }, r.2))
  else if kw = "GradDegree" then let r := rdInt p.grad ts; .ok (some ({ p with grad := r.1 }, r.2))
  else if kw = "Sublevel" then let r := rdInt p.sublevel ts; .ok (some ({ p with sublevel := r.1 }, r.2))
  else if kw = "TimeStep" then
    let r := rdInt 0 ts
    if r.1 < 0 then .throws "length_error"
    else let s := rdSteps r.1.toNat r.2; .ok (some ({ p with timeStep := s.1 }, s.2))
  else if kw = "FinalTime" then let r := rdReal p.userEnd ts; .ok (some ({ p with userEnd := r.1, hasEnd := true }, r.2))
  else if kw = "TimeSave" then
    let r := rdInt p.nSave ts
    let s := rdSaves r.1.toNat r.2
    .ok (some ({ p with nSave := r.1, saves := s.1 }, s.2))
  else if kw = "Stabilization" then
    let r := rdWord "" ts
    .ok (some (if isTrue r.1 then { p with stab := true } else { p with stab := false, stabType := .no }, r.2))
  else if kw = "AdaptativeStabilization" then
    let r := rdWord "" ts
    .ok (some ({ p with adaptStab := isTrue r.1 }, r.2))
  else if kw = "StabType" then
    let r := rdWord "" ts
    .ok (some (if r.1 = "HDG" then { p with stabType := .hdg } else if r.1 = "HHO" then { p with stabType := .hho }
      else if r.1 = "DG" then { p with stabType := .dg } else if r.1 = "NO" then { p with stabType := .no } else p, r.2))
  else if kw = "Beta" then let r := rdReal p.beta ts; .ok (some ({ p with beta := r.1 }, r.2))
  else if kw = "Verbose" then let r := rdWord "" ts; .ok (some ({ p with verbose := isTrue r.1 }, r.2))
  else if kw = "IterMax" then let r := rdInt p.iterMax ts; .ok (some ({ p with iterMax := r.1 }, r.2))
  else if kw = "Epsilon" then let r := rdReal p.eps ts; .ok (some ({ p with eps := r.1 }, r.2))
  else if kw = "Precomputation" then let r := rdWord "" ts; .ok (some ({ p with precomp := isTrue r.1 }, r.2))
  else if kw = "Theta" then let r := rdReal p.theta ts; .ok (some ({ p with theta := r.1 }, r.2))
  else if kw = "Gamma0" then let r := rdReal p.gamma0 ts; .ok (some ({ p with gamma0 := r.1 }, r.2))
  else if kw = "Friction" then
    let r := rdWord "" ts
    .ok (some (if r.1 = "NO" then { p with frot := .none } else if r.1 = "TRESCA" then { p with frot := .tresca }
      else if r.1 = "COULOMB" then { p with frot := .coulomb } else p, r.2))
  else if kw = "Threshold" then let r := rdReal p.threshold ts; .ok (some ({ p with threshold := r.1 }, r.2))
  else if kw = "Dynamic" then let r := rdWord "" ts; .ok (some ({ p with dynamic := isTrue r.1 }, r.2))
  else .ok none

/-- The loop, `NewtonSolverParameters.hpp:138-318`, for at most `n` rounds; `none`: still running. Otherwise the
returned value and the parameters. -/
def loop : Nat → String → Params K → List (Tok K) → Outcome (Option (Bool × Params K))
  | 0, _, _, _ => .ok none
  | n + 1, kw, p, ts =>
    if kw = "EndParameters" then .ok (some (true, p))
    else (directive kw p ts).bind fun r =>
      match r with
      | none => .ok (some (false, p))
      | some (p', ts') => let w := rdWord kw ts'; loop n w.1 p' w.2

/-- `readParameters` on a file that can be opened, `NewtonSolverParameters.hpp:117-319`, followed for `n` rounds. -/
def read (n : Nat) (p : Params K) (ts : List (Tok K)) : Outcome (Option (Bool × Params K)) :=
  let w := rdWord "" ts
  if w.1 ≠ "BeginParameters" then .ok (some (false, p))
  else let k := rdWord w.1 w.2; loop n k.1 p k.2

/-- `setFaceDegree`, `setCellDegree`, `setGradDegree`, `setStabilizationParameter`, `setVerbose`,
`setPrecomputation`, `NewtonSolverParameters.hpp:321-391`. -/
inductive Setter (K : Type) where
  | face (n : Int)
  | cell (n : Int)
  | grad (n : Int)
  | beta (x : K)
  | verbose (b : Bool)
  | precomp (b : Bool)

/-- See `Setter`. -/
def Setter.run (p : Params K) : Setter K → Params K
  | .face n => { p with face := n }
  | .cell n => { p with cell := n }
  | .grad n => { p with grad := n }
  | .beta x => { p with beta := x }
  | .verbose b => { p with verbose := b }
  | .precomp b => { p with precomp := b }

/-- `getFaceDegree`, `NewtonSolverParameters.hpp:327-331`. -/
def getFace (p : Params K) : Int := p.face
/-- `getCellDegree`, `NewtonSolverParameters.hpp:339-343`. -/
def getCell (p : Params K) : Int := p.cell
/-- `getGradDegree`, `NewtonSolverParameters.hpp:351-355`: it returns the face degree. -/
def getGrad (p : Params K) : Int := p.face
/-- `getStabilizationParameter`, `NewtonSolverParameters.hpp:363-367`. -/
def getBeta (p : Params K) : K := p.beta
/-- `getVerbose`, `NewtonSolverParameters.hpp:375-379`. -/
def getVerbose (p : Params K) : Bool := p.verbose
/-- `getPrecomputation`, `NewtonSolverParameters.hpp:387-391`. -/
def getPrecomp (p : Params K) : Bool := p.precomp

/-- What the constructor of `NewtonSolver` keeps: its copy of the parameters and the degrees given to
`init_degree`. -/
structure Solver (K : Type) where
  rp : Params K
  cell : Int
  face : Int
  grad : Int

/-- The constructor of `NewtonSolver`, `NewtonSolver.hpp:285-336`: the gradient degree is corrected in a local
variable only. -/
def construct (rp : Params K) : Solver K :=
  let face := if rp.face < 0 then 1 else rp.face
  let cell := if face - 1 > rp.cell ∨ rp.cell > face + 1 then face else rp.cell
  let grad := if rp.grad < face then face else rp.grad
  ⟨{ rp with face := face, cell := cell }, cell, face, grad⟩

/-- An `int` passed as `size_t` on a 64-bit platform. -/
def toSize (n : Int) : Nat := (n % 2 ^ 64).toNat

/-- The degrees of the unknowns of the mesh, `NewtonSolver.hpp:102-105`: `(cell, face, grad)` as `size_t`. -/
def Solver.degrees (s : Solver K) : Nat × Nat × Nat := (toSize s.cell, toSize s.face, toSize s.grad)

/-- The degree of the quadrature of the behavior, `NewtonSolver.hpp:439`. -/
def Solver.quadDegree (s : Solver K) : Nat := toSize (2 * s.rp.grad)

/-- The stabilization of a cell in `NewtonIteration::assemble`, `NewtonIteration.hpp:275-331`, without
precomputation: `none` when the stabilization is off. `ops` are the three operators; the matrix of `NO` is empty
and fails the asserts. -/
def stabMatrix {M : Type} (rp : Params K) (ops : Stab → M) : Outcome (Option M) :=
  if rp.stab then
    match rp.stabType with
    | .no => .ub "assert: elem.K_int.rows() == stab.rows()"
    | t => .ok (some (ops t))
  else .ok none

/-- The same with precomputation: `pre_computation`, `NewtonSolver.hpp:219-281`, adds nothing for `NO`, and
`stab_precomputed.at(cell_i)` throws. -/
def stabPrecomputed {M : Type} (rp : Params K) (ops : Nat → Stab → M) (ncells i : Nat) : Outcome (Option M) :=
  let pre := if rp.stab then
      match rp.stabType with
      | .no => []
      | t => (List.range ncells).map fun c => ops c t
    else []
  if rp.stab then
    match pre[i]? with
    | some m => .ok (some m)
    | none => .throws "out_of_range"
  else .ok none

end Verif.NewtonParams
