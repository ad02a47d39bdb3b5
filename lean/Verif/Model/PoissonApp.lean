import Mathlib.LinearAlgebra.Matrix.NonsingularInverse
import Mathlib.Data.Rat.Defs
import Mathlib.Algebra.Field.Rat
import Verif.Model.Outcome
/-!
The scriptable Poisson solver: `apps/poisson_solver/src/poisson_solver.cpp:120-375,640-740`,
`apps/poisson_solver/src/poisson_assembler.h:1-222`, `apps/poisson_solver/src/lua_interface.h:85-120`.

Scalars are exact. The Lua tables are read as functions of the boundary tag; `std::vector` is a list.
The local operator, the mass matrices of the faces, the projections and the loads are data of the model
(their properties are the subject of other files); `static_condensation` is used with an exact inverse.
-/
namespace Verif.PoissonApp
open Matrix

/-- `boundary_type`, `poisson_solver.h:37-45`. -/
inductive BKind
  | notABoundary | undefined | invalid | dirichlet | neumann | robin | jump
  deriving DecidableEq, Repr

/-- `boundary_condition_descriptor`, `poisson_solver.h:48-54`. -/
structure BCond (K : Type) where
  kind : BKind
  value : Option K
  number : Nat
  internal : Bool
  deriving DecidableEq

/-- What the mesh says of a face (`boundary_descriptor`, `mesh_storage.hpp:50-84`). -/
structure FaceInfo where
  isB : Bool
  tag : Nat
  isInt : Bool
  deriving DecidableEq, Repr

/-- The Lua tables `boundary[bnd]["type"]` and `boundary[bnd]["value"]` at the time of a call. -/
structure LuaBnd (K : Type) where
  type : Nat → Option String
  value : Nat → Option K

variable {K : Type}

/-- The chain of comparisons of `lua_get_boundary_condition`, `lua_interface.h:95-109`. -/
def kindOf : Option String → BKind
  | none => .undefined
  | some s =>
    if s = "jump" then .jump
    else if s = "robin" then .robin
    else if s = "neumann" then .neumann
    else if s = "dirichlet" then .dirichlet
    else .invalid

/-- `lua_get_boundary_condition`, `lua_interface.h:85-120`. The field `internal`, left
uninitialised there, is overwritten by the only caller. -/
def luaCond (L : LuaBnd K) (bnd : Nat) : BCond K where
  kind := kindOf (L.type bnd)
  value := if kindOf (L.type bnd) = .robin then L.value bnd else none
  number := bnd
  internal := false

/-- Body of the loop of `collect_boundary_info`, `poisson_solver.cpp:694-708`. -/
def faceCond (L : LuaBnd K) (f : FaceInfo) : BCond K :=
  if f.isB then { luaCond L f.tag with internal := f.isInt }
  else { kind := .notABoundary, value := none, number := 0, internal := false }

/-- `collect_boundary_info`, `poisson_solver.cpp:686-711`: `reserve` and one `push_back` per face on
the vector of the state, which is not cleared. -/
def collect (L : LuaBnd K) (fs : List FaceInfo) (old : List (BCond K)) : List (BCond K) :=
  fs.foldl (fun acc f => acc ++ [faceCond L f]) old

/-- One entry of `is_dirichlet`, `poisson_solver.cpp:294-303`. -/
def dirichletFlag (b : BCond K) : Bool :=
  if b.kind = .undefined ∧ b.internal = false then true
  else if b.kind = .dirichlet then true else false

/-- The loop of `assemble` over the faces, `poisson_solver.cpp:291-303`; reading past the end of the
vector is undefined behaviour. -/
def dirichletFlags (bi : List (BCond K)) (nf : Nat) : Outcome (List Bool) :=
  if nf ≤ bi.length then .ok ((bi.take nf).map dirichletFlag) else .ub "boundary_info[i]"

/-- `is_in_system`, `poisson_assembler.h:43-51`. -/
def inSystem (f : FaceInfo) (d : Bool) : Bool := !(f.isB && d)

/-- The tables of `make_tables`, `poisson_assembler.h:53-78`. -/
structure Tables where
  compress : List (Option Nat)
  expand : List Nat
  deriving DecidableEq, Repr

/-- One face of the loop of `make_tables`; `face_i` is the length of `compress` and `compressed_ofs`
the length of `expand`. -/
def tableStep (t : Tables) (s : Bool) : Tables :=
  if s then ⟨t.compress ++ [some t.expand.length], t.expand ++ [t.compress.length]⟩
  else ⟨t.compress ++ [none], t.expand⟩

/-- `make_tables` on the list of flags `is_in_system`. -/
def makeTables (sys : List Bool) : Tables := sys.foldl tableStep ⟨[], []⟩

/-- `sysfcs`, `poisson_assembler.h:113-119`. -/
def sysFaces (sys : List Bool) : Nat := sys.countP (fun b => b)

/-- `v.resize(n, x)`: keeps what is there. -/
def vecResize {α : Type} (v : List α) (n : Nat) (x : α) : List α :=
  v.take n ++ List.replicate (n - v.length) x

/-- What one call of the Lua function `assemble` reads. -/
structure Call (K : Type) where
  lua : LuaBnd K
  /-- `hdi.reconstruction_degree()` as left by `init_solver_state`, `poisson_solver.cpp:645-684`. -/
  recdeg : Nat
  useStabfree : Bool
  /-- the degree `adjust_stabfree_recdeg` chooses for a cell. -/
  cellDeg : Nat → Nat

/-- The part of `hho_poisson_solver_state` that lives from one call to the next. -/
structure State (K : Type) where
  bi : List (BCond K)
  recdegs : List Nat

/-- The state at the beginning. -/
def State.init : State K := ⟨[], []⟩

/-- `state.recdegs` after `assemble_stabfree` (`poisson_solver.cpp:236-247`) or `assemble_standard`
(`:266`). -/
def newRecdegs (old : List Nat) (nc : Nat) (c : Call K) : List Nat :=
  if c.useStabfree then (List.range nc).map c.cellDeg else vecResize old nc c.recdeg

/-- The Lua function `assemble`, `poisson_solver.cpp:734-739,278-318`: new state and tables. -/
def assembleCall (fs : List FaceInfo) (nc : Nat) (s : State K) (c : Call K) :
    Outcome (State K × List Bool × Tables) :=
  let bi := collect c.lua fs s.bi
  match dirichletFlags bi fs.length with
  | .ok d =>
    let sys := List.zipWith inSystem fs d
    .ok (⟨bi, newRecdegs s.recdegs nc c⟩, sys, makeTables sys)
  | .throws m => .throws m
  | .ub w => .ub w

/-! ### The element contributions, the system and the solution -/

/-- A cell with `cb` cell unknowns and `fbs` unknowns per face. -/
structure Elem (K : Type) (nF cb fbs : Nat) where
  nfc : Nat
  /-- `offset(msh, fc)` -/
  face : Fin nfc → Fin nF
  /-- `lhs` of `compute_laplacian_operator` -/
  A : Matrix (Fin cb ⊕ Fin nfc × Fin fbs) (Fin cb ⊕ Fin nfc × Fin fbs) K
  /-- `make_rhs(msh, cl, cb, rhs_fun)` -/
  load : Fin cb → K
  /-- `make_mass_matrix(msh, fc, fb)` -/
  mass : Fin nfc → Matrix (Fin fbs) (Fin fbs) K
  /-- `n.dot(diff_tens*n)` -/
  nDn : Fin nfc → K
  /-- `make_rhs(msh, fc, fb, neumann_fun)`, with the normal of this cell -/
  neu : Fin nfc → Fin fbs → K

/-- The whole problem as the solver sees it. -/
structure Prob (K : Type) (nT nF cb fbs : Nat) where
  elem : Fin nT → Elem K nF cb fbs
  isB : Fin nF → Bool
  bc : Fin nF → BCond K
  /-- `project_function(msh, fc, fb, dirichlet_fun)`; the function sees the number of the boundary
  and the point only, so it is the same from both sides. -/
  dir : Fin nF → Fin fbs → K

variable [Field K] {nT nF cb fbs : Nat}

/-- Index set of the unknowns of a cell. -/
abbrev Idx (E : Elem K nF cb fbs) := Fin cb ⊕ Fin E.nfc × Fin fbs

/-- `robin_lhs`, `poisson_solver.cpp:189-194`. -/
def robinLhs (P : Prob K nT nF cb fbs) (E : Elem K nF cb fbs) : Matrix (Idx E) (Idx E) K
  | .inr (fi, i), .inr (fj, j) =>
    if fi = fj ∧ (P.bc (E.face fi)).kind = .robin then
      (P.bc (E.face fi)).value.getD (E.nDn fi) * E.mass fi i j
    else 0
  | _, _ => 0

/-- `lhs + robin_lhs`, `poisson_solver.cpp:206`. -/
def lhs (P : Prob K nT nF cb fbs) (E : Elem K nF cb fbs) : Matrix (Idx E) (Idx E) K :=
  E.A + robinLhs P E

/-- `strong_data`, `poisson_solver.cpp:178-182`. -/
def strongData (P : Prob K nT nF cb fbs) (E : Elem K nF cb fbs) (fi : Fin E.nfc) (i : Fin fbs) : K :=
  if (P.bc (E.face fi)).kind = .dirichlet then P.dir (E.face fi) i else 0

/-- `weak_data`, `poisson_solver.cpp:184-187,199-200`. -/
def weakData (P : Prob K nT nF cb fbs) (E : Elem K nF cb fbs) : Idx E → K
  | .inl _ => 0
  | .inr (fi, i) =>
    if (P.bc (E.face fi)).kind = .neumann then E.neu fi i
    else if (P.bc (E.face fi)).kind = .jump then E.neu fi i else 0

/-- `wddofs`, `poisson_solver.cpp:196-198`: set in every cell that has the face. -/
def wddofs (P : Prob K nT nF cb fbs) (E : Elem K nF cb fbs) : Idx E → K
  | .inl _ => 0
  | .inr (fi, i) => if (P.bc (E.face fi)).kind = .jump then P.dir (E.face fi) i else 0

/-- `rhs` before the boundary data, `poisson_solver.cpp:212-215`. -/
def loadVec (E : Elem K nF cb fbs) : Idx E → K := Sum.elim E.load (fun _ => 0)

/-- `rhs`, `poisson_solver.cpp:217`. -/
def rhs (P : Prob K nT nF cb fbs) (E : Elem K nF cb fbs) : Idx E → K :=
  loadVec E + (-(lhs P E *ᵥ wddofs P E) + weakData P E)

/-- Condensed matrix of `static_condensation`. -/
noncomputable def lhsC (P : Prob K nT nF cb fbs) (E : Elem K nF cb fbs) :
    Matrix (Fin E.nfc × Fin fbs) (Fin E.nfc × Fin fbs) K :=
  (lhs P E).toBlocks₂₂ - (lhs P E).toBlocks₂₁ * ((lhs P E).toBlocks₁₁⁻¹ * (lhs P E).toBlocks₁₂)

/-- Condensed right-hand side. -/
noncomputable def rhsC (P : Prob K nT nF cb fbs) (E : Elem K nF cb fbs) : Fin E.nfc × Fin fbs → K :=
  rhs P E ∘ Sum.inr - (lhs P E).toBlocks₂₁ *ᵥ ((lhs P E).toBlocks₁₁⁻¹ *ᵥ (rhs P E ∘ Sum.inl))

/-- Whether the face is assembled: `is_in_system` with the flags of `assemble`. -/
def sysFace (P : Prob K nT nF cb fbs) (F : Fin nF) : Bool :=
  inSystem ⟨P.isB F, 0, false⟩ (dirichletFlag (P.bc F))

/-- `get_element_dofs`, `poisson_assembler.h:200-221`; the unknowns of the system are addressed by
the face they belong to. -/
def elementDofs (P : Prob K nT nF cb fbs) (E : Elem K nF cb fbs) (x : Fin nF → Fin fbs → K) :
    Fin E.nfc × Fin fbs → K :=
  fun q => if sysFace P (E.face q.1) then x (E.face q.1) q.2 else 0

/-- What the cell adds to `LHS*x - RHS` in the row of its local face unknown `p`:
`assemble`, `poisson_assembler.h:136-171`. -/
noncomputable def rowResidual (P : Prob K nT nF cb fbs) (E : Elem K nF cb fbs) (x : Fin nF → Fin fbs → K)
    (p : Fin E.nfc × Fin fbs) : K :=
  (∑ q : Fin E.nfc × Fin fbs, lhsC P E p q *
      (if sysFace P (E.face q.1) then x (E.face q.1) q.2 else strongData P E q.1 q.2)) - rhsC P E p

/-- `LHS*x = RHS`. -/
def SystemSolved (P : Prob K nT nF cb fbs) (x : Fin nF → Fin fbs → K) : Prop :=
  ∀ F : Fin nF, sysFace P F = true → ∀ i : Fin fbs,
    ∑ T : Fin nT, ∑ fi : Fin (P.elem T).nfc,
      (if (P.elem T).face fi = F then rowResidual P (P.elem T) x (fi, i) else 0) = 0

/-- Face part of `esol`: `edofs += dd`, `poisson_solver.cpp:356-357`. -/
def faceSol (P : Prob K nT nF cb fbs) (E : Elem K nF cb fbs) (x : Fin nF → Fin fbs → K) :
    Fin E.nfc × Fin fbs → K :=
  fun q => elementDofs P E x q + strongData P E q.1 q.2

/-- Cell part of `esol`: `static_decondensation`. -/
noncomputable def cellSol (P : Prob K nT nF cb fbs) (E : Elem K nF cb fbs) (x : Fin nF → Fin fbs → K) :
    Fin cb → K :=
  (lhs P E).toBlocks₁₁⁻¹ *ᵥ (rhs P E ∘ Sum.inl - (lhs P E).toBlocks₁₂ *ᵥ faceSol P E x)

end Verif.PoissonApp
