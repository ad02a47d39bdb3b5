import Verif.Model.Outcome
import Verif.Model.Rigidity
/-!
Augmented Lagrangian iteration for Bingham flow: class `ADDM`, `apps/bingham/src/bingham_vector_solver.hpp:49-461`.

Scalars are exact reals. A cell is given by its operators: `make_hlow_stokes` (C119), `make_vector_hho_stabilization` and the
basis of symmetric tensors. The assembled and factorized system with the Dirichlet values (`stokes_assembler_alg`, C128 and
C129) is a function `solve` of the local right-hand sides, `take` is `take_velocity`. Cells are numbers; `multiplier` and
`auxiliar` are functions of the cell and of the position in its block. Files and the output of results are left out.
-/
noncomputable section
namespace Verif.Bingham
open Verif Tensor Finset Rigidity

variable {D : Nat}

/-- `bingham_data`, `viscoplasticity_utils.hpp:62-79`. -/
structure Params where
  mu : ℝ
  alpha : ℝ
  yield : ℝ

/-- A cell: number of local unknowns, `G.first`, `G.second`, the stabilization, the basis of symmetric tensors at the
barycenter, and at the quadrature points with their weights. -/
structure Cell (D : Nat) where
  n : Nat
  G : Nat → Nat → ℝ
  data : Nat → Nat → ℝ
  stab : Nat → Nat → ℝ
  phi : List (Mat ℝ D)
  qps : List (ℝ × List (Mat ℝ D))

/-- `make_mass_matrix`, `bases_utils.hpp:208-233`. -/
def Cell.mass (c : Cell D) (i j : Nat) : ℝ :=
  (c.qps.map fun q => q.1 * ∑ a, ∑ b, fn q.2 i a b * fn q.2 j a b).sum

/-- Frobenius norm, lines 104-105. -/
def frobNorm (A : Mat ℝ D) : ℝ := Real.sqrt (∑ a, ∑ b, A a b * A a b)

/-- `norm()` of a vector of `s` entries. -/
def vecNorm (s : Nat) (v : Nat → ℝ) : ℝ := Real.sqrt (∑ i ∈ range s, v i * v i)

/-- `stress + 2 alpha Gu`, lines 90-102. -/
def theta (p : Params) (c : Cell D) (stress u : Nat → ℝ) : Nat → ℝ :=
  fun i => stress i + 2 * p.alpha * mulVec c.n c.G u i

/-- `compute_auxiliar`, lines 81-116. The assertion at line 107 compares two names of one number. -/
def auxiliar (p : Params) (c : Cell D) (stress u : Nat → ℝ) : Outcome (Nat → ℝ) :=
  let th := theta p c stress u
  let t := frobNorm (evalG th c.phi)
  let eps := 1 / 10 ^ 6 * Real.sqrt 2 * p.yield
  open Classical in
  if ¬ |t - vecNorm c.phi.length th| < 1 / 10 ^ 7 then .ub "assertion theta_norm"
  else if Real.sqrt 2 * p.yield + eps < t ∧ eps < t then
    .ok fun i => 1 / (2 * (p.mu + p.alpha)) * th i * (1 - Real.sqrt 2 * (p.yield / t))
  else .ok fun _ => 0

/-- `make_rhs_alg`, lines 118-152; the load is zero. -/
def localRhs (p : Params) (c : Cell D) (stress gamma : Nat → ℝ) : Nat → ℝ :=
  fun j => -∑ i ∈ range c.phi.length, c.G i j *
    ∑ k ∈ range c.phi.length, c.mass i k * (stress k - 2 * p.alpha * gamma k)

/-- The matrix `A` of `make_global_matrix`, line 183. -/
def localLhs (p : Params) (c : Cell D) (i j : Nat) : ℝ := 2 * (p.alpha * c.data i j + p.mu * c.stab i j)

/-- The problem: parameters, number of cells, cells, `take_velocity` (cell, position), and the factorized system. -/
structure Problem (D : Nat) (U : Type) where
  prm : Params
  N : Nat
  cell : Nat → Cell D
  take : U → Nat → Nat → ℝ
  solve : (Nat → Nat → ℝ) → U

/-- `sol` and `multiplier`. -/
structure State (U : Type) where
  sol : U
  mult : Nat → Nat → ℝ

variable {U : Type}

/-- The blocks of `auxiliar` of the first cells, lines 139-140 and 159-163. -/
def auxTo (P : Problem D U) (st : State U) : Nat → Outcome (Nat → Nat → ℝ)
  | 0 => .ok fun _ _ => 0
  | T + 1 => (auxTo P st T).bind fun a =>
    (auxiliar P.prm (P.cell T) (st.mult T) (P.take st.sol T)).bind fun g =>
    .ok fun T' i => if T' = T then g i else a T' i

/-- Symmetric gradient of a cell. -/
def Problem.grad (P : Problem D U) (u : U) (T : Nat) : Nat → ℝ := mulVec (P.cell T).n (P.cell T).G (P.take u T)

/-- `v.dot(mass * v)`. -/
def massDot (c : Cell D) (v : Nat → ℝ) : ℝ :=
  ∑ i ∈ range c.phi.length, v i * ∑ j ∈ range c.phi.length, c.mass i j * v j

/-- The accumulators `conv_residue`, `conv_stress` and `conv_grad`, lines 220-222 and 249-251. -/
def residues (P : Problem D U) (dstress dgrad : Nat → Nat → ℝ) : ℝ × ℝ × ℝ :=
  (List.range P.N).foldl (fun a T =>
    let s := a.2.1 + massDot (P.cell T) (dstress T)
    let g := a.2.2 + massDot (P.cell T) (dgrad T)
    (a.1 + (s + g), s, g)) (0, 0, 0)

/-- One pass of the loop of `run`, lines 426-445, with `update_multiplier`, lines 214-264: the new state and
`convergence`. -/
def step (P : Problem D U) (st : State U) : Outcome (State U × ℝ × ℝ) :=
  (auxTo P st P.N).bind fun gamma =>
  let unow := P.solve fun T => localRhs P.prm (P.cell T) (st.mult T) (gamma T)
  let dstress := fun T i => 2 * P.prm.alpha * (P.grad unow T i - gamma T i)
  let dgrad := fun T i => P.prm.alpha * (P.grad unow T i - P.grad st.sol T i)
  let r := residues P dstress dgrad
  .ok (⟨unow, fun T i => st.mult T i + dstress T i⟩, Real.sqrt r.1, Real.sqrt r.2.1)

/-- The loop of `run`, lines 424-459, with at most `k` passes: whether it stops, and the last state. -/
def loop (P : Problem D U) : Nat → State U → Outcome (Bool × State U)
  | 0, st => .ok (false, st)
  | k + 1, st => (step P st).bind fun r =>
    open Classical in
    if ¬ r.2.1 < 100000 then .ub "assertion convergence.first < Ninf"
    else if r.2.1 < 1 / 10 ^ 8 then .ok (true, r.1) else loop P k r.1

/-- `run`, lines 403-460; `zero` is the zero vector of unknowns. -/
def run (P : Problem D U) (zero : U) : Outcome (Bool × State U) := loop P 10000 ⟨zero, fun _ _ => 0⟩

/-- Contract of the factorized system, from C128 and C129: the velocities solve the assembled problem tested with the velocities
`W` that vanish on Dirichlet faces and have a reconstructed divergence that is constant, and two solutions differ by one of
these. -/
structure Problem.Solves (P : Problem D U) (W : (Nat → Nat → ℝ) → Prop) : Prop where
  balance : ∀ r v, W v → ∑ T ∈ range P.N, ∑ i ∈ range (P.cell T).n, ∑ j ∈ range (P.cell T).n,
      v T i * localLhs P.prm (P.cell T) i j * P.take (P.solve r) T j =
    ∑ T ∈ range P.N, ∑ i ∈ range (P.cell T).n, r T i * v T i
  diff : ∀ r r', W fun T i => P.take (P.solve r) T i - P.take (P.solve r') T i

/-- What the operators of a cell of measure `w` are for the lowest degree: the basis is constant, `G.second` is
`G.first^T mass G.first` (C119) and the stabilization is positive semi-definite (C84, C88). -/
structure Lowest (c : Cell D) (w : ℝ) : Prop where
  dim : D = 2 ∨ D = 3
  phi : c.phi = symBasis D [1]
  qps : ∀ q ∈ c.qps, q.2 = symBasis D [1]
  weights : (c.qps.map Prod.fst).sum = w
  pos : 0 < w
  data : ∀ i < c.n, ∀ j < c.n, c.data i j =
    ∑ k ∈ range c.phi.length, ∑ l ∈ range c.phi.length, c.G k i * c.mass k l * c.G l j
  stab : ∀ u : Nat → ℝ, 0 ≤ ∑ i ∈ range c.n, ∑ j ∈ range c.n, u i * c.stab i j * u j

end Verif.Bingham
