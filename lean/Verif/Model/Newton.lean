import Verif.Model.TimeSteps
import Verif.Model.NewtonParams
import Mathlib.Algebra.BigOperators.Group.List.Basic
/-!
The nonlinear solver of mechanics: convergence test and Newmark update (`mechanics/NewtonSolver/NewtonIteration.hpp`,
`NewtonSolverComput.hpp`), Newton step (`NewtonStep.hpp`), time loop (`NewtonSolver.hpp`).

Simplifications. Norms are non-negative doubles: finite, infinite or NaN; finite arithmetic is exact. The iteration
object is a state with the operations assemble, solve and postprocess, which may throw. Timers, printing and the
output files are left out. For the Newmark update one unknown of one cell is followed; vectors are updated
component by component and the mass matrix is a number.
-/
namespace Verif.Newton
open Verif.TimeSteps

section
variable {K : Type} [Field K] [LinearOrder K]

/-- A non-negative double. -/
inductive Fl (K : Type) where
  | fin (x : K)
  | inf
  | nan

namespace Fl

/-- `a / b`. -/
def div : Fl K → Fl K → Fl K
  | .fin a, .fin b => if b = 0 then (if a = 0 then .nan else .inf) else .fin (a / b)
  | .fin _, .inf => .fin 0
  | .inf, .fin _ => .inf
  | _, _ => .nan

/-- `a < b`: false if one is NaN. -/
def lt : Fl K → Fl K → Prop
  | .fin a, .fin b => a < b
  | .fin _, .inf => True
  | _, _ => False

/-- `a <= b`: false if one is NaN. -/
def le : Fl K → Fl K → Prop
  | .fin a, .fin b => a ≤ b
  | .fin _, .inf => True
  | .inf, .inf => True
  | _, _ => False

instance (a b : Fl K) : Decidable (a.lt b) := by
  rcases a with a | _ | _ <;> rcases b with b | _ | _ <;> unfold lt <;> infer_instance
instance (a b : Fl K) : Decidable (a.le b) := by
  rcases a with a | _ | _ <;> rcases b with b | _ | _ <;> unfold le <;> infer_instance

/-- `std::max(a, b)`: the first argument unless it is smaller. -/
def max (a b : Fl K) : Fl K := if a.lt b then b else a

/-- `isfinite`. -/
def isFinite : Fl K → Bool
  | .fin _ => true
  | _ => false

end Fl

/-- The norms read by the convergence test: of the face unknowns, of the right-hand side, of the internal forces, of
the last increment. -/
structure Norms (K : Type) where
  un : Fl K
  residual : Fl K
  fInt : Fl K
  incr : Fl K

/-- The two relative errors, `NewtonIteration.hpp:466-499`. -/
def errors (n : Norms K) (iter : Nat) : Fl K × Fl K :=
  let un := if n.un.le (.fin (10 / 10 ^ 15)) then .fin (10 * 10 ^ 16) else n.un
  if iter = 0 then (.fin 1, .fin 1) else (n.incr.div un, n.residual.div n.fInt)

/-- `convergence`, `NewtonIteration.hpp:463-539`; `none`: `std::runtime_error`. -/
def convergence (eps : K) (n : Norms K) (iter : Nat) : Option Bool :=
  let error := (errors n iter).1.max (errors n iter).2
  if error.isFinite then some (decide (error.le (.fin eps))) else none

/-- The iteration object. `assemble` is `none` when it throws `std::invalid_argument`, which is caught. -/
structure Iteration (K S : Type) where
  assemble : S → Outcome (Option S)
  norms : S → Norms K
  solve : S → Outcome S
  postprocess : S → S

/-- Result of a Newton step: `m_convergence`, the saved solution, `m_iter`. -/
structure StepResult (S : Type) where
  converged : Bool
  saved : Option S
  iters : Nat

variable {S : Type}

/-- The loop of `NewtonStep::compute`, `NewtonStep.hpp:169-218`, with `k` rounds left. -/
def stepLoop (ops : Iteration K S) (eps : K) : Nat → Nat → S → Outcome (StepResult S)
  | 0, iter, _ => .ok ⟨false, none, iter⟩
  | k + 1, iter, s =>
    (ops.assemble s).bind fun r =>
      match r with
      | none => .ok ⟨false, none, iter⟩
      | some s =>
        match convergence eps (ops.norms s) iter with
        | none => .ok ⟨false, none, iter⟩
        | some true => .ok ⟨true, some s, iter⟩
        | some false => (ops.solve s).bind fun s => stepLoop ops eps k (iter + 1) (ops.postprocess s)

/-- `NewtonStep::compute` on the stored solution, `NewtonStep.hpp:146-222`: the flag, the solution stored afterwards,
the number of iterations. `m_iter_max` is compared as `size_t`. -/
def compute (ops : Iteration K S) (eps : K) (iterMax : Int) (old : S) : Outcome (Bool × S × Nat) :=
  (stepLoop ops eps (NewtonParams.toSize iterMax) 0 old).bind fun r =>
    .ok (r.converged, r.saved.getD old, r.iters)

/-! ### Time loop -/

/-- State of the time loop: remaining steps, stored solution, times still to save, what was done (accepted steps with
the solution, and the saved times). -/
structure Loop (K S : Type) where
  steps : Steps K
  sol : S
  toSave : List K
  accepted : List (Step K × S)
  saved : List (K × S)

/-- Saving after an accepted step, `NewtonSolver.hpp:612-635`: one time at most. -/
def save (t : K) (l : Loop K S) : Loop K S :=
  match l.toSave with
  | [] => l
  | x :: xs => if x < t + 1 / 100000 then { l with toSave := xs, saved := l.saved ++ [(x, l.sol)] } else l

/-- One round of the time loop, `NewtonSolver.hpp:549-637`, on a non-empty list; `newton` is the Newton step with the
stored solution. `Sum.inl`: the loop is left (`break`), with `m_convergence = false`. -/
def attempt (newton : Step K → S → Bool × S) (sublevel : Int) (l : Loop K S) : Outcome (Loop K S ⊕ Loop K S) :=
  (current l.steps).bind fun c =>
    let r := newton c l.sol
    if r.1 then
      (remove l.steps).bind fun st =>
        .ok (.inr (save c.fin { l with steps := st, sol := r.2, accepted := l.accepted ++ [(c, r.2)] }))
    else if c.level + 1 > NewtonParams.toSize sublevel then .ok (.inl { l with sol := r.2 })
    else (split id l.steps).bind fun st => .ok (.inr { l with steps := st, sol := r.2 })

/-- The loop for at most `k` rounds; `none`: still running. The flag tells whether all steps were done. -/
def timeLoop (newton : Step K → S → Bool × S) (sublevel : Int) : Nat → Loop K S → Outcome (Option (Bool × Loop K S))
  | k, l => if l.steps.list = [] then .ok (some (true, l))
    else match k with
      | 0 => .ok none
      | k + 1 => (attempt newton sublevel l).bind fun r =>
        match r with
        | .inl l => .ok (some (false, l))
        | .inr l => timeLoop newton sublevel k l

/-- The time loop at the start, on `n` equal steps up to `T`, `NewtonSolver.hpp:527-546`. -/
def start (T : K) (n : Nat) (s0 : S) (ts : List K) : Loop K S := ⟨init id T n, s0, ts, [], []⟩

end

/-! ### Newmark -/

section
variable {K : Type} [Field K]

/-- Cell unknown, velocity and acceleration. -/
structure Motion (K : Type) where
  u : K
  v : K
  a : K

/-- `acce_pred`, `NewtonIteration.hpp:172-176`. -/
def predictor (beta dt : K) (m : Motion K) : K :=
  -m.u / (beta * dt * dt) - m.v / (beta * dt) - dt * dt / 2 * (1 - 2 * beta) * m.a

/-- One iteration of `postprocess`, `NewtonIteration.hpp:417-436`: `x` is the increment of the iteration, `m0` the
state at the start of the step, of which the velocity is kept in `m_velocity_p`. -/
def newmarkUpdate (beta gamma dt : K) (m0 m : Motion K) (x : K) : Motion K :=
  let a := x / (beta * dt * dt) + predictor beta dt m0
  ⟨m.u + x, m0.v + dt * ((1 - gamma) * a + gamma * a), a⟩

/-- All iterations of a step. -/
def newmark (beta gamma dt : K) (m0 : Motion K) (xs : List K) : Motion K :=
  xs.foldl (newmarkUpdate beta gamma dt m0) m0

/-- The inertia terms of the right-hand side, `NewtonSolverComput.hpp:540-549`, for the mass `rho * M`. -/
def inertiaRhs (beta dt mass u pred : K) : K := -(mass / (beta * dt * dt)) * u + mass * pred

/-- The inertia term of the matrix, `NewtonSolverComput.hpp:540-542`. -/
def inertiaLhs (beta dt mass : K) : K := mass / (beta * dt * dt)

end
end Verif.Newton
