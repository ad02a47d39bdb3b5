import Mathlib.Data.Matrix.Mul
import Mathlib.Analysis.Real.Sqrt
/-!
Conjugate gradient, `solvers/solver.hpp:69-156`. Vectors and matrices have real entries (no rounding).
A division by zero inside the loop gives infinities or NaN in the code; then `x` is not finite any more and
the loop is left because the comparisons with NaN fail (or run on with NaN): the model stops there with the
outcome `none` for `x`. Printing and the history file are left out.
-/
namespace Verif.ConjGrad
open Matrix

/-- `conjugated_gradient_params`, `solvers/solver.hpp:51-66` (without the output options). -/
structure Params where
  rrTol : ℝ
  rrMax : ℝ
  maxIter : Nat
  useInitialGuess : Bool

/-- The iteration variables `x`, `r`, `d`. -/
structure St (n : Nat) where
  x : Fin n → ℝ
  r : Fin n → ℝ
  d : Fin n → ℝ

variable {n : Nat}

/-- `r.norm()`. -/
noncomputable def norm (v : Fin n → ℝ) : ℝ := Real.sqrt (v ⬝ᵥ v)

/-- One pass through the loop body, `solvers/solver.hpp:127-133`. -/
noncomputable def step (A : Matrix (Fin n) (Fin n) ℝ) (s : St n) : Option (St n) :=
  let y := A *ᵥ s.d
  let rho := s.r ⬝ᵥ s.r
  if s.d ⬝ᵥ y = 0 then none
  else
    let alpha := rho / (s.d ⬝ᵥ y)
    let x := s.x + alpha • s.d
    let r := s.r - alpha • y
    if rho = 0 then none
    else
      let beta := (r ⬝ᵥ r) / rho
      some ⟨x, r, r + beta • s.d⟩

/-- `k` passes through the loop body. -/
noncomputable def steps (A : Matrix (Fin n) (Fin n) ℝ) : Nat → St n → Option (St n)
  | 0, s => some s
  | k + 1, s => (steps A k s).bind (step A)

/-- The loop condition, `solvers/solver.hpp:115`, with the iteration count left out. When `nr0` is zero the
quotient is NaN (`nr` is zero as well) and the comparisons are false. -/
def goesOn (p : Params) (nr0 nr : ℝ) : Prop :=
  nr0 ≠ 0 ∧ nr / nr0 > p.rrTol ∧ nr / nr0 < p.rrMax

open Classical in
/-- The loop, `solvers/solver.hpp:115-137`; `fuel` is `max_iter - iter`. -/
noncomputable def loop (p : Params) (A : Matrix (Fin n) (Fin n) ℝ) (nr0 : ℝ) : Nat → St n → Option (St n)
  | 0, s => some s
  | fuel + 1, s =>
    if goesOn p nr0 (norm s.r) then
      match step A s with
      | none => none
      | some s' => loop p A nr0 fuel s'
    else some s

/-- Start values, `solvers/solver.hpp:100-109`. -/
noncomputable def start (p : Params) (A : Matrix (Fin n) (Fin n) ℝ) (b x : Fin n → ℝ) : St n :=
  let x0 := if p.useInitialGuess then x else 0
  let r := b - A *ᵥ x0
  ⟨x0, r, r⟩

/-- `auto max_iter = …`, `solvers/solver.hpp:113`. -/
def maxIter (p : Params) (n : Nat) : Nat := if p.maxIter = 0 then 2 * n else p.maxIter

/-- The square part, `solvers/solver.hpp:100-155`: the final iteration variables, `none` if not finite. -/
noncomputable def core (p : Params) (A : Matrix (Fin n) (Fin n) ℝ) (b x : Fin n → ℝ) : Option (St n) :=
  loop p A (norm (start p A b x).r) (maxIter p n) (start p A b x)

/-- `conjugated_gradient`, `solvers/solver.hpp:71-156`: the returned flag and `x` afterwards (`none` when it
contains infinities or NaN). -/
noncomputable def cg (p : Params) {rows cols nb nx : Nat} (A : Matrix (Fin rows) (Fin cols) ℝ) (b : Fin nb → ℝ)
    (x : Fin nx → ℝ) : Bool × Option (Fin nx → ℝ) :=
  if h1 : rows = cols then
    if h2 : nb = cols then
      if h3 : nx = cols then
        (true, (core p (fun i j => A (Fin.cast h1.symm i) j) (fun i => b (Fin.cast h2.symm i))
          (fun i => x (Fin.cast h3.symm i))).map fun s => fun i => s.x (Fin.cast h3 i))
      else (false, some x)
    else (false, some x)
  else (false, some x)

end Verif.ConjGrad
