import Verif.Spec.VectorAsm
/-!
Spec of the scalar system with Dirichlet, Neumann and Robin faces.
-/
namespace Verif.Spec
open Finset

/-- Unknowns of the faces: `b` each, all prescribed on Dirichlet faces. -/
def faceTable (b : Nat) (dir : List Bool) : DofTable := dir.map fun d => (b, fun _ => d)

/-- Contribution of a face to the residual of the Neumann term: `-g`. -/
def neumannTerm {K : Type} [Ring K] (g : Nat → Nat → K) (f : Nat) (y : Nat × Nat) : K :=
  if f = y.1 then -g f y.2 else 0

/-- Contribution of a face to the residual of the Robin term: `M u - g`. -/
def robinTerm {K : Type} [Ring K] (b : Nat) (g : Nat → Nat → K) (M : Nat → Nat → Nat → K) (w : Nat × Nat → K) (f : Nat)
    (y : Nat × Nat) : K :=
  if f = y.1 then (∑ j ∈ range b, M f y.2 j * w (f, j)) - g f y.2 else 0

end Verif.Spec
