import Verif.Spec.HhoLocal
import Verif.Model.Nitsche
/-!
Specification vocabulary for the weak Dirichlet conditions: boundary sums, normal derivatives.
-/
namespace Verif.Spec.Nitsche
open Finset Verif.Hho Verif.Spec.Hho Verif.Nitsche LocalMatrix

variable {K P : Type} [Field K]

/-- Sum over the boundary faces of a cell; `h` gets the face and the offset of its unknowns. -/
def bndSum (fd : Nat) (h : BFace P K → Nat → K) : List (BFace P K) → Nat → K
  | [], _ => 0
  | fc :: fs, off => (if fc.boundary = true then h fc off else 0) + bndSum fd h fs (off + (fc.basis fd).size)

/-- The normal derivative of the function whose coefficients on all but the first basis function are `r`. -/
def normalD (d : Nat) (b : Basis P K) (r : Nat → K) (n : Nat → K) (x : P) : K := dot d (evalGradTail b r x) n

/-- The load of a vector of unknowns. -/
def load (n : Nat) (b v : Nat → K) : K := ∑ i ∈ range n, b i * v i

end Verif.Spec.Nitsche
