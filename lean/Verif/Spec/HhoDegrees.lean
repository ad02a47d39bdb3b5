import Verif.Model.HhoDegrees
/-!
Specification vocabulary for the degrees of an HHO method and for vector unknowns.
-/
namespace Verif.Spec.HhoDegrees
open Verif.HhoDegrees Verif.Util

/-- What the comments of the constructors ask for: `fd - 1 ≤ cd ≤ fd + 1` and `gd ≥ fd`. -/
def Valid (h : Hdi) : Prop := h.cell ≤ h.face + 1 ∧ h.face ≤ h.cell + 1 ∧ h.face ≤ h.grad

/-- The component `k` of a vector unknown. -/
def comp {K : Type} (dim k : Nat) (u : Nat → K) : Nat → K := fun i => u (i * dim + k)

/-- Number of scalar unknowns. -/
def scalarDofs (dim : Nat) (ci : CellInfo) : Nat := scalarBasisSize ci.cell.degree dim + scalarFacesDofs dim ci.faces

end Verif.Spec.HhoDegrees
