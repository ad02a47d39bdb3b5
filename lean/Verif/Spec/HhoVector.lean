import Verif.Spec.HhoLocal
import Verif.Model.HhoVector
/-!
Specification vocabulary for the gradient, divergence and symmetric gradient reconstructions.
-/
namespace Verif.Spec.Hho
open Finset Verif.Hho LocalMatrix

variable {K P : Type} [Field K]

/-- Component `c` of a vector unknown: the scalar HHO unknowns of that component. Scalar unknown `k` of component `c`
is stored at `d * k + c`. -/
def comp (d c : Nat) (u : Nat → K) : Nat → K := fun k => u (d * k + c)

/-- The vector field whose component `c` has the coefficients `comp d c u` in a scalar basis. -/
def evalVec (d : Nat) (b : Basis P K) (u : Nat → K) (x : P) (c : Nat) : K := evalFn b (comp d c u) x

/-- The symmetric tensor field with coefficients `t` in the symmetric matrix basis. -/
def evalSym (d : Nat) (r : K) (b : Basis P K) (t : Nat → K) (x : P) (a c : Nat) : K :=
  ∑ i ∈ range (symCount d * b.size), t i * symFn d r b x i a c

variable {d N : Nat} {cell : Elem P K} {faces : List (Face P K)}

/-- Integration by parts on the cell for products of basis functions of degrees `m` and `n`. -/
def Parts (C : PolyCell d cell faces N) (m n : Nat) : Prop :=
  ∀ i < (cell.basis m).size, ∀ j < (cell.basis n).size, ∀ c < d,
    C.IT (fun x => (cell.basis m).fn x i * (cell.basis n).grad x j c) =
      -C.IT (fun x => (cell.basis m).grad x i c * (cell.basis n).fn x j) +
        (faces.map fun f => C.IF f fun x => (cell.basis m).fn x i * f.normal c * (cell.basis n).fn x j).sum

/-- Every face of the cell is listed and has unknowns. -/
def AllUnknowns (faces : List (Face P K)) (fcs : List (InfoFace P K)) : Prop :=
  fcs.map Prod.fst = faces ∧ ∀ p ∈ fcs, p.2 ≠ none

/-- The listed faces with unknowns are faces of the cell, of degree at most `kmax`. -/
def FacesIn (faces : List (Face P K)) (kmax : Nat) (fcs : List (InfoFace P K)) : Prop :=
  ∀ f k, (f, some k) ∈ fcs → f ∈ faces ∧ k ≤ kmax

end Verif.Spec.Hho
