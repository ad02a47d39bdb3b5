import Verif.Spec.HhoVector
import Verif.Model.HhoCurl
/-!
Specification vocabulary for the curl operators: tangential fields, frames, tangential interpolation.
-/
namespace Verif.Spec.Hho
open Finset Verif.Hho LocalMatrix

variable {K P : Type} [Field K]

/-- The curl of the vector field with coefficients `u`. -/
def evalCurl (b : Basis P K) (u : Nat → K) (x : P) (c : Nat) : K :=
  evalGrad b (comp 3 ((c + 2) % 3) u) x ((c + 1) % 3) - evalGrad b (comp 3 ((c + 1) % 3) u) x ((c + 2) % 3)

/-- The tangential field `Σ (u_{2j} e₀ + u_{2j+1} e₁) φ_j` on a face with frame `e`. -/
def evalTan (e : Nat → Nat → K) (b : Basis P K) (u : Nat → K) (x : P) (c : Nat) : K :=
  ∑ s ∈ range 2, e s c * evalFn b (comp 2 s u) x

/-- `e 0`, `e 1` and the normal are orthonormal. -/
def IsFrame (n : Nat → K) (e : Nat → Nat → K) : Prop :=
  dot 3 n n = 1 ∧ dot 3 (e 0) (e 0) = 1 ∧ dot 3 (e 1) (e 1) = 1 ∧ dot 3 (e 0) (e 1) = 0 ∧ dot 3 (e 0) n = 0 ∧
    dot 3 (e 1) n = 0

/-- Sum over the faces; `g` gets the face and the offset of its unknowns, `m` per scalar function. -/
def tanSum (m fd : Nat) (g : Face P K → Nat → K) : List (Face P K) → Nat → K
  | [], _ => 0
  | fc :: fs, off => g fc off + tanSum m fd g fs (off + m * (fc.basis fd).size)

/-- A statement about all faces. -/
def tanAll (m fd : Nat) (g : Face P K → Nat → Prop) : List (Face P K) → Nat → Prop
  | [], _ => True
  | fc :: fs, off => g fc off ∧ tanAll m fd g fs (off + m * (fc.basis fd).size)

/-- Number of tangential unknowns of the faces. -/
def tanDofs (fd : Nat) (fs : List (Face P K)) : Nat := (fs.map fun f => 2 * (f.basis fd).size).sum

/-- Coefficients on all but the first three (constant) functions. -/
def shift3 (r : Nat → K) : Nat → K := fun j => if j < 3 then 0 else r (j - 3)

/-- The kernel of the stiffness matrix of the curls consists of curl-free fields. -/
def CurlKernel (rd : Nat) (cell : Elem P K) : Prop :=
  ∀ t : Nat → K, (∀ i < 3 * (cell.basis rd).size - 3,
    app (3 * (cell.basis rd).size - 3) (block (curlStiff rd cell) 3 3) t i = 0) →
    ∀ x, ∀ c < 3, evalCurl (cell.basis rd) (shift3 t) x c = 0

/-- The mass matrix of the tangential functions of a face, by the rule of degree `2 * max cd fd + 2`. -/
def tanMass (fr : Frames P K) (cd fd : Nat) (f : Face P K) : Mat K :=
  accumDot 3 (f.integrate (2 * max cd fd + 2)) (tanFn (fr f) (f.basis fd)) (tanFn (fr f) (f.basis fd))

variable {N : Nat} {cell : Elem P K} {faces : List (Face P K)}

/-- `δ` are the coefficients of the projection of the tangential part of the field `w` on a face. -/
def IsTanProj (C : PolyCell 3 cell faces N) (fr : Frames P K) (fd : Nat) (f : Face P K) (w : P → Nat → K) (δ : Nat → K) :
    Prop :=
  ∀ s < 2, ∀ i < (f.basis fd).size,
    C.IF f (fun x => (f.basis fd).fn x i * dot 3 (fr f s) (evalTan (fr f) (f.basis fd) δ x)) =
      C.IF f (fun x => (f.basis fd).fn x i * dot 3 (fr f s) (w x))

/-- `u` is the tangential interpolate of the field `p`: L² projections of its components on the cell, of its tangential
part on the faces. -/
def IsTanInterp (C : PolyCell 3 cell faces N) (fr : Frames P K) (cd fd : Nat) (p : P → Nat → K) (u : Nat → K) : Prop :=
  (∀ c < 3, ∀ i < (cell.basis cd).size,
    C.IT (fun x => (cell.basis cd).fn x i * evalVec 3 (cell.basis cd) u x c) =
      C.IT (fun x => (cell.basis cd).fn x i * p x c)) ∧
  tanAll 2 fd (fun f off => IsTanProj C fr fd f p (seg off u)) faces (3 * (cell.basis cd).size)

end Verif.Spec.Hho
