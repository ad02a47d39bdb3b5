import Verif.Spec.HhoLocal
import Verif.Model.DgSolver
/-!
Specification vocabulary for the discontinuous Galerkin solver: jumps and averages on the faces of a mesh, the
interior penalty form, polynomial solutions.
-/
namespace Verif.Spec.Dg
open Finset Verif.Hho Verif.DgSolver Verif.Spec.Hho LocalMatrix

variable {K P : Type} [Field K]

/-- The cells having the face `f`, with their outward normals. -/
def sides (m : Mesh P K) (f : Nat) : List (Nat × (Nat → K)) :=
  (List.range m.ncells).flatMap fun a => ((m.cell a).fcs.filter fun q => q.1 = f).map fun q => (a, q.2)

/-- The mesh: distinct stored faces per cell, at most two cells per face, opposite unit normals, `cbs` basis functions
of degree `k` per cell. -/
structure MeshOk (d k cbs : Nat) (m : Mesh P K) : Prop where
  pos : 0 < cbs
  size : ∀ a < m.ncells, ((m.cell a).elem.basis k).size = cbs
  nodup : ∀ a < m.ncells, ((m.cell a).fcs.map Prod.fst).Nodup
  range : ∀ a < m.ncells, ∀ q ∈ (m.cell a).fcs, q.1 < m.nfaces
  two : ∀ f, (sides m f).length ≤ 2
  unit : ∀ a < m.ncells, ∀ q ∈ (m.cell a).fcs, dot d q.2 q.2 = 1
  opposite : ∀ a < m.ncells, ∀ b < m.ncells, a ≠ b → ∀ q ∈ (m.cell a).fcs, ∀ r ∈ (m.cell b).fcs, q.1 = r.1 →
    ∀ c < d, r.2 c = -q.2 c

/-- The coefficients of the cells in a global vector. -/
def part (cbs : Nat) (x : Nat → K) (a i : Nat) : K := x (cbs * a + i)

/-- Value in cell `a` of the broken polynomial with coefficients `X`. -/
def val (k : Nat) (m : Mesh P K) (X : Nat → Nat → K) (a : Nat) (x : P) : K := evalFn ((m.cell a).elem.basis k) (X a) x

/-- Its gradient. -/
def grd (k : Nat) (m : Mesh P K) (X : Nat → Nat → K) (a : Nat) (x : P) : Nat → K :=
  evalGrad ((m.cell a).elem.basis k) (X a) x

/-- The jump on the face `f`: the values times the outward normals, added up. -/
def jump (k : Nat) (m : Mesh P K) (f : Nat) (X : Nat → Nat → K) (x : P) (c : Nat) : K :=
  ((sides m f).map fun s => val k m X s.1 x * s.2 c).sum

/-- The average of the gradients on the face `f`. -/
def avg (k : Nat) (m : Mesh P K) (f : Nat) (X : Nat → Nat → K) (x : P) (c : Nat) : K :=
  ((sides m f).map fun s => grd k m X s.1 x c).sum / (sides m f).length

/-- The terms of the symmetric interior penalty form on a face. -/
def faceForm (d k : Nat) (eta : K) (m : Mesh P K) (Y X : Nat → Nat → K) (f : Nat) : K :=
  quad ((m.face f).integrate (2 * k)) fun x => eta / (m.face f).diam * dot d (jump k m f Y x) (jump k m f X x) -
    dot d (jump k m f Y x) (avg k m f X x) - dot d (avg k m f Y x) (jump k m f X x)

/-- The term of the form on a cell. -/
def cellForm (d k : Nat) (m : Mesh P K) (Y X : Nat → Nat → K) (a : Nat) : K :=
  quad ((m.cell a).elem.integrate (2 * k)) fun x => dot d (grd k m Y a x) (grd k m X a x)

/-- The symmetric interior penalty form. -/
def sipForm (d k : Nat) (eta : K) (m : Mesh P K) (Y X : Nat → Nat → K) : K :=
  ∑ a ∈ range m.ncells, cellForm d k m Y X a + ∑ f ∈ range m.nfaces, faceForm d k eta m Y X f

/-- The load tested with a broken polynomial. -/
def loadForm (k : Nat) (m : Mesh P K) (f : P → K) (Y : Nat → Nat → K) : K :=
  ∑ a ∈ range m.ncells, quad ((m.cell a).elem.integrate (2 * k)) fun x => f x * val k m Y a x

/-- The faces of a cell as elements with normals. -/
def facesOf (m : Mesh P K) (a : Nat) : List (Face P K) :=
  (m.cell a).fcs.map fun q => { toElem := m.face q.1, normal := q.2 }

/-- On cell `a`, `u` is a polynomial of degree `k` with gradient `gu`, `-Δu = f` in weak form against the polynomials
of degree `k`, and `f` is a polynomial of degree `k`; the mass matrix is non-singular. -/
structure ExactCell (d k : Nat) (m : Mesh P K) (f u : P → K) (gu : P → Nat → K) (a : Nat) {N : Nat}
    (C : PolyCell d (m.cell a).elem (facesOf m a) N) : Prop where
  sol : ∃ w, (∀ x, u x = evalFn ((m.cell a).elem.basis k) w x) ∧
    ∀ x, ∀ c < d, gu x c = evalGrad ((m.cell a).elem.basis k) w x c
  load_mem : f ∈ C.V k
  load : ∀ j < ((m.cell a).elem.basis k).size,
    C.IT (fun x => dot d (gu x) (((m.cell a).elem.basis k).grad x j)) =
      C.IT (fun x => f x * ((m.cell a).elem.basis k).fn x j) +
      ((facesOf m a).map fun g => C.IF g fun x => dot d (gu x) g.normal * ((m.cell a).elem.basis k).fn x j).sum
  mass : Nonsing ((m.cell a).elem.basis k).size (mass (m.cell a).elem k ((m.cell a).elem.basis k))

/-- `u` is such a solution on every cell and vanishes on the faces with one cell only. -/
structure ExactMesh (d k : Nat) (m : Mesh P K) (f u : P → K) (gu : P → Nat → K) : Prop where
  cell : ∀ a < m.ncells, ∃ N, 2 * k ≤ N ∧ ∃ C : PolyCell d (m.cell a).elem (facesOf m a) N, ExactCell d k m f u gu a C
  boundary : ∀ i < m.nfaces, (sides m i).length = 1 → ∀ q ∈ (m.face i).integrate (2 * k), u q.pt = 0

/-- A cell that a chain of cells with common faces links to a face with one cell only. -/
inductive Linked (m : Mesh P K) : Nat → Prop
  | boundary {a : Nat} {q : Nat × (Nat → K)} : q ∈ (m.cell a).fcs → (sides m q.1).length = 1 → Linked m a
  | step {a b : Nat} {q r : Nat × (Nat → K)} : b < m.ncells → Linked m b → q ∈ (m.cell a).fcs → r ∈ (m.cell b).fcs →
      q.1 = r.1 → Linked m a

section
variable [LinearOrder K]

/-- Discrete trace inequality with constant `C`: the normal derivatives of the polynomials of degree `k` on the faces
of a cell, weighted with the face diameters, are controlled by the gradient in the cell. -/
def TraceBound (d k : Nat) (m : Mesh P K) (C : K) : Prop :=
  ∀ a < m.ncells, ∀ w : Nat → K,
    ((m.cell a).fcs.map fun q => (m.face q.1).diam * quad ((m.face q.1).integrate (2 * k))
      fun x => dot d (evalGrad ((m.cell a).elem.basis k) w x) q.2 ^ 2).sum ≤
    C * quad ((m.cell a).elem.integrate (2 * k)) fun x =>
      dot d (evalGrad ((m.cell a).elem.basis k) w x) (evalGrad ((m.cell a).elem.basis k) w x)

/-- Positivity of the data: non-negative weights, faces of positive diameter and non-zero measure, the constant is the
first basis function, a polynomial with vanishing gradient is constant, every cell is linked to the boundary. -/
structure PosMesh (d k : Nat) (m : Mesh P K) : Prop where
  weights : ∀ a < m.ncells, ∀ q ∈ (m.cell a).elem.integrate (2 * k), 0 ≤ q.w
  faceWeights : ∀ i < m.nfaces, ∀ q ∈ (m.face i).integrate (2 * k), 0 ≤ q.w
  diam : ∀ i < m.nfaces, 0 < (m.face i).diam
  measure : ∀ i < m.nfaces, quad ((m.face i).integrate (2 * k)) (fun _ => 1) ≠ 0
  one : ∀ a < m.ncells, ∀ x, ((m.cell a).elem.basis k).fn x 0 = 1
  const : ∀ a < m.ncells, ∀ w : Nat → K, quad ((m.cell a).elem.integrate (2 * k)) (fun x =>
    dot d (evalGrad ((m.cell a).elem.basis k) w x) (evalGrad ((m.cell a).elem.basis k) w x)) = 0 →
      ∀ j, 0 < j → j < ((m.cell a).elem.basis k).size → w j = 0
  linked : ∀ a < m.ncells, Linked m a

end

end Verif.Spec.Dg
