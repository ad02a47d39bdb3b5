import Mathlib.Algebra.Module.Submodule.Defs
import Mathlib.Algebra.Module.LinearMap.Defs
import Mathlib.Algebra.Module.Pi
import Mathlib.Algebra.BigOperators.Group.List.Basic
import Verif.Model.HhoLocal
/-!
Specification vocabulary for the local HHO operators: polynomial spaces on a cell and on its faces, exact
integrals, quadrature exactness, Green's formula, functions given by coefficients, interpolation.
-/
namespace Verif.Spec.Hho
open Finset Verif.Hho LocalMatrix

variable {K P : Type} [Field K]

/-- Value of a quadrature rule on a function. -/
def quad (qs : List (QP P K)) (v : P → K) : K := (qs.map fun q => q.w * v q.pt).sum

/-- Row `i` of a matrix with `n` columns applied to a vector. -/
def app (n : Nat) (M : Mat K) (u : Nat → K) (i : Nat) : K := ∑ j ∈ range n, M i j * u j

/-- The function with coefficients `u` in a basis. -/
def evalFn (b : Basis P K) (u : Nat → K) (x : P) : K := ∑ j ∈ range b.size, u j * b.fn x j

/-- Its gradient. -/
def evalGrad (b : Basis P K) (u : Nat → K) (x : P) (c : Nat) : K := ∑ j ∈ range b.size, u j * b.grad x j c

/-- Gradient of the function whose coefficients on all but the first basis function are `r`. -/
def evalGradTail (b : Basis P K) (r : Nat → K) (x : P) (c : Nat) : K :=
  ∑ j ∈ range (b.size - 1), r j * b.grad x (j + 1) c

/-- The function whose coefficients on all but the first basis function are `r`, the first coefficient being zero. -/
def evalTail (b : Basis P K) (r : Nat → K) (x : P) : K := ∑ j ∈ range (b.size - 1), r j * b.fn x (j + 1)

/-- The unknowns stored from an offset on. -/
def seg (off : Nat) (u : Nat → K) : Nat → K := fun j => u (off + j)

/-- Sum over the faces with unknowns; `g` gets the face, its degree and the offset of its unknowns. -/
def faceSum (g : Face P K → Nat → Nat → K) : List (InfoFace P K) → Nat → K
  | [], _ => 0
  | (_, none) :: fs, off => faceSum g fs off
  | (fc, some k) :: fs, off => g fc k off + faceSum g fs (off + (fc.basis k).size)

/-- A statement about all faces with unknowns. -/
def faceAll (g : Face P K → Nat → Nat → Prop) : List (InfoFace P K) → Nat → Prop
  | [], _ => True
  | (_, none) :: fs, off => faceAll g fs off
  | (fc, some k) :: fs, off => g fc k off ∧ faceAll g fs (off + (fc.basis k).size)

/-- Number of face unknowns. -/
def facesDofs (faces : List (InfoFace P K)) : Nat := (faces.map faceDofs).sum

/-- All faces with the same degree. -/
def uniform (fd : Nat) (faces : List (Face P K)) : List (InfoFace P K) := faces.map fun f => (f, some fd)

/-- The diffusion tensor, if there is one, is symmetric. -/
def TensSym (d : Nat) : Option (Mat K) → Prop
  | none => True
  | some D => SymOn d D

/-- The flux of a gradient: `D g`, or `g` without a tensor. -/
def fluxOf (d : Nat) (tens : Option (Mat K)) (g : Nat → K) : Nat → K :=
  match tens with
  | none => g
  | some D => fun c => ∑ e ∈ range d, D c e * g e

/-- The bilinear form of a matrix. -/
def form (n : Nat) (M : Mat K) (v u : Nat → K) : K := ∑ i ∈ range n, v i * app n M u i

/-- Polynomials on a cell and its faces. `V k` are the polynomials of degree at most `k`; `IT`, `IF` the exact
integrals; the quadrature rules are exact up to degree `N`; the bases span the polynomials (on a face: their
restrictions) and contain the constant as first function. -/
structure PolyCell (d : Nat) (cell : Elem P K) (faces : List (Face P K)) (N : Nat) where
  V : Nat → Submodule K (P → K)
  mono : ∀ {m n : Nat}, m ≤ n → V m ≤ V n
  mul : ∀ {m n : Nat} {f g : P → K}, f ∈ V m → g ∈ V n → f * g ∈ V (m + n)
  IT : (P → K) →ₗ[K] K
  IF : Face P K → (P → K) →ₗ[K] K
  on : Face P K → Set P
  cell_exact : ∀ n ≤ N, ∀ v ∈ V n, quad (cell.integrate n) v = IT v
  cell_mem : ∀ k, ∀ i < (cell.basis k).size, (fun x => (cell.basis k).fn x i) ∈ V k
  cell_span : ∀ k, ∀ v ∈ V k, ∃ c, ∀ x, v x = evalFn (cell.basis k) c x
  cell_pos : ∀ k, 0 < (cell.basis k).size
  cell_one : ∀ k x, (cell.basis k).fn x 0 = 1
  grad_mem : ∀ k, ∀ i < (cell.basis k).size, ∀ c < d, (fun x => (cell.basis k).grad x i c) ∈ V (k - 1)
  grad_one : ∀ k x c, (cell.basis k).grad x 0 c = 0
  face_pts : ∀ f ∈ faces, ∀ n, ∀ q ∈ f.integrate n, q.pt ∈ on f
  face_congr : ∀ f ∈ faces, ∀ u v : P → K, (∀ x ∈ on f, u x = v x) → IF f u = IF f v
  face_exact : ∀ f ∈ faces, ∀ n ≤ N, ∀ v ∈ V n, quad (f.integrate n) v = IF f v
  face_mem : ∀ f ∈ faces, ∀ k, ∀ i < (f.basis k).size, ∃ v ∈ V k, ∀ x ∈ on f, (f.basis k).fn x i = v x
  face_span : ∀ f ∈ faces, ∀ k, ∀ v ∈ V k, ∃ c, ∀ x ∈ on f, v x = evalFn (f.basis k) c x

/-- The bases of lower degree are the first functions of those of higher degree. -/
def Nested (e : Elem P K) : Prop :=
  ∀ m n, m ≤ n → (e.basis m).size ≤ (e.basis n).size ∧
    ∀ i < (e.basis m).size, ∀ x, (e.basis m).fn x i = (e.basis n).fn x i ∧ (e.basis m).grad x i = (e.basis n).grad x i

variable {d N : Nat} {cell : Elem P K} {faces : List (Face P K)}

/-- Green's formula for the fluxes of the reconstruction basis (all but the constant), tested with the bases of
degrees `rd` and `cd`; the divergence of the flux has degree `rd - 2`. -/
def Green (C : PolyCell d cell faces N) (tens : Option (Mat K)) (rd cd : Nat) : Prop :=
  ∀ i, i + 1 < (cell.basis rd).size → ∃ L ∈ C.V (rd - 2), ∀ k, (k = rd ∨ k = cd) → ∀ j < (cell.basis k).size,
    C.IT (fun x => dot d (rflux d tens (cell.basis rd) x i) ((cell.basis k).grad x j)) =
      -C.IT (fun x => L x * (cell.basis k).fn x j) +
        (faces.map fun f => C.IF f fun x => fluxN d tens (cell.basis rd) f.normal x i * (cell.basis k).fn x j).sum

/-- `u` is the interpolate of `p`: the cell part is the L² projection of `p` on the cell polynomials of degree
`cd`, each face part the L² projection on the face polynomials. -/
def IsInterp (C : PolyCell d cell faces N) (cd : Nat) (fcs : List (InfoFace P K)) (p : P → K) (u : Nat → K) : Prop :=
  (∀ i < (cell.basis cd).size,
    C.IT (fun x => (cell.basis cd).fn x i * evalFn (cell.basis cd) u x) =
      C.IT (fun x => (cell.basis cd).fn x i * p x)) ∧
  faceAll (fun f k off => ∀ i < (f.basis k).size,
    C.IF f (fun x => (f.basis k).fn x i * evalFn (f.basis k) (seg off u) x) =
      C.IF f (fun x => (f.basis k).fn x i * p x)) fcs (cell.basis cd).size

/-- `δ` are the coefficients of the L² projection of `w` on the polynomials of degree `k` of the face. -/
def IsFaceProj (C : PolyCell d cell faces N) (f : Face P K) (k : Nat) (w : P → K) (δ : Nat → K) : Prop :=
  ∀ i < (f.basis k).size, C.IF f (fun x => (f.basis k).fn x i * evalFn (f.basis k) δ x) =
    C.IF f (fun x => (f.basis k).fn x i * w x)

/-- `y` are the coefficients of the L² projection of `w` on the polynomials of degree `k` of the cell. -/
def IsCellProj (C : PolyCell d cell faces N) (k : Nat) (w : P → K) (y : Nat → K) : Prop :=
  ∀ i < (cell.basis k).size, C.IT (fun x => (cell.basis k).fn x i * evalFn (cell.basis k) y x) =
    C.IT (fun x => (cell.basis k).fn x i * w x)

end Verif.Spec.Hho
