import Mathlib.LinearAlgebra.Span.Basic
import Verif.Spec.HhoLocal
import Verif.Model.Vem
/-!
Specification vocabulary for the virtual element matrices: polynomials in the scaled coordinates of a cell with their
gradients and Laplacians, exact integrals with Green's formula, the degrees of freedom of a function.
-/
namespace Verif.Spec.Vem
open Finset Verif.Hho Verif.Vem LocalMatrix Verif.Spec.Hho

variable {K : Type} [Field K]

/-- The gradient of a scaled coordinate. -/
def coordGrad (c : VCell K) (i : Fin 2) (m : Nat) : K := if h : m < 2 then c.axes ⟨m, h⟩ i * (2 / c.len i) else 0

/-- The scaled coordinates. -/
def coord (c : VCell K) (i : Fin 2) (x : Pt K) : K :=
  coordGrad c i 0 * (x 0 - c.bar 0) + coordGrad c i 1 * (x 1 - c.bar 1)

/-- The monomial with given exponents. -/
def mono (c : VCell K) (e : Nat × Nat) (x : Pt K) : K := coord c 0 x ^ e.1 * coord c 1 x ^ e.2

/-- Its gradient. -/
def gradMono (c : VCell K) (e : Nat × Nat) (x : Pt K) (m : Nat) : K :=
  (e.1 : K) * coordGrad c 0 m * mono c (e.1 - 1, e.2) x + (e.2 : K) * coordGrad c 1 m * mono c (e.1, e.2 - 1) x

/-- Its Laplacian, the axes being orthonormal. -/
def lapMono (c : VCell K) (e : Nat × Nat) (x : Pt K) : K :=
  ((e.1 * (e.1 - 1) : Nat) : K) * (2 / c.len 0) ^ 2 * mono c (e.1 - 2, e.2) x +
    ((e.2 * (e.2 - 1) : Nat) : K) * (2 / c.len 1) ^ 2 * mono c (e.1, e.2 - 2) x

/-- Polynomials of degree at most `n`. -/
def polys (c : VCell K) (n : Nat) : Submodule K (Pt K → K) :=
  Submodule.span K {v | ∃ e : Nat × Nat, e.1 + e.2 ≤ n ∧ v = mono c e}

/-- The exact integrals over a cell and its sides, with the rules the method of degree `k` uses being exact for them:
`integrate(n)` for polynomials of degree `n` up to `2k`, the Lobatto rule of `k + 1` nodes for degree `2k - 1`. The
Lobatto nodes of a side end where those of the following side begin. -/
structure Exact (c : VCell K) (k : Nat) where
  IT : (Pt K → K) →ₗ[K] K
  IF : VSide K → (Pt K → K) →ₗ[K] K
  area_eq : IT (fun _ => 1) = c.area
  area_ne : c.area ≠ 0
  cell_exact : ∀ n ≤ 2 * k, ∀ v ∈ polys c n, quad (c.integrate n) v = IT v
  lob_exact : ∀ s ∈ c.sides, ∀ v ∈ polys c (2 * k - 1), quad (s.lobatto (2 * k - 1)) v = IF s v
  lob_len : ∀ s ∈ c.sides, (s.lobatto (2 * k - 1)).length = k + 1
  closed : ∀ i s s' x x', c.sides[i]? = some s → c.sides[(i + 1) % c.sides.length]? = some s' →
    (s.lobatto (2 * k - 1))[k]? = some x → (s'.lobatto (2 * k - 1))[0]? = some x' → x.pt = x'.pt
  green : ∀ a b : Nat × Nat, a.1 + a.2 ≤ k → b.1 + b.2 ≤ k →
    IT (fun x => dot 2 (gradMono c a x) (gradMono c b x)) = -IT (fun x => lapMono c a x * mono c b x) +
      (c.sides.map fun s => IF s fun x => dot 2 (gradMono c a x) s.normal * mono c b x).sum

variable {c : VCell K} {k : Nat}

/-- Only constants have no gradient. -/
def Definite (E : Exact c k) : Prop :=
  ∀ x : Nat → K, E.IT (fun p => dot 2 (evalGrad (c.basis k) x p) (evalGrad (c.basis k) x p)) = 0 →
    ∀ i, 0 < i → i < (c.basis k).size → x i = 0

/-- Only zero has no mass. -/
def MassOk (E : Exact c k) : Prop :=
  ∀ x : Nat → K, E.IT (fun p => evalFn (c.basis (k - 1)) x p * evalFn (c.basis (k - 1)) x p) = 0 →
    ∀ i < (c.basis (k - 1)).size, x i = 0

/-- `v` are the degrees of freedom of the function `p`: its values at the Lobatto nodes of the sides but the last of
each, side by side, and its moments with the scaled monomials of degree at most `k - 2`, divided by the area. -/
def IsDofs (E : Exact c k) (p : Pt K → K) (v : Nat → K) : Prop :=
  (∀ i s q x, c.sides[i]? = some s → q < k → (s.lobatto (2 * k - 1))[q]? = some x → v (i * k + q) = p x.pt) ∧
  (2 ≤ k → ∀ l < (c.basis (k - 2)).size,
    v (c.sides.length * k + l) = E.IT (fun x => (c.basis (k - 2)).fn x l * p x) / c.area)

/-- The mean of a function over the first Lobatto nodes of the sides: for the lowest degree, the vertices. -/
def vertexMean (c : VCell K) (k : Nat) (p : Pt K → K) : K :=
  (c.sides.map fun s => match (s.lobatto (2 * k - 1))[0]? with
    | some x => p x.pt
    | none => 0).sum / (c.sides.length : K)

end Verif.Spec.Vem
