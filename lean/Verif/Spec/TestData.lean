import Mathlib.Analysis.Calculus.Deriv.Basic
import Mathlib.Data.Real.Basic
/-!
Differential operators on functions of a point of `ℝ^d` and what it means that given data belong to a boundary value
problem. Nothing here refers to the programs.
-/
namespace Verif.Spec.TestData
open Finset

variable {d : Nat}

/-- The derivative of `u` in direction `i` at `p` is `v`. -/
def Partial (u : (Fin d → ℝ) → ℝ) (i : Fin d) (p : Fin d → ℝ) (v : ℝ) : Prop :=
  HasDerivAt (fun s => u (Function.update p i s)) v (p i)

/-- `g` is the gradient of `u` at `p`. -/
def IsGradAt (u : (Fin d → ℝ) → ℝ) (g : Fin d → ℝ) (p : Fin d → ℝ) : Prop := ∀ i, Partial u i p (g i)

/-- The divergence of `F` at `p` is `v`. -/
def IsDivAt (F : (Fin d → ℝ) → Fin d → ℝ) (p : Fin d → ℝ) (v : ℝ) : Prop :=
  ∃ w : Fin d → ℝ, (∀ i, Partial (fun q => F q i) i p (w i)) ∧ v = ∑ i, w i

/-- `-div (D grad u) + c u = f` on the open set `U`, with `g` the gradient of `u` there. -/
def Diffusion (U : Set (Fin d → ℝ)) (D : Fin d → Fin d → ℝ) (c : ℝ) (u : (Fin d → ℝ) → ℝ)
    (g : (Fin d → ℝ) → Fin d → ℝ) (f : (Fin d → ℝ) → ℝ) : Prop :=
  ∀ p ∈ U, IsGradAt u (g p) p ∧ IsDivAt (fun q i => ∑ j, D i j * g q j) p (c * u p - f p)

/-- `u` is a solution of `-div (D grad u) + c u = f` on `U`. -/
def Solves (U : Set (Fin d → ℝ)) (D : Fin d → Fin d → ℝ) (c : ℝ) (u f : (Fin d → ℝ) → ℝ) : Prop :=
  ∃ g, Diffusion U D c u g f

/-- The identity matrix. -/
def idMat : Fin d → Fin d → ℝ := fun i j => if i = j then 1 else 0

/-- `G` is the Jacobian of `u` at `p`. -/
def IsJacAt (u : (Fin d → ℝ) → Fin d → ℝ) (G : Fin d → Fin d → ℝ) (p : Fin d → ℝ) : Prop :=
  ∀ i, IsGradAt (fun q => u q i) (G i) p

/-- The law of isotropic linear elasticity, `2 μ ε + λ (tr ε) I`. -/
def elastic (lam mu : ℝ) (G : Fin d → Fin d → ℝ) : Fin d → Fin d → ℝ :=
  fun i j => mu * (G i j + G j i) + if i = j then lam * ∑ k, G k k else 0

/-- `S` is the stress of the displacement `u` everywhere. -/
def IsStress (lam mu : ℝ) (u : (Fin d → ℝ) → Fin d → ℝ) (S : (Fin d → ℝ) → Fin d → Fin d → ℝ) : Prop :=
  ∀ p, ∃ G, IsJacAt u G p ∧ S p = elastic lam mu G

/-- `-div S = f` everywhere, row by row. -/
def Balance (S : (Fin d → ℝ) → Fin d → Fin d → ℝ) (f : (Fin d → ℝ) → Fin d → ℝ) : Prop :=
  ∀ p i, IsDivAt (fun q j => S q i j) p (-f p i)

/-- `-Δ u + grad p = f` and `div u = 0`. -/
def Stokes (u : (Fin d → ℝ) → Fin d → ℝ) (pr : (Fin d → ℝ) → ℝ) (f : (Fin d → ℝ) → Fin d → ℝ) : Prop :=
  ∃ (G : (Fin d → ℝ) → Fin d → Fin d → ℝ) (dp : (Fin d → ℝ) → Fin d → ℝ),
    (∀ p, IsJacAt u (G p) p) ∧ (∀ p, IsGradAt pr (dp p) p) ∧ (∀ p i, IsDivAt (fun q j => G q i j) p (dp p i - f p i)) ∧
      ∀ p, ∑ k, G p k k = 0

/-- The same with twice the symmetric gradient: `-div (2 ε(u)) + grad p = f` and `div u = 0`. -/
def StokesSym (u : (Fin d → ℝ) → Fin d → ℝ) (pr : (Fin d → ℝ) → ℝ) (f : (Fin d → ℝ) → Fin d → ℝ) : Prop :=
  ∃ (G : (Fin d → ℝ) → Fin d → Fin d → ℝ) (dp : (Fin d → ℝ) → Fin d → ℝ),
    (∀ p, IsJacAt u (G p) p) ∧ (∀ p, IsGradAt pr (dp p) p) ∧
      (∀ p i, IsDivAt (fun q j => G q i j + G q j i) p (dp p i - f p i)) ∧ ∀ p, ∑ k, G p k k = 0

/-- `C` is the curl of `E` everywhere. -/
def IsCurl (E C : (Fin 3 → ℝ) → Fin 3 → ℝ) : Prop :=
  ∀ p, ∃ G, IsJacAt E G p ∧ C p 0 = G 2 1 - G 1 2 ∧ C p 1 = G 0 2 - G 2 0 ∧ C p 2 = G 1 0 - G 0 1

/-- `u` solves the obstacle problem with obstacle zero and load `f` pointwise: it is differentiable and non-negative, satisfies
`-Δ u = f` where it is positive, and in the contact set `-Δ u = 0 ≥ f`. -/
def Obstacle (u f : (Fin d → ℝ) → ℝ) : Prop :=
  ∃ g : (Fin d → ℝ) → Fin d → ℝ, (∀ p, IsGradAt u (g p) p) ∧ (∀ p, 0 ≤ u p) ∧ (∀ p, 0 < u p → IsDivAt g p (-f p)) ∧
    ∀ p, u p = 0 → g p = 0 ∧ f p ≤ 0

/-- `u` solves `∂ₜ u - Δ u = 0`. -/
def Heat (u : ℝ → (Fin d → ℝ) → ℝ) : Prop :=
  ∃ g : ℝ → (Fin d → ℝ) → Fin d → ℝ, (∀ t p, IsGradAt (u t) (g t p) p) ∧
    ∀ t p, ∃ r, HasDerivAt (fun s => u s p) r t ∧ IsDivAt (g t) p r

/-- The cofactor matrix in two dimensions. -/
def cof2 (F : Fin 2 → Fin 2 → ℝ) : Fin 2 → Fin 2 → ℝ
  | 0, 0 => F 1 1
  | 0, 1 => -F 1 0
  | 1, 0 => -F 0 1
  | 1, 1 => F 0 0

/-- The determinant in two dimensions. -/
def det2 (F : Fin 2 → Fin 2 → ℝ) : ℝ := F 0 0 * F 1 1 - F 0 1 * F 1 0

/-- The cofactor matrix in three dimensions. -/
def cof3 (F : Fin 3 → Fin 3 → ℝ) : Fin 3 → Fin 3 → ℝ
  | 0, 0 => F 1 1 * F 2 2 - F 1 2 * F 2 1
  | 0, 1 => F 1 2 * F 2 0 - F 1 0 * F 2 2
  | 0, 2 => F 1 0 * F 2 1 - F 1 1 * F 2 0
  | 1, 0 => F 0 2 * F 2 1 - F 0 1 * F 2 2
  | 1, 1 => F 0 0 * F 2 2 - F 0 2 * F 2 0
  | 1, 2 => F 0 1 * F 2 0 - F 0 0 * F 2 1
  | 2, 0 => F 0 1 * F 1 2 - F 0 2 * F 1 1
  | 2, 1 => F 0 2 * F 1 0 - F 0 0 * F 1 2
  | 2, 2 => F 0 0 * F 1 1 - F 0 1 * F 1 0

/-- The determinant in three dimensions. -/
def det3 (F : Fin 3 → Fin 3 → ℝ) : ℝ := F 0 0 * cof3 F 0 0 + F 0 1 * cof3 F 0 1 + F 0 2 * cof3 F 0 2

/-- The equilibrium `-div P = f` for a first Piola–Kirchhoff stress `P = μ F + κ(det F) cof F`, `F = I + grad u`, in two
dimensions. Every law whose energy is `μ/2 |F|²` plus a function of the determinant is of this form. -/
def Piola2 (mu : ℝ) (κ : ℝ → ℝ) (u f : (Fin 2 → ℝ) → Fin 2 → ℝ) : Prop :=
  ∃ F : (Fin 2 → ℝ) → Fin 2 → Fin 2 → ℝ, (∀ p, IsJacAt u (fun i j => F p i j - idMat i j) p) ∧
    ∀ p i, IsDivAt (fun q j => mu * F q i j + κ (det2 (F q)) * cof2 (F q) i j) p (-f p i)

/-- The same in three dimensions. -/
def Piola3 (mu : ℝ) (κ : ℝ → ℝ) (u f : (Fin 3 → ℝ) → Fin 3 → ℝ) : Prop :=
  ∃ F : (Fin 3 → ℝ) → Fin 3 → Fin 3 → ℝ, (∀ p, IsJacAt u (fun i j => F p i j - idMat i j) p) ∧
    ∀ p i, IsDivAt (fun q j => mu * F q i j + κ (det3 (F q)) * cof3 (F q) i j) p (-f p i)

/-- Unilateral contact with Tresca friction of bound `s`, for the normal displacement `un`, the normal stress `sn`, the
tangential displacement `ut` and the tangential stress `st` (one tangential direction). -/
def Tresca (un sn ut st s : ℝ) : Prop :=
  un ≤ 0 ∧ sn ≤ 0 ∧ sn * un = 0 ∧ |st| ≤ s ∧ st * ut = -s * |ut|

end Verif.Spec.TestData
