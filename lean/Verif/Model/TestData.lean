import Verif.Model.Outcome
import Mathlib.Analysis.SpecialFunctions.Trigonometric.Basic
import Mathlib.Data.Fin.VecNotation
/-!
The test problems of the applications: the loads, exact solutions, gradients and stresses that the programs are given
and against which they print their errors.

A point is `p : Fin d → ℝ`, `p 0`, `p 1`, `p 2` are `x()`, `y()`, `z()`. `std::sin`, `std::cos`, `std::exp`, `std::sqrt`
are the exact functions, `M_PI` is `π`, and decimal literals (`0.4`, `0.7`, `1.5`, `1./3.`) are the decimal numbers they
denote. A vector or matrix of Eigen is a function of its indices.
-/
noncomputable section
namespace Verif.TestData
open Real

abbrev Pt (d : Nat) := Fin d → ℝ

/-! ### Scalar diffusion -/

/-- `solution_functor<Mesh<T,1>>`, `apps/diffusion/src/diffusion_hho_common.hpp:176-188`. -/
def sol1 (p : Pt 1) : ℝ := sin (π * p 0)

/-- `solution_functor<Mesh<T,2>>`, `diffusion_hho_common.hpp:190-215`; the same function in `variable_diffusion_hho.cpp`,
`helmholtz.cpp`, `diffusion_dg.cpp` and `diskpp_tutorial_2.cpp:54-60` (`fun`). -/
def sol2 (p : Pt 2) : ℝ := sin (π * p 0) * sin (π * p 1)

/-- `solution_functor<Mesh<T,3>>`, `diffusion_hho_common.hpp:217-232`, and `fun` of `diskpp_tutorial_2.cpp:76-83`. -/
def sol3 (p : Pt 3) : ℝ := sin (π * p 0) * sin (π * p 1) * sin (π * p 2)

/-- `solution_gradient_functor<Mesh<T,1>>`, `diffusion_hho_common.hpp:238-251`. -/
def grad1 (p : Pt 1) : Fin 1 → ℝ := ![π * cos (π * p 0)]

/-- `solution_gradient_functor<Mesh<T,2>>`, `diffusion_hho_common.hpp:253-289`. -/
def grad2 (p : Pt 2) : Fin 2 → ℝ := ![π * cos (π * p 0) * sin (π * p 1), π * sin (π * p 0) * cos (π * p 1)]

/-- `solution_gradient_functor<Mesh<T,3>>`, `diffusion_hho_common.hpp:291-313`. -/
def grad3 (p : Pt 3) : Fin 3 → ℝ :=
  ![π * cos (π * p 0) * sin (π * p 1) * sin (π * p 2), π * sin (π * p 0) * cos (π * p 1) * sin (π * p 2),
    π * sin (π * p 0) * sin (π * p 1) * cos (π * p 2)]

/-- `rhs_functor<Mesh<T,1>>`, `diffusion_hho_common.hpp:59-81`; `dt` is the stored tensor. -/
def rhs1 (_dt : Fin 1 → Fin 1 → ℝ) (p : Pt 1) : ℝ := π * π * sin (π * p 0)

/-- `rhs_functor<Mesh<T,2>>`, `diffusion_hho_common.hpp:83-131`. -/
def rhs2 (dt : Fin 2 → Fin 2 → ℝ) (p : Pt 2) : ℝ :=
  -π * π * ((dt 0 1 + dt 1 0) * cos (π * p 0) * cos (π * p 1) - (dt 0 0 + dt 1 1) * sin (π * p 0) * sin (π * p 1))

/-- `rhs_functor<Mesh<T,3>>`, `diffusion_hho_common.hpp:133-157`. -/
def rhs3 (_dt : Fin 3 → Fin 3 → ℝ) (p : Pt 3) : ℝ := 3 * π * π * sin (π * p 0) * sin (π * p 1) * sin (π * p 2)

/-- `diffusion_tensor<Mesh<T,2>>`, `apps/diffusion/src/variable_diffusion_hho.cpp:144-161`. -/
def varTens2 : Fin 2 → Fin 2 → ℝ := ![![1, 1 / 2], ![1 / 2, 1]]

/-- `diffusion_tensor<Mesh<T,3>>`, `variable_diffusion_hho.cpp:163-182`. -/
def varTens3 : Fin 3 → Fin 3 → ℝ := ![![1, 1 / 2, 0], ![1 / 2, 1, 2 / 5], ![0, 2 / 5, 1]]

/-- `rhs_functor<Mesh<T,2>>`, `variable_diffusion_hho.cpp:45-63`. -/
def varRhs2 (p : Pt 2) : ℝ := π * π * (2 * sin (π * p 0) * sin (π * p 1) - cos (π * p 0) * cos (π * p 1))

/-- `rhs_functor<Mesh<T,3>>`, `variable_diffusion_hho.cpp:64-86`. -/
def varRhs3 (p : Pt 3) : ℝ :=
  π * π * (3 * sin (π * p 0) * sin (π * p 1) * sin (π * p 2) -
    2 * (1 / 2 * cos (π * p 0) * cos (π * p 1) * sin (π * p 2) + 2 / 5 * sin (π * p 0) * cos (π * p 1) * cos (π * p 2)))

/-- `rhs_functor<Mesh<T,2>>`, `apps/helmholtz/helmholtz.cpp:20-33`. -/
def helmRhs2 (p : Pt 2) : ℝ := π * π * sin (π * p 0) * sin (π * p 1)

/-- `rhs_functor<Mesh<T,3>>`, `helmholtz.cpp:35-49`. -/
def helmRhs3 (p : Pt 3) : ℝ := 2 * π * π * sin (π * p 0) * sin (π * p 1) * sin (π * p 2)

/-- `omega`, `helmholtz.cpp:145`. -/
def helmOmega : ℝ := π

/-- `fun_grad` in two dimensions, `apps/diskpp_tutorials/diskpp_tutorial_2.cpp:62-75`. -/
def tutGrad2 (p : Pt 2) : Fin 2 → ℝ := ![cos (π * p 0) * sin (π * p 1), sin (π * p 0) * cos (π * p 1)]

/-- `fun_grad` in three dimensions, `diskpp_tutorial_2.cpp:85-100`. -/
def tutGrad3 (p : Pt 3) : Fin 3 → ℝ :=
  ![cos (π * p 0) * sin (π * p 1) * sin (π * p 2), sin (π * p 0) * cos (π * p 1) * sin (π * p 2),
    sin (π * p 0) * sin (π * p 1) * cos (π * p 2)]

/-- `solution_functor`, `apps/contact/src/diffusion_nitsche_solver.hpp:66-82`. -/
def nitSol (p : Pt 2) : ℝ := cos (π * p 0) * cos (π * p 1)

/-- `rhs_functor`, `diffusion_nitsche_solver.hpp:35-53`. -/
def nitRhs (p : Pt 2) : ℝ := 2 * π * π * cos (π * p 0) * cos (π * p 1)

/-- `neu_left`, `diffusion_nitsche_solver.hpp:448-457`. -/
def nitLeft (p : Pt 2) : ℝ := π * sin (π * p 0) * cos (π * p 1)

/-- `neu_right`, `diffusion_nitsche_solver.hpp:459-468`. -/
def nitRight (p : Pt 2) : ℝ := -π * sin (π * p 0) * cos (π * p 1)

/-- `u1` in two dimensions, `apps/transmission/linear_transmission.cpp:386-390`; `aa` is the constant of line 387. -/
def traU (aa : ℝ) (p : Pt 2) : ℝ := p 0 * p 1 * (p 0 ^ 2 + p 1 ^ 2)⁻¹ - aa

/-- `grad_u1` in two dimensions, `linear_transmission.cpp:399-406`. -/
def traG (p : Pt 2) : Fin 2 → ℝ :=
  ![p 1 * (p 1 ^ 2 - p 0 ^ 2) * ((p 0 ^ 2 + p 1 ^ 2) ^ 2)⁻¹, p 0 * (p 0 ^ 2 - p 1 ^ 2) * ((p 0 ^ 2 + p 1 ^ 2) ^ 2)⁻¹]

/-- `f1` in two dimensions, `linear_transmission.cpp:419-422`. -/
def traF (p : Pt 2) : ℝ := 4 * p 0 * p 1 * ((p 0 ^ 2 + p 1 ^ 2) ^ 2)⁻¹

/-- `u1` in three dimensions, `linear_transmission.cpp:442-444`. -/
def traU1 (p : Pt 3) : ℝ := cos (π * p 0) * cos (π * p 1) * cos (π * p 2)

/-- `u2` in three dimensions, `linear_transmission.cpp:446-448`. -/
def traU2 (p : Pt 3) : ℝ := sin (π * p 0) * sin (π * p 1) * (p 2 - 3 / 2)

/-- `grad_u1`, `linear_transmission.cpp:450-456`. -/
def traG1 (p : Pt 3) : Fin 3 → ℝ :=
  ![-π * sin (π * p 0) * cos (π * p 1) * cos (π * p 2), -π * cos (π * p 0) * sin (π * p 1) * cos (π * p 2),
    -π * cos (π * p 0) * cos (π * p 1) * sin (π * p 2)]

/-- `grad_u2`, `linear_transmission.cpp:458-464`. -/
def traG2 (p : Pt 3) : Fin 3 → ℝ :=
  ![π * cos (π * p 0) * sin (π * p 1) * (p 2 - 3 / 2), π * sin (π * p 0) * cos (π * p 1) * (p 2 - 3 / 2),
    sin (π * p 0) * sin (π * p 1)]

/-- `f1`, `linear_transmission.cpp:466-468`. -/
def traF1 (p : Pt 3) : ℝ := 3 * π * π * cos (π * p 0) * cos (π * p 1) * cos (π * p 2)

/-- `f2`, `linear_transmission.cpp:470-472`. -/
def traF2 (p : Pt 3) : ℝ := 2 * π * π * sin (π * p 0) * sin (π * p 1) * (p 2 - 3 / 2)

/-- `solution`, `apps/unsteady_laplacian/src/unsteady_laplacian.cpp:97` and `heat_dG.cpp:355`; `K` is the frequency. -/
def heatSol (K : ℝ) (t : ℝ) (p : Pt 2) : ℝ := exp (-2 * π * π * K * K * t) * sin (π * K * p 0) * sin (π * K * p 1)

/-- `init_fun`, `unsteady_laplacian.cpp:98-100`. -/
def heatInit (K : ℝ) (p : Pt 2) : ℝ := sin (π * K * p 0) * sin (π * K * p 1)

/-! ### The obstacle problem -/

/-- `r0`, `apps/obstacle/obstacle.cpp:90`. -/
def obsR0 : ℝ := 7 / 10

/-- `r` in two dimensions, `obstacle.cpp:91`. -/
def obsR2 (p : Pt 2) : ℝ := sqrt (p 0 * p 0 + p 1 * p 1)

/-- `r` in three dimensions, `obstacle.cpp:110`. -/
def obsR3 (p : Pt 3) : ℝ := sqrt (p 0 * p 0 + p 1 * p 1 + p 2 * p 2)

open Classical in
/-- `rhs_functor<Mesh<T,2>>`, `obstacle.cpp:88-97`. -/
def obsRhs2 (p : Pt 2) : ℝ :=
  if obsR2 p > obsR0 then -16 * obsR2 p * obsR2 p + 8 * obsR0 * obsR0
  else -8 * (obsR0 * obsR0 * (obsR0 * obsR0 + 1)) + 8 * obsR0 * obsR0 * obsR2 p * obsR2 p

open Classical in
/-- `rhs_functor<Mesh<T,3>>`, `obstacle.cpp:107-116`. -/
def obsRhs3 (p : Pt 3) : ℝ :=
  if obsR3 p > obsR0 then -4 * (2 * obsR3 p * obsR3 p + 3 * (obsR3 p * obsR3 p - obsR0 * obsR0))
  else -8 * obsR0 * obsR0 * (1 - obsR3 p * obsR3 p + obsR0 * obsR0)

/-- `sol_functor<Mesh<T,2>>`, `obstacle.cpp:136-143`. -/
def obsSol2 (p : Pt 2) : ℝ :=
  max (obsR2 p * obsR2 p - obsR0 * obsR0) 0 * max (obsR2 p * obsR2 p - obsR0 * obsR0) 0

/-- `sol_functor<Mesh<T,3>>`, `obstacle.cpp:153-160`. -/
def obsSol3 (p : Pt 3) : ℝ :=
  max (obsR3 p * obsR3 p - obsR0 * obsR0) 0 * max (obsR3 p * obsR3 p - obsR0 * obsR0) 0

/-! ### Elasticity -/

/-- `fx` of `load`, `apps/linear_elasticity/src/linear_elasticity_test.cpp:85-90`. -/
def elaFx (lam mu x y : ℝ) : ℝ :=
  lam * cos (π * (x + y)) -
    2 * mu * ((4 * lam + 4) * sin (2 * π * y) * cos (2 * π * x) + sin (π * x) * sin (π * y)) +
    2 * mu * (2 * lam * sin (2 * π * y) + 2 * sin (2 * π * y) + 1 / 2 * cos (π * (x + y)))

/-- `fy` of `load`, `linear_elasticity_test.cpp:91-96`. -/
def elaFy (lam mu x y : ℝ) : ℝ :=
  lam * cos (π * (x + y)) +
    2 * mu * ((4 * lam + 4) * sin (2 * π * x) * cos (2 * π * y) - sin (π * x) * sin (π * y)) -
    2 * mu * (2 * lam * sin (2 * π * x) + 2 * sin (2 * π * x) - 1 / 2 * cos (π * (x + y)))

/-- `load` in two dimensions, `linear_elasticity_test.cpp:81-99`; `elasticity_test.cpp:73-92` and
`elastodynamic_test.cpp:72-91` of `apps/nonlinear_solid_mechanics/src` return the same for every `time`. -/
def elaLoad2 (lam mu : ℝ) (p : Pt 2) : Fin 2 → ℝ :=
  ![-π * π / (lam + 1) * elaFx lam mu (p 0) (p 1), -π * π / (lam + 1) * elaFy lam mu (p 0) (p 1)]

/-- `load` in three dimensions, `linear_elasticity_test.cpp:177-195`. -/
def elaLoad3 (lam mu : ℝ) (p : Pt 3) : Fin 3 → ℝ :=
  ![-π * π / (lam + 1) * elaFx lam mu (p 0) (p 1), -π * π / (lam + 1) * elaFy lam mu (p 0) (p 1),
    -π * π / (lam + 1) * 0]

/-- `fx` of `solution`, `linear_elasticity_test.cpp:102-103`. -/
def elaUx (lam x y : ℝ) : ℝ :=
  sin (2 * π * y) * (cos (2 * π * x) - 1) + 1 / (1 + lam) * sin (π * x) * sin (π * y)

/-- `fy` of `solution`, `linear_elasticity_test.cpp:104-105`. -/
def elaUy (lam x y : ℝ) : ℝ :=
  -sin (2 * π * x) * (cos (2 * π * y) - 1) + 1 / (1 + lam) * sin (π * x) * sin (π * y)

/-- `solution` in two dimensions, `linear_elasticity_test.cpp:101-108`; `displacement` of
`elastodynamic_test.cpp:93-102`. -/
def elaSol2 (lam : ℝ) (p : Pt 2) : Fin 2 → ℝ := ![elaUx lam (p 0) (p 1), elaUy lam (p 0) (p 1)]

/-- `velocity`, `elastodynamic_test.cpp:104-112`. -/
def dynVel2 (lam : ℝ) (p : Pt 2) : Fin 2 → ℝ := ![elaUx lam (p 0) (p 1), elaUy lam (p 0) (p 1)]

/-- `solution` in three dimensions, `linear_elasticity_test.cpp:197-204`. -/
def elaSol3 (lam : ℝ) (p : Pt 3) : Fin 3 → ℝ := ![elaUx lam (p 0) (p 1), elaUy lam (p 0) (p 1), 0]

/-- `g11`, `linear_elasticity_test.cpp:114-115`. -/
def elaG11 (lam x y : ℝ) : ℝ := -(2 * (lam + 1) * sin (2 * π * x) * sin (2 * π * y) - sin (π * y) * cos (π * x))

/-- `g12`, `linear_elasticity_test.cpp:116-117`. -/
def elaG12 (lam x y : ℝ) : ℝ := (2 * lam + 2) * (cos (2 * π * x) - 1) * cos (2 * π * y) + sin (π * x) * cos (π * y)

/-- `g21`, `linear_elasticity_test.cpp:119-120`. -/
def elaG21 (lam x y : ℝ) : ℝ := (-2 * lam + 2) * (cos (2 * π * y) - 1) * cos (2 * π * x) + sin (π * y) * cos (π * x)

/-- `g22`, `linear_elasticity_test.cpp:122-123`. -/
def elaG22 (lam x y : ℝ) : ℝ := 2 * (lam + 1) * sin (2 * π * x) * sin (2 * π * y) + sin (π * x) * cos (π * y)

/-- `2 * mu * gs + lambda * divu * Identity()` with `gs = 0.5 * (g + g.transpose())`, `divu = gs.trace()`,
`linear_elasticity_test.cpp:134-138`. -/
def hooke {d : Nat} (lam mu : ℝ) (g : Fin d → Fin d → ℝ) : Fin d → Fin d → ℝ :=
  fun i j => 2 * mu * (1 / 2 * (g i j + g j i)) + lam * (∑ k, 1 / 2 * (g k k + g k k)) * (if i = j then 1 else 0)

/-- `sigma` in two dimensions, `linear_elasticity_test.cpp:110-139`. -/
def elaSigma2 (lam mu : ℝ) (p : Pt 2) : Fin 2 → Fin 2 → ℝ :=
  hooke lam mu fun i j => (![![elaG11 lam (p 0) (p 1), elaG12 lam (p 0) (p 1)],
    ![elaG21 lam (p 0) (p 1), elaG22 lam (p 0) (p 1)]] i j) * (π / (lam + 1))

/-- `sigma` in three dimensions, `linear_elasticity_test.cpp:206-235`. -/
def elaSigma3 (lam mu : ℝ) (p : Pt 3) : Fin 3 → Fin 3 → ℝ :=
  hooke lam mu fun i j => (![![elaG11 lam (p 0) (p 1), elaG12 lam (p 0) (p 1), 0],
    ![elaG21 lam (p 0) (p 1), elaG22 lam (p 0) (p 1), 0], ![0, 0, 0]] i j) * (π / (lam + 1))

/-- `solution`, `apps/nonlinear_solid_mechanics/src/contact_test.cpp:207-215`; in three dimensions (`:297-305`) `y` is the
third coordinate and the second component is zero. -/
def conU (lam x y : ℝ) : ℝ × ℝ :=
  (x * exp (x * y) * (1 + 1 / (1 + lam)) / 6, y * exp (x * y) * (-1 + 1 / (1 + lam)) / 6)

/-- `load`, `contact_test.cpp:192-205` and `:282-295`. -/
def conF (lam mu time x y : ℝ) : ℝ × ℝ :=
  let coeff := 1 / 2 * lam * y * y - x * x * (1 / 2 * lam + 1)
  let fx := -mu * (lam * y + x * coeff) + y * (lam + mu * (lam + 2)) * (x * y + 2)
  let fy := -lam * x * (mu - 1) * (x * y + 2) + mu * (2 * x * (1 / 2 * lam + 1) - y * coeff)
  (-time * fx * exp (x * y) / (3 * (1 + lam)), -time * fy * exp (x * y) / (3 * (1 + lam)))

/-- `s`, `contact_test.cpp:217-225` and `:307-314`. -/
def conS (lam mu x : ℝ) : ℝ := mu * x * x * (1 / 2 * lam + 1) / (3 * lam + 3)

def conSol2 (lam : ℝ) (p : Pt 2) : Fin 2 → ℝ := ![(conU lam (p 0) (p 1)).1, (conU lam (p 0) (p 1)).2]
def conSol3 (lam : ℝ) (p : Pt 3) : Fin 3 → ℝ := ![(conU lam (p 0) (p 2)).1, 0, (conU lam (p 0) (p 2)).2]
def conLoad2 (lam mu time : ℝ) (p : Pt 2) : Fin 2 → ℝ :=
  ![(conF lam mu time (p 0) (p 1)).1, (conF lam mu time (p 0) (p 1)).2]
def conLoad3 (lam mu time : ℝ) (p : Pt 3) : Fin 3 → ℝ :=
  ![(conF lam mu time (p 0) (p 2)).1, 0, (conF lam mu time (p 0) (p 2)).2]

/-- `alpha` and `gamma`, `hyperelasticity_test.cpp:71,140-141`. -/
def hypAlpha : ℝ := 1 / 10

/-- `load`, `apps/nonlinear_solid_mechanics/src/hyperelasticity_test.cpp:74-83`. -/
def hypLoad2 (mu : ℝ) (p : Pt 2) : Fin 2 → ℝ := ![0, 8 * mu * hypAlpha * π * π * cos (2 * π * p 0)]

/-- `solution`, `hyperelasticity_test.cpp:85-92`. -/
def hypSol2 (lam : ℝ) (p : Pt 2) : Fin 2 → ℝ :=
  ![(1 / lam + hypAlpha) * p 0,
    (1 / lam - hypAlpha / (1 + hypAlpha)) * p 1 + 2 * hypAlpha * (cos (2 * π * p 0) - 1)]

/-- `load`, `hyperelasticity_test.cpp:143-152`; `gamma` and `alpha` are both `0.1`. -/
def hypLoad3 (mu : ℝ) (p : Pt 3) : Fin 3 → ℝ :=
  ![mu * π * π * (hypAlpha * sin (π * p 1)), mu * π * π * 0, mu * π * π * (hypAlpha * sin (π * p 0))]

/-- `solution`, `hyperelasticity_test.cpp:154-163`. -/
def hypSol3 (lam : ℝ) (p : Pt 3) : Fin 3 → ℝ :=
  ![(1 / lam + hypAlpha) * p 0 + hypAlpha * sin (π * p 1),
    -(1 / lam + (hypAlpha + hypAlpha + hypAlpha * hypAlpha) / (1 + hypAlpha + hypAlpha + hypAlpha * hypAlpha)) * p 1,
    (1 / lam + hypAlpha) * p 2 + hypAlpha * sin (π * p 0)]

/-! ### Vector Laplacian, Stokes and Maxwell -/

/-- `load` in two dimensions, `apps/vector_laplacian/src/vector_laplacian_test.cpp:81-86`. -/
def vlapLoad2 (lam : ℝ) (p : Pt 2) : Fin 2 → ℝ :=
  ![2 * lam * π * π * sin (π * p 0) * sin (π * p 1), 2 * lam * π * π * cos (π * p 0) * cos (π * p 1)]

/-- `solution`, `vector_laplacian_test.cpp:88-93`. -/
def vlapSol2 (p : Pt 2) : Fin 2 → ℝ := ![sin (π * p 0) * sin (π * p 1), cos (π * p 0) * cos (π * p 1)]

/-- `gradient`, `vector_laplacian_test.cpp:95-103`. -/
def vlapGrad2 (p : Pt 2) : Fin 2 → Fin 2 → ℝ := fun i j =>
  π * (![![cos (π * p 0) * sin (π * p 1), sin (π * p 0) * cos (π * p 1)],
    ![-sin (π * p 0) * cos (π * p 1), -cos (π * p 0) * sin (π * p 1)]] i j)

/-- `load` in three dimensions, `vector_laplacian_test.cpp:137-146`. -/
def vlapLoad3 (lam : ℝ) (p : Pt 3) : Fin 3 → ℝ :=
  ![2 * lam * π * π * cos (π * p 0) * sin (π * p 1), 2 * lam * π * π * cos (π * p 1) * sin (π * p 2),
    2 * lam * π * π * cos (π * p 2) * sin (π * p 0)]

/-- `solution`, `vector_laplacian_test.cpp:148-154`. -/
def vlapSol3 (p : Pt 3) : Fin 3 → ℝ :=
  ![cos (π * p 0) * sin (π * p 1), cos (π * p 1) * sin (π * p 2), cos (π * p 2) * sin (π * p 0)]

/-- `gradient`, `vector_laplacian_test.cpp:156-166`. -/
def vlapGrad3 (p : Pt 3) : Fin 3 → Fin 3 → ℝ := fun i j =>
  π * (![![-sin (π * p 0) * sin (π * p 1), cos (π * p 0) * cos (π * p 1), 0],
    ![0, -sin (π * p 1) * sin (π * p 2), cos (π * p 1) * cos (π * p 2)],
    ![cos (π * p 2) * cos (π * p 0), 0, -sin (π * p 2) * sin (π * p 0)]] i j)

def stkA (t : ℝ) : ℝ := t * t * (t * t - 2 * t + 1)
def stkB (t : ℝ) : ℝ := t * (4 * (t * t) - 6 * t + 2)
def stkC (t : ℝ) : ℝ := 12 * (t * t) - 12 * t + 2
def stkD (t : ℝ) : ℝ := 24 * t - 12

/-- `test_case_0::rhs`, `apps/stokes/stokes.cpp:121-144`; `ax`, `ay` are `stkA`, and so on. -/
def stk0Rhs (p : Pt 2) : Fin 2 → ℝ :=
  ![-stkC (p 0) * stkB (p 1) - stkA (p 0) * stkD (p 1) + 5 * (p 0 * p 0) * (p 0 * p 0),
    stkC (p 1) * stkB (p 0) + stkA (p 1) * stkD (p 0) + 5 * (p 1 * p 1) * (p 1 * p 1)]

/-- `test_case_0::psol`, `stokes.cpp:146-149`. -/
def stk0P (p : Pt 2) : ℝ := p 0 ^ 5 + p 1 ^ 5 - 1 / 3

/-- `test_case_0::vsol`, `stokes.cpp:151-166`; also `apps/diffusion/src/diffusion_low_grad_vector.cpp:71-98`. -/
def stk0V (p : Pt 2) : Fin 2 → ℝ := ![stkA (p 0) * stkB (p 1), -stkA (p 1) * stkB (p 0)]

/-- `rhs_functor`, `diffusion_low_grad_vector.cpp:27-55`. -/
def lowRhs (p : Pt 2) : Fin 2 → ℝ :=
  ![-stkC (p 0) * stkB (p 1) - stkA (p 0) * stkD (p 1), stkC (p 1) * stkB (p 0) + stkA (p 1) * stkD (p 0)]

/-- `test_case_1::rhs`, `stokes.cpp:175-196`. -/
def stk1Rhs (p : Pt 2) : Fin 2 → ℝ :=
  let ax := sin (2 * π * p 0) * cos (2 * π * p 0)
  let ay := sin (2 * π * p 1) * cos (2 * π * p 1)
  let sinsinx := sin (2 * π * p 0) ^ 2
  let sinsiny := sin (2 * π * p 1) ^ 2
  let d2xu := 4 * π * π * (1 - 2 * sinsinx) * ay
  let d2yu := -8 * π * π * sinsinx * ay
  let d2yv := -4 * π * π * (1 - 2 * sinsiny) * ax
  let d2xv := 8 * π * π * sinsiny * ax
  ![-d2xu - d2yu, -d2xv - d2yv]

/-- `test_case_1::psol`, `stokes.cpp:198-201`. -/
def stk1P (_p : Pt 2) : ℝ := 0

/-- `test_case_1::vsol`, `stokes.cpp:203-220`. -/
def stk1V (p : Pt 2) : Fin 2 → ℝ :=
  ![1 / 2 * sin (2 * π * p 0) ^ 2 * sin (2 * π * p 1) * cos (2 * π * p 1),
    -1 / 2 * sin (2 * π * p 1) ^ 2 * sin (2 * π * p 0) * cos (2 * π * p 0)]

/-- `rhs_fun`, `apps/maxwell/src/maxwell.cpp:725-734`. -/
def mxRhs (omega : ℝ) (p : Pt 3) : Fin 3 → ℝ :=
  ![0, 0, -p 1 * sin (π * p 1) * (2 * π * cos (π * p 0) - p 0 * π * π * sin (π * p 0)) -
    p 0 * sin (π * p 0) * (2 * π * cos (π * p 1) - p 1 * π * π * sin (π * p 1)) -
    omega * omega * p 0 * p 1 * sin (π * p 0) * sin (π * p 1)]

/-- `sol_fun`, `maxwell.cpp:736-742`. -/
def mxSol (p : Pt 3) : Fin 3 → ℝ := ![0, 0, p 0 * p 1 * sin (π * p 0) * sin (π * p 1)]

/-- `curl_sol_fun`, `maxwell.cpp:744-750`. -/
def mxCurl (p : Pt 3) : Fin 3 → ℝ :=
  ![p 0 * sin (π * p 0) * (sin (π * p 1) + π * p 1 * cos (π * p 1)),
    -p 1 * sin (π * p 1) * (sin (π * p 0) + π * p 0 * cos (π * p 0)), 0]

/-- `rhs_fun` in two dimensions, `maxwell.cpp:564-566`. -/
def mx2Rhs (omega : ℝ) (p : Pt 2) : ℝ := omega * omega * sin (omega * p 0) * sin (omega * p 1)

/-- `sol_fun` in two dimensions, `maxwell.cpp:575-577`. -/
def mx2Sol (omega : ℝ) (p : Pt 2) : ℝ := sin (omega * p 0) * sin (omega * p 1)

/-- `curl_sol_fun` in two dimensions, `maxwell.cpp:568-573`. -/
def mx2Curl (omega : ℝ) (p : Pt 2) : Fin 2 → ℝ :=
  ![omega * sin (omega * p 0) * cos (omega * p 1), -omega * cos (omega * p 0) * sin (omega * p 1)]

end Verif.TestData
end
