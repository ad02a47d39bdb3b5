import Verif.Model.Simplex
import Mathlib.LinearAlgebra.Matrix.Notation
/-!
First-order conforming elements on triangles, `cfem/cfem.hpp`. Coordinates are exact reals; a division by zero
(degenerate triangle) is `none`. `points(msh, cl)` are the three vertices in the order stored in the mesh.
-/
namespace Verif.Cfem
open Verif.Spec Matrix

/-- The denominator `m`, `cfem.hpp:41` and `64`. -/
def den (p0 p1 p2 : P2 ℝ) : ℝ := p1.x * p2.y - p1.y * p2.x - p0.x * (p2.y - p1.y) + p0.y * (p2.x - p1.x)

/-- `eval_basis`, `cfem.hpp:29-48`. -/
noncomputable def basis (p0 p1 p2 pt : P2 ℝ) : Option (Fin 3 → ℝ) :=
  let m := den p0 p1 p2
  if m = 0 then none
  else some ![(p1.x * p2.y - p1.y * p2.x - pt.x * (p2.y - p1.y) + pt.y * (p2.x - p1.x)) / m,
    (p2.x * p0.y - p2.y * p0.x + pt.x * (p2.y - p0.y) - pt.y * (p2.x - p0.x)) / m,
    (p0.x * p1.y - p0.y * p1.x - pt.x * (p1.y - p0.y) + pt.y * (p1.x - p0.x)) / m]

/-- `eval_basis_grad`, `cfem.hpp:50-73`. -/
noncomputable def grad (p0 p1 p2 : P2 ℝ) : Option (Matrix (Fin 3) (Fin 2) ℝ) :=
  let m := den p0 p1 p2
  if m = 0 then none
  else some !![(p1.y - p2.y) / m, (p2.x - p1.x) / m; (p2.y - p0.y) / m, (p0.x - p2.x) / m;
    (p0.y - p1.y) / m, (p1.x - p0.x) / m]

/-- `(a + b)/2`. -/
noncomputable def mid (a b : P2 ℝ) : P2 ℝ := ⟨(a.x + b.x) / 2, (a.y + b.y) / 2⟩

/-- `mass_matrix`, `cfem.hpp:75-100`. -/
noncomputable def mass (p0 p1 p2 : P2 ℝ) : Option (Matrix (Fin 3) (Fin 3) ℝ) :=
  (Simplex.measure2 p0 p1 p2 false).bind fun meas =>
  (basis p0 p1 p2 (mid p0 p1)).bind fun a => (basis p0 p1 p2 (mid p1 p2)).bind fun b =>
  (basis p0 p1 p2 (mid p0 p2)).bind fun c =>
    some ((meas / 3) • (vecMulVec a a + vecMulVec b b + vecMulVec c c))

/-- `stiffness_matrix`, `cfem.hpp:102-115`. -/
noncomputable def stiffness (p0 p1 p2 : P2 ℝ) : Option (Matrix (Fin 3) (Fin 3) ℝ) :=
  (Simplex.measure2 p0 p1 p2 false).bind fun meas => (grad p0 p1 p2).bind fun d => some ((meas • d) * dᵀ)

/-- `stiffness_matrix` with a tensor, `cfem.hpp:117-132`. -/
noncomputable def stiffnessK (p0 p1 p2 : P2 ℝ) (kappa : Matrix (Fin 2) (Fin 2) ℝ) : Option (Matrix (Fin 3) (Fin 3) ℝ) :=
  (Simplex.measure2 p0 p1 p2 false).bind fun meas => (grad p0 p1 p2).bind fun d =>
    some ((meas • d) * (kappa * dᵀ))

/-- `make_rhs`, `cfem.hpp:134-151`. -/
noncomputable def rhs (p0 p1 p2 : P2 ℝ) (f : P2 ℝ → ℝ) : Option (Fin 3 → ℝ) :=
  (Simplex.measure2 p0 p1 p2 false).bind fun meas =>
    some fun _ => f (Simplex.bary2 p0 p1 p2) * meas * 1 / 3

end Verif.Cfem
