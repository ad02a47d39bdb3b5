import Verif.Model.QuadTables
import Verif.Model.Outcome
import Verif.Spec.Points
import Mathlib.Data.Real.Sqrt
import Mathlib.Algebra.BigOperators.Group.Finset.Basic
/-!
One-dimensional Gauss-Legendre and Gauss-Lobatto rules and the tensorised rules:
`quadratures/bits/quad_raw_gauss.hpp`, `quadratures/bits/quad_raw_gauss_lobatto.hpp`.

The drivers take the table as an argument, because the numbers the program uses are the doubles nearest to the
decimal literals: theorems are about every table close to the literals. Arithmetic after the table lookup is
exact. `num_rules` is computed with `sizeof` from the table, as in the source.
-/
namespace Verif.Quad
open Verif.Spec

/-- A decimal literal of the tables, in units of `10 ^ (-16)`. -/
noncomputable def dec16 (z : Int) : ℝ := (z : ℝ) / 10 ^ 16

/-- The rules as written in the source. -/
noncomputable def literal (t : List (Int × Int)) : List (ℝ × ℝ) := t.map fun e => (dec16 e.1, dec16 e.2)

/-- `gauss_legendre(degree, a, b)` for scalars, `quad_raw_gauss.hpp:322-343`. -/
noncomputable def gaussLegendre (tab : List (List (ℝ × ℝ))) (degree : Nat) (a b : ℝ) :
    Outcome (List (ℝ × ℝ)) :=
  let numRules := tab.length - 1
  let ruleNum := degree / 2
  if ruleNum ≥ numRules then .throws "gauss_legendre: order too high"
  else .ok ((tab.getD ruleNum []).map fun q =>
    (1 / 2 * (a + b) + 1 / 2 * (b - a) * q.1, 1 / 2 * (b - a) * q.2))

/-- `distance(a, b)`. -/
noncomputable def dist {n : Nat} (a b : Fin n → ℝ) : ℝ := √(∑ i, (a i - b i) ^ 2)

/-- `gauss_legendre(degree, a, b)` for points, `quad_raw_gauss.hpp:345-366`. -/
noncomputable def gaussLegendreP {n : Nat} (tab : List (List (ℝ × ℝ))) (degree : Nat) (a b : Fin n → ℝ) :
    Outcome (List ((Fin n → ℝ) × ℝ)) :=
  let numRules := tab.length - 1
  let ruleNum := degree / 2
  if ruleNum ≥ numRules then .throws "gauss_legendre: order too high"
  else .ok ((tab.getD ruleNum []).map fun q =>
    (fun i => 1 / 2 * (a i + b i) + 1 / 2 * (b i - a i) * q.1, 1 / 2 * dist a b * q.2))

/-- The rule number of `gauss_lobatto`, `quad_raw_gauss_lobatto.hpp:333-335`. -/
def lobattoNum (degree : Nat) : Nat :=
  let degree := if degree % 2 = 0 then degree + 1 else degree
  (degree + 3) / 2 - 1

/-- `gauss_lobatto(degree, a, b)` for scalars, `quad_raw_gauss_lobatto.hpp:328-350`. -/
noncomputable def gaussLobatto (tab : List (List (ℝ × ℝ))) (degree : Nat) (a b : ℝ) :
    Outcome (List (ℝ × ℝ)) :=
  if lobattoNum degree ≥ tab.length then .throws "gauss_legendre: order too high"
  else .ok ((tab.getD (lobattoNum degree) []).map fun q =>
    (1 / 2 * (a + b) + 1 / 2 * (b - a) * q.1, 1 / 2 * (b - a) * q.2))

/-- `gauss_lobatto(degree, a, b)` for points, `quad_raw_gauss_lobatto.hpp:352-376`. -/
noncomputable def gaussLobattoP {n : Nat} (tab : List (List (ℝ × ℝ))) (degree : Nat) (a b : Fin n → ℝ) :
    Outcome (List ((Fin n → ℝ) × ℝ)) :=
  if lobattoNum degree ≥ tab.length then .throws "gauss_legendre: order too high"
  else .ok ((tab.getD (lobattoNum degree) []).map fun q =>
    (fun i => 1 / 2 * (a i + b i) + 1 / 2 * (b i - a i) * q.1, 1 / 2 * dist a b * q.2))

/-- The points of the square `[-1, 1]²`, `quad_raw_gauss.hpp:387-397`: the second coordinate in the outer
loop. -/
def square (r : List (ℝ × ℝ)) : List ((ℝ × ℝ) × ℝ) :=
  r.flatMap fun qy => r.map fun qx => ((qx.1, qy.1), qx.2 * qy.2)

/-- The lambda `X`, `quad_raw_gauss.hpp:400-404`; `Y` is the same with the other coordinates. -/
noncomputable def bil (c0 c1 c2 c3 xi eta : ℝ) : ℝ :=
  1 / 4 * c0 * (1 - xi) * (1 - eta) + 1 / 4 * c1 * (1 + xi) * (1 - eta) +
  1 / 4 * c2 * (1 + xi) * (1 + eta) + 1 / 4 * c3 * (1 - xi) * (1 + eta)

/-- The determinant inside the lambda `J`, `quad_raw_gauss.hpp:412-421`. -/
noncomputable def jac (p0 p1 p2 p3 : P2 ℝ) (xi eta : ℝ) : ℝ :=
  let j11 := 1 / 4 * ((p1.x - p0.x) * (1 - eta) + (p2.x - p3.x) * (1 + eta))
  let j12 := 1 / 4 * ((p1.y - p0.y) * (1 - eta) + (p2.y - p3.y) * (1 + eta))
  let j21 := 1 / 4 * ((p3.x - p0.x) * (1 - xi) + (p2.x - p1.x) * (1 + xi))
  let j22 := 1 / 4 * ((p3.y - p0.y) * (1 - xi) + (p2.y - p1.y) * (1 + xi))
  j11 * j22 - j12 * j21

/-- The bilinear map of the reference square on the quadrilateral. -/
noncomputable def bilMap (p0 p1 p2 p3 : P2 ℝ) (z : ℝ × ℝ) : P2 ℝ :=
  ⟨bil p0.x p1.x p2.x p3.x z.1 z.2, bil p0.y p1.y p2.y p3.y z.1 z.2⟩

/-- 2D `tensorized_gauss_legendre`, `quad_raw_gauss.hpp:368-438`. -/
noncomputable def tensor2 (tab : List (List (ℝ × ℝ))) (degree : Nat) (p0 p1 p2 p3 : P2 ℝ) :
    Outcome (List (P2 ℝ × ℝ)) :=
  let numRules := tab.length - 1
  let ruleNum := degree / 2
  if ruleNum ≥ numRules then .throws "tensorized_gauss_legendre: order too high"
  else .ok ((square (tab.getD ruleNum [])).map fun q =>
    (bilMap p0 p1 p2 p3 q.1, q.2 * |jac p0 p1 p2 p3 q.1.1 q.1.2|))

end Verif.Quad
