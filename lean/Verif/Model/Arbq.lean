import Verif.Model.ArbqTables
import Verif.Model.Outcome
import Verif.Model.Simplex
/-!
The tetrahedron rules of Xiao and Gimbutas: `tetrahedron_arbq` and `tetrahedron_arbq_size`
(`libdiskpp/contrib/jburkardt/src/tetrahedron_arbq_rule.cpp`) and the wrapper `arbq`
(`quadratures/bits/quad_raw_tetra.hpp`).

As for the other rules, tables of stored numbers are arguments and arithmetic after the lookup is exact. `exit(1)` is
an exception.
-/
namespace Verif.Quad
open Verif.Spec

/-- A rule: three coordinates and a weight. -/
abbrev TetRule := List ((ℝ × ℝ × ℝ) × ℝ)

/-- A rule as written in the source. -/
noncomputable def literalTet (t : List ((Int × Int × Int) × Nat)) : TetRule :=
  t.map fun e => (((e.1.1 : ℝ) / 10 ^ 33, (e.1.2.1 : ℝ) / 10 ^ 33, (e.1.2.2 : ℝ) / 10 ^ 33), (e.2 : ℝ) / 10 ^ 33)

/-- The entries of `arbq_to_ref_A` above the diagonal, `arbq_to_ref_b` and `inv_arbq_vol`, `quad_raw_tetra.hpp:36-44`.
Products with the zeros of the matrix drop out. -/
structure ArbqConsts where
  a00 : ℝ
  a01 : ℝ
  a02 : ℝ
  a11 : ℝ
  a12 : ℝ
  a22 : ℝ
  b0 : ℝ
  b1 : ℝ
  b2 : ℝ
  iv : ℝ

/-- All constants. -/
def ArbqConsts.toList (c : ArbqConsts) : List ℝ := [c.a00, c.a01, c.a02, c.a11, c.a12, c.a22, c.b0, c.b1, c.b2, c.iv]

/-- The constants as written in the source. -/
noncomputable def literalConsts : ArbqConsts :=
  ⟨0.500000000000000, -0.288675134594813, -0.204124145231932, 0.577350269189626, -0.204124145231932, 0.612372435695795,
    -1.000000000000000, -0.577350269189626, -0.408248290463863, 1.060660171779821⟩

/-- `qpr`, `quad_raw_tetra.hpp:73-79`. -/
def ArbqConsts.toRef (c : ArbqConsts) (x : ℝ × ℝ × ℝ) : ℝ × ℝ × ℝ :=
  (c.a00 * (x.1 - c.b0) + c.a01 * (x.2.1 - c.b1) + c.a02 * (x.2.2 - c.b2),
    c.a11 * (x.2.1 - c.b1) + c.a12 * (x.2.2 - c.b2), c.a22 * (x.2.2 - c.b2))

/-- `tetrahedron_arbq_size`, `tetrahedron_arbq_rule.cpp:3764-3781`. -/
def arbqSize (degree : ℤ) : Outcome ℕ :=
  if degree < 1 ∨ 15 < degree then .throws "TETRAHEDRON_ARBQ_SIZE - Fatal error!"
  else .ok (arbqSizes.getD (degree - 1).toNat 0)

/-- `tetrahedron_arbq`, `tetrahedron_arbq_rule.cpp:3507-3584`: the first `n` points of the rule, weights scaled to the
volume of the equilateral tetrahedron. -/
noncomputable def tetrahedronArbq (tab : List TetRule) (degree : ℤ) (n : ℕ) : Outcome TetRule :=
  if degree < 1 ∨ 15 < degree then .throws "TETRAHEDRON_ARBQ - Fatal error"
  else
    let r := tab.getD (degree - 1).toNat []
    if r.length < n then .ub "read past the end of a table"
    else
      let r := r.take n
      .ok (r.map fun e => (e.1, e.2 * (Real.sqrt 8 / 3) / (r.map Prod.snd).sum))

/-- Conversion of `size_t` to `int`. -/
def toInt32 (d : ℕ) : ℤ := if d % 2 ^ 32 < 2 ^ 31 then (d % 2 ^ 32 : ℕ) else (d % 2 ^ 32 : ℕ) - 2 ^ 32

/-- `arbq`, `quad_raw_tetra.hpp:48-86`; `default_tetrahedron_quadrature`, `:130-134`. -/
noncomputable def arbq (tab : List TetRule) (c : ArbqConsts) (degree : ℕ) (p0 p1 p2 p3 : P3 ℝ) :
    Outcome (List (P3 ℝ × ℝ)) :=
  let rule := if toInt32 degree = 0 then 1 else toInt32 degree
  (arbqSize rule).bind fun n => (tetrahedronArbq tab rule n).bind fun l =>
    .ok (l.map fun e =>
      let q := c.toRef e.1
      let v0 := Simplex.sub p1 p0
      let v1 := Simplex.sub p2 p0
      let v2 := Simplex.sub p3 p0
      ((⟨p0.x + q.1 * v0.x + q.2.1 * v1.x + q.2.2 * v2.x, p0.y + q.1 * v0.y + q.2.1 * v1.y + q.2.2 * v2.y,
        p0.z + q.1 * v0.z + q.2.1 * v1.z + q.2.2 * v2.z⟩ : P3 ℝ), e.2 * c.iv * Simplex.volume p0 p1 p2 p3))

end Verif.Quad
