import Verif.Model.TriTables
import Verif.Model.Gauss
import Verif.Model.Polygon
import Verif.Model.Simplex
/-!
Triangle rules and the rule of a 2D cell: `quadratures/bits/quad_raw_triangle.hpp`,
`quadratures/bits/quad_phys_generic.hpp`.

As in `Verif.Model.Gauss`, tables are arguments and arithmetic after the lookup is exact.
-/
namespace Verif.Quad
open Verif.Spec

/-- A triangle rule: two coordinates and a weight. -/
abbrev TriRule := List ((ℝ × ℝ) × ℝ)

/-- A decimal literal of the triangle tables, in units of `10 ^ (-21)`. -/
noncomputable def dec21 (z : Nat) : ℝ := (z : ℝ) / 10 ^ 21

/-- The rules as written in the source. -/
noncomputable def literalTri (t : List ((Nat × Nat) × Nat)) : TriRule :=
  t.map fun e => ((dec21 e.1.1, dec21 e.1.2), dec21 e.2)

/-- The rule number of `triangle_gauss` and `dunavant`. -/
def triNum (degree : Nat) : Nat := if degree = 0 then 0 else degree - 1

/-- 2D `triangle_gauss`, `quad_raw_triangle.hpp:2600-2651`. Degrees not in the table go to `triquad`, which is
not modelled: `tq` is whatever it returns. -/
noncomputable def triangleGauss (tab : List TriRule) (tq : Nat → P2 ℝ → P2 ℝ → P2 ℝ → Outcome (List (P2 ℝ × ℝ)))
    (degree : Nat) (p0 p1 p2 : P2 ℝ) : Outcome (List (P2 ℝ × ℝ)) :=
  if degree < tab.length then
    if triNum degree < tab.length - 1 then
      let area := Polygon.triMeasure p0 p1 p2
      .ok ((tab.getD (triNum degree) []).map fun g =>
        ((⟨p0.x + (p1.x - p0.x) * g.1.1 + (p2.x - p0.x) * g.1.2,
           p0.y + (p1.y - p0.y) * g.1.1 + (p2.y - p0.y) * g.1.2⟩ : P2 ℝ), 2 * g.2 * area))
    else .ub "assert rule_num < max_degree-1"
  else tq degree p0 p1 p2

/-- 3D `triangle_gauss`, same lines: for degrees not in the table, `point<T,3>({qX[i], qY[i]})` throws
(`mesh/point.hpp:58-66`). -/
noncomputable def triangleGauss3 (tab : List TriRule) (degree : Nat) (p0 p1 p2 : P3 ℝ) :
    Outcome (List (P3 ℝ × ℝ)) :=
  if degree < tab.length then
    if triNum degree < tab.length - 1 then
      let area := Simplex.area3 p0 p1 p2
      .ok ((tab.getD (triNum degree) []).map fun g =>
        ((⟨p0.x + (p1.x - p0.x) * g.1.1 + (p2.x - p0.x) * g.1.2,
           p0.y + (p1.y - p0.y) * g.1.1 + (p2.y - p0.y) * g.1.2,
           p0.z + (p1.z - p0.z) * g.1.1 + (p2.z - p0.z) * g.1.2⟩ : P3 ℝ), 2 * g.2 * area))
    else .ub "assert rule_num < max_degree-1"
  else .throws "Wrong initializer list size"

/-- Concatenation of rules in a loop. -/
def concat {X : Type} : List (Outcome (List (X × ℝ))) → Outcome (List (X × ℝ))
  | [] => .ok []
  | o :: l => o.bind fun a => (concat l).bind fun b => .ok (a ++ b)

/-- `integrate_convex`, `quad_phys_generic.hpp:42-63`. -/
noncomputable def integrateConvex (tab : List TriRule)
    (tq : Nat → P2 ℝ → P2 ℝ → P2 ℝ → Outcome (List (P2 ℝ × ℝ))) (pts : List (P2 ℝ)) (degree : Nat) :
    Outcome (List (P2 ℝ × ℝ)) :=
  concat ((List.range pts.length).map fun i =>
    triangleGauss tab tq degree (Polygon.center pts) (Polygon.rd pts i) (Polygon.rd pts ((i + 1) % pts.length)))

/-- `integrate` of a 2D cell of a generic mesh, `quad_phys_generic.hpp:90-116`. The rule of a non-convex cell
needs a triangulation library: `nc` is whatever it gives. -/
noncomputable def integrate2 (gtab : List (List (ℝ × ℝ))) (tab : List TriRule)
    (tq : Nat → P2 ℝ → P2 ℝ → P2 ℝ → Outcome (List (P2 ℝ × ℝ)))
    (nc : List (P2 ℝ) → Nat → Outcome (List (P2 ℝ × ℝ))) (pts : List (P2 ℝ)) (degree : Nat) :
    Outcome (List (P2 ℝ × ℝ)) :=
  if pts.length > 2 then
    if pts.length = 3 then
      triangleGauss tab tq degree (Polygon.rd pts 0) (Polygon.rd pts 1) (Polygon.rd pts 2)
    else if pts.length = 4 ∧ Polygon.isConvex pts = true then
      tensor2 gtab degree (Polygon.rd pts 0) (Polygon.rd pts 1) (Polygon.rd pts 2) (Polygon.rd pts 3)
    else if Polygon.isConvex pts = true then integrateConvex tab tq pts degree
    else nc pts degree
  else .ub "assert pts.size() > 2"

/-- An entry of the Dunavant tables: permutations, coordinates, weight. -/
abbrev DunRule := List (Nat × (ℝ × ℝ × ℝ) × ℝ)

/-- The points of one entry, `quad_raw_triangle.hpp:314-336`; other numbers of permutations match no case. -/
def dunEntry {X : Type} (comb : ℝ → ℝ → ℝ → X) (area : ℝ) (e : Nat × (ℝ × ℝ × ℝ) × ℝ) : List (X × ℝ) :=
  let l0 := e.2.1.1
  let l1 := e.2.1.2.1
  let l2 := e.2.1.2.2
  let w := e.2.2 * area
  match e.1 with
  | 1 => [(comb l0 l1 l2, w)]
  | 3 => [(comb l0 l1 l2, w), (comb l1 l2 l0, w), (comb l1 l0 l2, w)]
  | 6 => [(comb l0 l1 l2, w), (comb l0 l2 l1, w), (comb l1 l0 l2, w), (comb l1 l2 l0, w), (comb l2 l0 l1, w),
          (comb l2 l1 l0, w)]
  | _ => []

/-- `dunavant` in 2D, `quad_raw_triangle.hpp:286-340`; `ndebug` says whether `assert` is compiled out. -/
noncomputable def dunavant (ndebug : Bool) (tab : List DunRule) (degree : Nat) (p0 p1 p2 : P2 ℝ) :
    Outcome (List (P2 ℝ × ℝ)) :=
  let maxDegree := tab.length
  if degree > maxDegree then .throws "Dunavant quadrature: degree too high"
  else
    let ruleNum := triNum degree
    if ¬ ruleNum < maxDegree - 1 ∧ ndebug = false then .ub "assert rule_num < max_degree-1"
    else
      let area := Polygon.triMeasure p0 p1 p2
      .ok ((tab.getD ruleNum []).flatMap (dunEntry (fun l0 l1 l2 =>
        (⟨p0.x * l0 + p1.x * l1 + p2.x * l2, p0.y * l0 + p1.y * l1 + p2.y * l2⟩ : P2 ℝ)) area))

/-- The Dunavant rules as written in the source, in units of `10 ^ (-15)`. -/
noncomputable def literalDun (t : List (Nat × (Int × Int × Int) × Int)) : DunRule :=
  t.map fun e => (e.1, ((e.2.1.1 : ℝ) / 10 ^ 15, (e.2.1.2.1 : ℝ) / 10 ^ 15, (e.2.1.2.2 : ℝ) / 10 ^ 15),
    (e.2.2 : ℝ) / 10 ^ 15)

end Verif.Quad
