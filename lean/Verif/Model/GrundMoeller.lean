import Verif.Model.Outcome
import Verif.Model.Simplex
/-!
Grundmann-Möller quadrature on simplices: `libdiskpp/contrib/jburkardt/src/simplex_gm_rule.cpp` and the wrappers
`grundmann_moeller` of `quadratures/bits/quad_raw_triangle.hpp` and `quad_raw_tetra.hpp`. Floating-point numbers
are exact (a field `K`, the reals in the wrappers); `int` overflows in the number of points and writes past the
end of the output arrays are undefined behaviour.
-/
namespace Verif.GrundMoeller
open Verif

/-- The arguments that `comp_next` keeps between calls, `simplex_gm_rule.cpp:15`. -/
structure St where
  a : List ℕ
  more : Bool
  h : ℕ
  t : ℕ
  deriving DecidableEq, Repr

/-- `comp_next`, `simplex_gm_rule.cpp:103-131`: the first or the next composition of `n` into `k` parts. Accesses
outside `a` are undefined; so is (in the model only) a part that would become `-1`. -/
def compNext (n k : ℕ) (σ : St) : Outcome St :=
  if σ.more then
    let h := (if 1 < σ.t then 0 else σ.h) + 1
    match σ.a[h - 1]?, σ.a[h]? with
    | some (t + 1), some b =>
      let a := ((σ.a.set (h - 1) 0).set 0 t).set h (b + 1)
      .ok ⟨a, a[k - 1]? != some n, h, t + 1⟩
    | _, _ => .ub "comp_next: access outside a"
  else if k = 0 then .ub "comp_next: access outside a"
  else
    let a := n :: List.replicate (k - 1) 0
    .ok ⟨a, a[k - 1]? != some n, 0, n⟩

/-- The inner loop of `gm_rule_set`, `simplex_gm_rule.cpp:246-268`: the vectors `beta` it goes through, with `room`
free places in the output arrays. -/
def betaLoop (n k : ℕ) : ℕ → St → Outcome (List (List ℕ))
  | 0, _ => .ub "gm_rule_set: write past the end"
  | room + 1, σ => (compNext n k σ).bind fun σ' =>
    if σ'.more then (betaLoop n k room σ').bind fun l => .ok (σ'.a :: l) else .ok [σ'.a]

section field
variable {K : Type} [Field K]

/-- The factor that step `j` of the loop on the weight applies, `simplex_gm_rule.cpp:220-242`. -/
def weightStep (s n i : ℕ) (w : K) (j : ℕ) : K :=
  let d := 2 * s + 1
  let w := if j ≤ n then w * j else w
  let w := if j ≤ d then w * ((d + n - 2 * i : ℕ) : K) else w
  let w := if j ≤ 2 * s then w / 2 else w
  let w := if j ≤ i then w / j else w
  if j ≤ d + n - i then w / j else w

/-- `weight`, `simplex_gm_rule.cpp:216-242`: the loop from `j = 1` to `j_hi`. -/
def weight (s n i : ℕ) (onePm : K) : K :=
  let d := 2 * s + 1
  (List.range' 1 (max n (max d (d + n - i)))).foldl (weightStep s n i) onePm

/-- The abscissa of one `beta`, `simplex_gm_rule.cpp:255-260`. -/
def absc (s n i : ℕ) (beta : List ℕ) : List K :=
  beta.tail.map fun b => ((2 * b + 1 : ℕ) : K) / ((2 * s + 1 + n - 2 * i : ℕ) : K)

/-- The outer loop of `gm_rule_set`, `simplex_gm_rule.cpp:206-268`, for the values `is` of `i`. -/
def ruleLoop (s n : ℕ) : List ℕ → ℕ → K → Outcome (List (List K × K))
  | [], _, _ => .ok []
  | i :: is, room, onePm =>
    (betaLoop (s - i) (n + 1) room ⟨[], false, 0, 0⟩).bind fun bs =>
      (ruleLoop s n is (room - bs.length) (-onePm)).bind fun l =>
        .ok (bs.map (fun b => (absc s n i b, weight s n i onePm)) ++ l)

/-- `gm_rule_set`, `simplex_gm_rule.cpp:134-273`: the abscissas and weights written to arrays with `pointNum`
places. -/
def ruleSet (rule dim pointNum : ℕ) : Outcome (List (List K × K)) :=
  ruleLoop rule dim (List.range (rule + 1)) pointNum 1

end field

/-- An `int` result. -/
def ck (v : ℤ) : Outcome ℤ := if v < 2 ^ 31 then .ok v else .ub "int overflow"

/-- The loop of `i4_choose`, `simplex_gm_rule.cpp:517-520`. -/
def chooseLoop (mx : ℤ) : List ℕ → ℤ → Outcome ℤ
  | [], v => .ok v
  | i :: is, v => (ck (v * (mx + i))).bind fun p => chooseLoop mx is (p / i)

/-- `i4_choose`, `simplex_gm_rule.cpp:452-524`. -/
def i4Choose (n k : ℤ) : Outcome ℤ :=
  let mn := min k (n - k)
  if mn < 0 then .ok 0
  else if mn = 0 then .ok 1
  else
    let mx := max k (n - k)
    (ck (mx + 1)).bind fun v => chooseLoop mx (List.range' 2 (mn.toNat - 1)) v

/-- `gm_rule_size`, `simplex_gm_rule.cpp:393-446`. -/
def ruleSize (rule dim : ℕ) : Outcome ℤ := i4Choose (dim + rule + 1) rule

/-- `rule = (degree % 2) == 0 ? degree/2 : (degree-1)/2`, `quad_raw_tetra.hpp:98`, `quad_raw_triangle.hpp:2670`. -/
def ruleOf (degree : ℕ) : ℕ := if degree % 2 = 0 then degree / 2 else (degree - 1) / 2

/-- The vectors `ws` and `pts` of the wrappers after `gm_rule_set`, `quad_raw_tetra.hpp:98-106`,
`quad_raw_triangle.hpp:2670-2677`; places that are not written keep the value 0. A rule beyond `int` is not
modelled and counts as undefined. -/
noncomputable def rule (degree dim : ℕ) : Outcome (List (List ℝ × ℝ)) :=
  if ruleOf degree < 2 ^ 31 then
    (ruleSize (ruleOf degree) dim).bind fun m =>
      (ruleSet (K := ℝ) (ruleOf degree) dim m.toNat).bind fun l =>
        .ok (l ++ List.replicate (m.toNat - l.length) (List.replicate dim 0, 0))
  else .ub "rule beyond int"

open Verif.Spec in
/-- `grundmann_moeller` on tetrahedra, `quad_raw_tetra.hpp:91-127`. -/
noncomputable def tetra (degree : ℕ) (p0 p1 p2 p3 : P3 ℝ) : Outcome (List (P3 ℝ × ℝ)) :=
  (rule degree 3).bind fun l => .ok <| l.map fun q =>
    let v0 := Simplex.sub p1 p0
    let v1 := Simplex.sub p2 p0
    let v2 := Simplex.sub p3 p0
    let r := q.1.getD 0 0
    let s := q.1.getD 1 0
    let t := q.1.getD 2 0
    (⟨p0.x + r * v0.x + s * v1.x + t * v2.x, p0.y + r * v0.y + s * v1.y + t * v2.y,
      p0.z + r * v0.z + s * v1.z + t * v2.z⟩, q.2 * Simplex.volume p0 p1 p2 p3)

open Verif.Spec in
/-- `grundmann_moeller` on triangles, `quad_raw_triangle.hpp:2665-2694`. -/
noncomputable def tri (degree : ℕ) (p0 p1 p2 : P2 ℝ) : Outcome (List (P2 ℝ × ℝ)) :=
  (rule degree 2).bind fun l => .ok <| l.map fun q =>
    let r := q.1.getD 0 0
    let s := q.1.getD 1 0
    (⟨p0.x + r * (p1.x - p0.x) + s * (p2.x - p0.x), p0.y + r * (p1.y - p0.y) + s * (p2.y - p0.y)⟩,
      q.2 * Polygon.triMeasure p0 p1 p2)

end Verif.GrundMoeller
