import Verif.Model.Outcome
import Mathlib.Analysis.Real.Sqrt
/-!
One-dimensional Legendre basis, `bases/bases_scalar.hpp:570-694` (class `legendre_1D`).
Arithmetic is real; the power table `pows[i] = x * pows[i-1]` (lines 580-589) is the function
`pows x`.
-/
namespace Verif.Legendre

/-- `eval_monomials`, `bases/bases_scalar.hpp:580-589`. -/
def pows (x : ℝ) : Nat → ℝ
  | 0 => 1
  | i + 1 => x * pows x i

/-- The `switch` of `eval_poly`, `bases/bases_scalar.hpp:594-617`; an unlisted degree leaves `val`
uninitialised. -/
noncomputable def polySwitch (p : Nat → ℝ) : Nat → Outcome ℝ
  | 0 => .ok 1
  | 1 => .ok (p 1)
  | 2 => .ok ((3 * p 2 - 1) / 2)
  | 3 => .ok ((5 * p 3 - 3 * p 1) / 2)
  | 4 => .ok ((35 * p 4 - 30 * p 2 + 3) / 8)
  | 5 => .ok ((63 * p 5 - 70 * p 3 + 15 * p 1) / 8)
  | 6 => .ok ((231 * p 6 - 315 * p 4 + 105 * p 2 - 5) / 16)
  | 7 => .ok ((429 * p 7 - 693 * p 5 + 315 * p 3 - 35 * p 1) / 16)
  | 8 => .ok ((6435 * p 8 - 12012 * p 6 + 6930 * p 4 - 1260 * p 2 + 35) / 128)
  | 9 => .ok ((12155 * p 9 - 25740 * p 7 + 18018 * p 5 - 4620 * p 3 + 315 * p 1) / 128)
  | 10 => .ok ((46189 * p 10 - 109395 * p 8 + 90090 * p 6 - 30030 * p 4 + 3465 * p 2 - 63) / 256)
  | _ => .ub "uninitialised value"

/-- The `switch` of `eval_deriv`, `bases/bases_scalar.hpp:624-642`. -/
noncomputable def derivSwitch (p : Nat → ℝ) : Nat → Outcome ℝ
  | 0 => .ok 0
  | 1 => .ok 1
  | 2 => .ok ((6 * p 1) / 2)
  | 3 => .ok ((15 * p 2 - 3) / 2)
  | 4 => .ok ((140 * p 3 - 60 * p 1) / 8)
  | 5 => .ok ((315 * p 4 - 210 * p 2 + 15) / 8)
  | 6 => .ok ((1386 * p 5 - 1260 * p 3 + 210 * p 1) / 16)
  | 7 => .ok ((3003 * p 6 - 3465 * p 4 + 945 * p 2 - 35) / 16)
  | 8 => .ok ((51480 * p 7 - 72012 * p 5 + 27720 * p 3 - 2520 * p 1) / 128)
  | 9 => .ok ((109395 * p 8 - 180180 * p 6 + 90090 * p 4 - 13860 * p 2 + 315) / 128)
  | 10 => .ok ((461890 * p 9 - 875160 * p 7 + 450450 * p 5 - 120120 * p 3 + 6930 * p 1) / 256)
  | _ => .ub "uninitialised value"

/-- `eval_poly`, `bases/bases_scalar.hpp:591-618`. -/
noncomputable def evalPoly (x : ℝ) (d : Nat) : Outcome ℝ :=
  (polySwitch (pows x) d).bind fun v => .ok (v / √((2 : ℝ) / (2 * d + 1 : Nat)))

/-- `eval_deriv`, `bases/bases_scalar.hpp:620-644`. -/
noncomputable def evalDeriv (x : ℝ) (d : Nat) : Outcome ℝ :=
  (derivSwitch (pows x) d).bind fun v => .ok (v / √((2 : ℝ) / (2 * d + 1 : Nat)))

/-- Constructor check, `bases/bases_scalar.hpp:649-656`. -/
def construct (degree : Nat) : Outcome Nat :=
  if degree > 10 then .throws "no Legendre basis of order > 10" else .ok degree

end Verif.Legendre
