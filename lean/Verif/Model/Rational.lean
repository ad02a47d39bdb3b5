import Verif.Model.Outcome
/-!
The rational number class, `mesh/rational.hpp`. The integer type is the mathematical integers
(overflow is not modelled); `/` and `%` truncate as in C++; failed `assert` is undefined behaviour.
-/
namespace Verif.Rational

/-- `gcd`, `mesh/rational.hpp:46-53` (with the C++ truncated remainder, so the result may be negative). -/
def gcd (a b : Int) : Int := if _h : b = 0 then a else gcd b (a.tmod b)
termination_by b.natAbs
decreasing_by
  have := Int.natAbs_tmod a b
  rw [this]
  exact Nat.mod_lt _ (by omega)

/-- The class data members, `mesh/rational.hpp:64`. -/
structure Q where
  num : Int
  den : Int
deriving DecidableEq

/-- `adjust_signs`, `mesh/rational.hpp:66-73`. -/
def adjustSigns (q : Q) : Q := if q.den ≥ 0 then q else ⟨-q.num, -q.den⟩

/-- `assert(m_den > 0)`. -/
def assertPos (q : Q) : Outcome Q := if q.den > 0 then .ok q else .ub "assert(m_den > 0)"

/-- Constructor from two integers, `mesh/rational.hpp:84-89`. -/
def mk2 (n d : Int) : Outcome Q := assertPos (adjustSigns ⟨n, d⟩)

/-- Constructor from one integer, `mesh/rational.hpp:80-82`. -/
def mk1 (n : Int) : Q := ⟨n, 1⟩

/-- Truncated division; division by zero is undefined. -/
def idiv (a b : Int) : Outcome Int := if b = 0 then .ub "division by zero" else .ok (a.tdiv b)

/-- `simplify`, `mesh/rational.hpp:107-114`. -/
def simplify (q : Q) : Outcome Q :=
  let g := gcd q.num q.den
  (idiv q.num g).bind fun n => (idiv q.den g).bind fun d => assertPos (adjustSigns ⟨n, d⟩)

/-- `operator+=`, `mesh/rational.hpp:116-129`. -/
def add (x y : Q) : Outcome Q := simplify ⟨x.num * y.den + x.den * y.num, x.den * y.den⟩
/-- `operator-=`, `mesh/rational.hpp:138-151`. -/
def sub (x y : Q) : Outcome Q := simplify ⟨x.num * y.den - x.den * y.num, x.den * y.den⟩
/-- unary `operator-`, `mesh/rational.hpp:160-163`. -/
def neg (x : Q) : Outcome Q := mk2 (-x.num) x.den

/-- `operator*=(rational)`, `mesh/rational.hpp:165-184`. The final sign check is commented out. -/
def mul (x y : Q) : Outcome Q :=
  let g1 := gcd x.num y.den
  let g2 := gcd x.den y.num
  (idiv x.num g1).bind fun a => (idiv x.den g2).bind fun b =>
  (idiv y.num g2).bind fun c => (idiv y.den g1).bind fun d => .ok ⟨a * c, b * d⟩

/-- `operator*=(I)`, `mesh/rational.hpp:186-191`. -/
def mulI (x : Q) (i : Int) : Outcome Q := simplify ⟨x.num * i, x.den⟩
/-- `inv`, `mesh/rational.hpp:275-279`. -/
def inv (x : Q) : Outcome Q := mk2 x.den x.num
/-- `operator/=(rational)`, `mesh/rational.hpp:207-213,222-225`. -/
def div (x y : Q) : Outcome Q := (inv y).bind fun z => mul x z
/-- `operator/=(I)`, `mesh/rational.hpp:215-220`: no sign adjustment, no simplification. -/
def divI (x : Q) (i : Int) : Outcome Q :=
  if x.den * i ≠ 0 then .ok ⟨x.num, x.den * i⟩ else .ub "assert(m_den != 0)"

/-- `operator<`, `mesh/rational.hpp:234-242`. -/
def lt (x y : Q) : Bool := x.num * y.den < x.den * y.num
/-- `operator<=`, `mesh/rational.hpp:244-252`. -/
def le (x y : Q) : Bool := x.num * y.den ≤ x.den * y.num
/-- `abs`, `mesh/rational.hpp:265-273`. -/
def abs (x : Q) : Outcome Q := if lt x (mk1 0) then neg x else .ok x

/-- Programs built from the class operations. -/
inductive Expr where
  | int (n : Int) | lit (n d : Int)
  | add (a b : Expr) | sub (a b : Expr) | neg (a : Expr) | mul (a b : Expr)
  | mulI (a : Expr) (i : Int) | div (a b : Expr) | divI (a : Expr) (i : Int)

/-- Running a program. -/
def run : Expr → Outcome Q
  | .int n => .ok (mk1 n)
  | .lit n d => mk2 n d
  | .add a b => (run a).bind fun x => (run b).bind fun y => Rational.add x y
  | .sub a b => (run a).bind fun x => (run b).bind fun y => Rational.sub x y
  | .neg a => (run a).bind fun x => Rational.neg x
  | .mul a b => (run a).bind fun x => (run b).bind fun y => Rational.mul x y
  | .mulI a i => (run a).bind fun x => Rational.mulI x i
  | .div a b => (run a).bind fun x => (run b).bind fun y => Rational.div x y
  | .divI a i => (run a).bind fun x => Rational.divI x i

end Verif.Rational
