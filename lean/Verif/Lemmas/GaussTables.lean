import Verif.Model.QuadTables
/-!
Integer form of the moment conditions of the one-dimensional tables, checked by evaluation.
-/
namespace Verif.Quad

/-- The test on the sum `s` at scale `d`. -/
def closeTo (s : Int) (k d : Nat) : Bool :=
  decide ((s * ((k : Int) + 1) - (if k % 2 = 0 then 2 * (d : Int) else 0)).natAbs * 200000000000000
    ≤ (k + 1) * d)

/-- `(k + 1) · 10^(16 (k + 1))` times twice the moment error, times `10^14`, is at most the scale:
the moment error is at most `1 / (2 · 10^14)`. -/
def momentOK (tab : List (Int × Int)) (k : Nat) : Bool :=
  closeTo (tab.map fun e => e.2 * e.1 ^ k).sum k (10 ^ (16 * (k + 1)))

/-- All moments up to degree `d`. -/
def momentsOK (tab : List (Int × Int)) (d : Nat) : Bool := (List.range (d + 1)).all (momentOK tab)

/-- Nodes in `[-1, 1]`, weights positive, total weight at most 3. -/
def nodesOK (tab : List (Int × Int)) : Bool :=
  tab.all fun e => decide (e.1.natAbs ≤ 10 ^ 16 ∧ 0 < e.2 ∧ e.2.natAbs ≤ 2 * 10 ^ 16)

theorem gauss_moments : ∀ n < 20, momentsOK (gaussRules.getD n []) (2 * n + 1) = true := by decide +kernel
theorem gauss_nodes : ∀ n < 20, nodesOK (gaussRules.getD n []) = true := by decide +kernel
theorem gauss_length : ∀ n < 20, (gaussRules.getD n []).length = n + 1 := by decide +kernel
theorem lobatto_moments : ∀ n < 20, 1 ≤ n → momentsOK (lobattoRules.getD n []) (2 * n - 1) = true := by
  decide +kernel
theorem lobatto_nodes : ∀ n < 20, nodesOK (lobattoRules.getD n []) = true := by decide +kernel
theorem lobatto_length : ∀ n < 20, (lobattoRules.getD n []).length = n + 1 := by decide +kernel

end Verif.Quad
