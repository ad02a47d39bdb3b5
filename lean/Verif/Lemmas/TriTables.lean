import Verif.Model.TriTables
/-!
Integer form of the moment conditions of the triangle tables, checked by evaluation.
-/
namespace Verif.Quad

/-- `n!`. -/
def factN : Nat → Nat
  | 0 => 1
  | n + 1 => (n + 1) * factN n

/-- Distance of two natural numbers. -/
def ndist (a b : Nat) : Nat := (a - b) + (b - a)

/-- Sum of `w a^i b^j` over a table. -/
def triSum (t : List ((Nat × Nat) × Nat)) (i j : Nat) : Nat :=
  t.foldl (fun s e => s + e.2 * (e.1.1 ^ i * e.1.2 ^ j)) 0

/-- The moment `i, j` of a table is `i! j! / (i + j + 2)!` up to `5 · 10^(-15)`. -/
def triMomentOK (t : List ((Nat × Nat) × Nat)) (i j : Nat) : Bool :=
  Nat.ble (ndist (triSum t i j * factN (i + j + 2)) (factN i * factN j * 10 ^ (21 * (i + j + 1))) * 200000000000000)
    (factN (i + j + 2) * 10 ^ (21 * (i + j + 1)))

/-- All moments of total degree at most `d`. -/
def triMomentsOK (t : List ((Nat × Nat) × Nat)) (d : Nat) : Bool :=
  (List.range (d + 1)).all fun i => (List.range (d + 1 - i)).all fun j => triMomentOK t i j

/-- Nodes in the unit square, below the diagonal. -/
def triNodesOK (t : List ((Nat × Nat) × Nat)) : Bool := t.all fun e => Nat.ble (e.1.1 + e.1.2) (10 ^ 21)

theorem tri_nodes : ∀ n < 30, triNodesOK (triGaussRules.getD n []) = true := by decide +kernel
theorem tri_moments : ∀ n < 30, triMomentsOK (triGaussRules.getD n []) (n + 1) = true := by decide +kernel

end Verif.Quad
