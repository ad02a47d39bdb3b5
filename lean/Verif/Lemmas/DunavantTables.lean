import Verif.Model.TriTables
import Verif.Lemmas.TriTables
/-!
Integer form of the moment conditions of the Dunavant tables, checked by evaluation.
-/
namespace Verif.Quad

/-- The points of an entry, in units of `10 ^ (-15)`. -/
def dunPts (e : Nat × (Int × Int × Int) × Int) : List ((Int × Int × Int) × Int) :=
  let l0 := e.2.1.1
  let l1 := e.2.1.2.1
  let l2 := e.2.1.2.2
  let w := e.2.2
  match e.1 with
  | 1 => [((l0, l1, l2), w)]
  | 3 => [((l0, l1, l2), w), ((l1, l2, l0), w), ((l1, l0, l2), w)]
  | 6 => [((l0, l1, l2), w), ((l0, l2, l1), w), ((l1, l0, l2), w), ((l1, l2, l0), w), ((l2, l0, l1), w),
          ((l2, l1, l0), w)]
  | _ => []

/-- Is `z` negative. -/
def isNeg : Int → Bool
  | Int.ofNat _ => false
  | Int.negSucc _ => true

/-- Sign of `w l0^i l1^j l2^k`. -/
def dunSign (e : (Int × Int × Int) × Int) (i j k : Nat) : Bool :=
  xor (isNeg e.2) (xor (isNeg e.1.1 && Nat.beq (i % 2) 1)
    (xor (isNeg e.1.2.1 && Nat.beq (j % 2) 1) (isNeg e.1.2.2 && Nat.beq (k % 2) 1)))

/-- Size of `w l0^i l1^j l2^k`. -/
def dunMag (e : (Int × Int × Int) × Int) (i j k : Nat) : Nat :=
  e.2.natAbs * (e.1.1.natAbs ^ i * e.1.2.1.natAbs ^ j * e.1.2.2.natAbs ^ k)

/-- Sum of the terms of one sign of `w l0^i l1^j l2^k` over points. -/
def dunSum (neg : Bool) (t : List ((Int × Int × Int) × Int)) (i j k : Nat) : Nat :=
  t.foldl (fun s e => bif xor neg (dunSign e i j k) then s else s + dunMag e i j k) 0

/-- The moment is `2 i! j! k! / (i + j + k + 2)!` up to `10^(-14)`. -/
def dunMomentOK (t : List ((Int × Int × Int) × Int)) (i j k : Nat) : Bool :=
  Nat.ble (ndist (dunSum false t i j k * factN (i + j + k + 2))
      (dunSum true t i j k * factN (i + j + k + 2) + 2 * (factN i * factN j * factN k * 10 ^ (15 * (i + j + k + 1))))
      * 100000000000000)
    (factN (i + j + k + 2) * 10 ^ (15 * (i + j + k + 1)))

/-- All moments of total degree at most `d` with `i ≤ j ≤ k`; the others follow by symmetry. -/
def dunMomentsOK (t : List ((Int × Int × Int) × Int)) (d : Nat) : Bool :=
  (List.range (d + 1)).all fun k => (List.range (k + 1)).all fun j => (List.range (j + 1)).all fun i =>
    bif Nat.ble (i + j + k) d then dunMomentOK t i j k else true

/-- Coordinates at most 51/50 in size. -/
def dunNodesOK (t : List ((Int × Int × Int) × Int)) : Bool :=
  t.all fun e => Nat.ble (50 * e.1.1.natAbs) (51 * 10 ^ 15) && (Nat.ble (50 * e.1.2.1.natAbs) (51 * 10 ^ 15) &&
    Nat.ble (50 * e.1.2.2.natAbs) (51 * 10 ^ 15))

/-- Weights of absolute sum at most 9/4. -/
def dunWeightsOK (t : List ((Int × Int × Int) × Int)) : Bool :=
  Nat.ble (4 * t.foldl (fun s e => s + e.2.natAbs) 0) (9 * 10 ^ 15)

/-- Entries with one point have equal coordinates, those with three have the last two equal. -/
def dunEntryOK (e : Nat × (Int × Int × Int) × Int) : Bool :=
  match e.1 with
  | 1 => e.2.1.1 == e.2.1.2.1 && e.2.1.2.1 == e.2.1.2.2
  | 3 => e.2.1.2.1 == e.2.1.2.2
  | 6 => true
  | _ => false

theorem dun_entries : ∀ n < 20, (dunavantRules.getD n []).all dunEntryOK = true := by decide +kernel
theorem dun_nodes : ∀ n < 20, dunNodesOK ((dunavantRules.getD n []).flatMap dunPts) = true := by decide +kernel
theorem dun_weights : ∀ n < 20, dunWeightsOK ((dunavantRules.getD n []).flatMap dunPts) = true := by decide +kernel
theorem dun_nonempty : ∀ n < 20, 0 < ((dunavantRules.getD n []).flatMap dunPts).length := by decide +kernel
theorem dun_moments : ∀ n < 20, dunMomentsOK ((dunavantRules.getD n []).flatMap dunPts) (n + 1) = true := by
  decide +kernel

end Verif.Quad
