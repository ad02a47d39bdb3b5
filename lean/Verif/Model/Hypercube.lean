import Mathlib.Algebra.Order.Field.Basic
import Verif.Model.Neighbours
/-!
Boundary numbers of unit squares and cubes from normals, `loaders/loader_utils.hpp:41-134`. Coordinates are
in an ordered field; the bounds 0.99 and 1.01 are taken exactly.
-/
namespace Verif.Hypercube
open Verif.Lookup Verif.MeshTopo Verif.Neighbours

variable {K : Type} [Field K] [LinearOrder K] [IsStrictOrderedRing K]

/-- `xn > -1.01 && xn < -0.99`. -/
def nearMinus (t : K) : Prop := t > -(101 / 100) ∧ t < -(99 / 100)
/-- `xn > 0.99 && xn < 1.01`. -/
def nearPlus (t : K) : Prop := t > 99 / 100 ∧ t < 101 / 100

instance (t : K) : Decidable (nearMinus t) := inferInstanceAs (Decidable (_ ∧ _))
instance (t : K) : Decidable (nearPlus t) := inferInstanceAs (Decidable (_ ∧ _))

/-- `boundary_number` in two dimensions, `loaders/loader_utils.hpp:42-66`. -/
def boundaryNumber2 (n : K × K) : Option Nat :=
  if nearMinus n.1 then some 3
  else if nearPlus n.1 then some 1
  else if nearMinus n.2 then some 0
  else if nearPlus n.2 then some 2
  else none

/-- `boundary_number` in three dimensions, `loaders/loader_utils.hpp:68-100`. -/
def boundaryNumber3 (n : K × K × K) : Option Nat :=
  if nearMinus n.1 then some 2
  else if nearPlus n.1 then some 5
  else if nearMinus n.2.1 then some 1
  else if nearPlus n.2.1 then some 4
  else if nearMinus n.2.2 then some 0
  else if nearPlus n.2.2 then some 3
  else none

variable {C F : Type} [LT C] [DecidableLT C] [LT F] [DecidableLT F]

/-- The change made to one descriptor, `loaders/loader_utils.hpp:126-128`. -/
def setMark (k : Nat) (d : BDesc) : BDesc := ((d.setB true).setInt false).setId k

/-- The two nested loops of `renumber_hypercube_boundaries`, `loaders/loader_utils.hpp:112-130`, over the
pairs of a cell and one of its faces; `num c f` is `boundary_number(normal(msh, c, f))`. -/
def renumLoop (m : Mesh C F) (o : List Owner) (num : C → F → Option Nat) :
    List (C × F) → List BDesc → Outcome (Bool × List BDesc)
  | [], b => .ok (true, b)
  | (c, f) :: r, b =>
    (neighbourVia m o c f).bind fun nb =>
      if nb.2 then renumLoop m o num r b
      else match num c f with
        | none => .ok (false, b)
        | some k => (offset m.faces f).bind fun i =>
          match b[i]? with
          | none => .ub "boundary_info out of range"
          | some bi => renumLoop m o num r (b.set i (setMark k bi))

/-- `renumber_hypercube_boundaries`, `loaders/loader_utils.hpp:105-133`: the returned flag and the
descriptors afterwards. -/
def renumber (m : Mesh C F) (num : C → F → Option Nat) : Outcome (Bool × List BDesc) :=
  (connectivity m).bind fun o =>
    renumLoop m o num (m.cells.flatMap fun c => (m.facesOf c).map fun f => (c, f)) m.binfo

end Verif.Hypercube
