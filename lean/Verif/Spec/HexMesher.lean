import Verif.Model.HexMesher
/-!
The sides of the unit square, and how often an edge is used by the surfaces of a generic 2D mesh.
-/
namespace Verif.Spec.HexMesher
open Verif.HexMesher

/-- The point lies on the side with this number: 0 bottom, 1 right, 2 top, 3 left. -/
def OnSide {K : Type} [Zero K] [One K] (z : K × K) : Nat → Prop
  | 0 => z.2 = 0
  | 1 => z.1 = 1
  | 2 => z.2 = 1
  | 3 => z.1 = 0
  | _ => False

/-- How many times an edge occurs in the surfaces. -/
def occurrences {K : Type} (m : GMesh K) (i : Nat) : Nat := (m.surfaces.map fun s => s.edges.count i).sum

/-- The vertices of a surface. -/
def vertices {K : Type} (m : GMesh K) (s : Surf) : List (Option (K × K)) := s.pts.map fun i => m.points[i]?

/-- The edges of a surface run around its points: edge number `i` joins point `i` to the next one. -/
def Closed {K : Type} (m : GMesh K) (s : Surf) : Prop :=
  s.edges.length = s.pts.length ∧
  ∀ i, i < s.pts.length → ∃ e k a b, s.edges[i]? = some k ∧ m.edges[k]? = some e ∧
    s.pts[i]? = some a ∧ s.pts[(i + 1) % s.pts.length]? = some b ∧ (e.ids = (a, b) ∨ e.ids = (b, a))

end Verif.Spec.HexMesher
