import Verif.Spec.TriMesh
import Mathlib.Algebra.Field.Basic
/-!
What it means for one triangle mesh to be a uniform refinement of another, recorded by a map from coarse
triangles to fine ones.
-/
namespace Verif.Spec
open TriRefine
variable {K : Type} [Field K]

/-- Coordinates of the corners of a triangle. -/
def corners (m : Mesh K) (t : Tri) : Option ((K × K) × (K × K) × (K × K)) :=
  match m.points[t.a]?, m.points[t.b]?, m.points[t.c]? with
  | some p, some q, some r => some (p, q, r)
  | _, _, _ => none

/-- Coordinates of the corners of triangle number `i`. -/
def cornersAt (m : Mesh K) (i : Nat) : Option ((K × K) × (K × K) × (K × K)) :=
  match m.tris[i]? with
  | some t => corners m t
  | none => none

/-- Halfway point. -/
def half (p q : K × K) : K × K := ((p.1 + q.1) / 2, (p.2 + q.2) / 2)

/-- `m'` refines `m` and `c` lists, for each triangle of `m`, the four triangles of `m'` it is cut into:
the three corner triangles and the one with the midpoints as corners. Every triangle of `m'` is listed
exactly once. -/
structure Nested (m m' : Mesh K) (c : List (List Nat)) : Prop where
  rows : c.length = m.tris.length
  cover : c.flatten.Perm (List.range m'.tris.length)
  cut : ∀ (i : Nat) (p q r : K × K), cornersAt m i = some (p, q, r) →
    ∃ i0 i1 i2 i3, c[i]? = some [i0, i1, i2, i3] ∧
      cornersAt m' i0 = some (p, half p q, half p r) ∧ cornersAt m' i1 = some (q, half p q, half q r) ∧
      cornersAt m' i2 = some (r, half p r, half q r) ∧
      cornersAt m' i3 = some (half p q, half p r, half q r)

end Verif.Spec
