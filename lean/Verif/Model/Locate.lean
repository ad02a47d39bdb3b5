import Mathlib.Algebra.Field.Defs
import Mathlib.Order.Defs.LinearOrder
import Verif.Model.Outcome
/-!
Point location in a hierarchy of triangle meshes, `mesh/mesh_hierarchy.hpp`.

Levels are lists of triangles given by their three points. `coarse_to_fine[l][t]` is the list of triangles
of level `l+1` that refine triangle `t` of level `l`. Reading past the end of a vector with `[]` or advancing
an iterator past the end is `ub`; `at` throws.
-/
namespace Verif.Locate

variable {K : Type} [Field K] [LinearOrder K]

/-- A point and a triangle in the plane. -/
abbrev Pt (K : Type) := K × K
/-- See `Pt`. -/
abbrev Tri (K : Type) := Pt K × Pt K × Pt K

/-- `v.dot(w)`. -/
def dot (v w : Pt K) : K := v.1 * w.1 + v.2 * w.2
/-- Difference of points. -/
def sub (p q : Pt K) : Pt K := (p.1 - q.1, p.2 - q.2)

/-- `is_inside`, `mesh/mesh_hierarchy.hpp:329-351`. A zero denominator gives infinities or NaN; then some of
the comparisons involve NaN. That case (a degenerate triangle) is `none` here. -/
def isInside (t : Tri K) (p : Pt K) : Option Bool :=
  let v0 := sub t.2.1 t.1
  let v1 := sub t.2.2 t.1
  let v2 := sub p t.1
  let den := dot v0 v0 * dot v1 v1 - dot v0 v1 * dot v0 v1
  if den = 0 then none
  else
    let inv := 1 / den
    let u := (dot v1 v1 * dot v0 v2 - dot v0 v1 * dot v1 v2) * inv
    let v := (dot v0 v0 * dot v1 v2 - dot v0 v1 * dot v0 v2) * inv
    some (decide (u ≥ 0) && decide (v ≥ 0) && decide (u + v ≤ 1))

/-- The members `meshes` and `coarse_to_fine`, with the inside test as a function. -/
structure Hier (T P : Type) where
  meshes : List (List T)
  c2f : List (List (List Nat))
  inside : T → P → Bool

variable {T P : Type}

/-- First triangle of the candidate list containing the point; advancing past the last cell is undefined. -/
def findIn (h : Hier T P) (mesh : List T) (p : P) : List Nat → Outcome (Option Nat)
  | [] => .ok none
  | t :: ts => match mesh[t]? with
    | none => .ub "past the last cell"
    | some cl => if h.inside cl p then .ok (some t) else findIn h mesh p ts

/-- `locate_recursive`, `mesh/mesh_hierarchy.hpp:353-373`. `fuel` bounds the recursion; it is
`max_level + 1 - cur_level` at the call. -/
def locateRec (h : Hier T P) (p : P) (maxLevel : Nat) : Nat → Nat → Nat → Outcome Nat
  | 0, curLevel, triNum =>
    if maxLevel > h.meshes.length then .throws "inexistent mesh level"
    else if curLevel > maxLevel then .ok triNum else .ub "out of fuel"
  | fuel + 1, curLevel, triNum =>
    if maxLevel > h.meshes.length then .throws "inexistent mesh level"
    else if curLevel > maxLevel then .ok triNum
    else match h.meshes[curLevel]? with
      | none => .ub "meshes[cur_level] past the end"
      | some mesh => match h.c2f[curLevel - 1]? with
        | none => .throws "out_of_range"
        | some m => match m[triNum]? with
          | none => .throws "out_of_range"
          | some ts => (findIn h mesh p ts).bind fun r => match r with
            | none => .throws "point not found (s)"
            | some t => locateRec h p maxLevel fuel (curLevel + 1) t

/-- `locate_point`, `mesh/mesh_hierarchy.hpp:409-431`. -/
def locatePoint (h : Hier T P) (p : P) (level : Nat) : Outcome Nat :=
  match h.meshes[0]? with
  | none => .throws "mesh hierarchy not built"
  | some mesh => (findIn h mesh p (List.range mesh.length)).bind fun r => match r with
    | none => .throws "point not found"
    | some t => if level > 0 then locateRec h p level level 1 t else .ok t

/-- What `build_hierarchy` establishes, `mesh/mesh_hierarchy.hpp:385-407` (the number of meshes is asserted
there): one more mesh than maps, and each map lists existing triangles for
each triangle of the coarser level. -/
structure WF (h : Hier T P) : Prop where
  count : h.meshes.length = h.c2f.length + 1
  rows : ∀ (k : Nat) (mesh : List T) (m : List (List Nat)), h.meshes[k]? = some mesh → h.c2f[k]? = some m → m.length = mesh.length
  kids : ∀ (k t : Nat) (mesh : List T) (m : List (List Nat)) (ts : List Nat), h.meshes[k + 1]? = some mesh → h.c2f[k]? = some m →
    m[t]? = some ts → ∀ t' ∈ ts, t' < mesh.length

end Verif.Locate
