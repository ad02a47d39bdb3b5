import Verif.Model.MeshTopo
/-!
Cell-to-cell connectivity through faces and marking of interfaces, `mesh/mesh.hpp`.
Iterating over a mesh visits its stored cells in order; `faces(msh, cl)` is `Mesh.facesOf`.
-/
namespace Verif.Neighbours
open Verif.Lookup Verif.MeshTopo

variable {C F : Type} [LT C] [DecidableLT C] [LT F] [DecidableLT F]

/-- `face_owners_type`, `mesh/mesh.hpp:700`: two optional cell numbers. -/
abbrev Owner := Option Nat × Option Nat

/-- Body of the face loop of `compute_connectivity`, `mesh/mesh.hpp:713-733`. -/
def addFace (faces : List F) (ci : Nat) (f : F) (o : List Owner) : Outcome (List Owner) :=
  if !(findElementId faces f).1 then .throws "Face not present in mesh"
  else (offset faces f).bind fun i =>
    match o[i]? with
    | none => .throws "out_of_range"
    | some (none, b) => .ok (o.set i (some ci, b))
    | some (some a, none) => .ok (o.set i (some a, some ci))
    | some (some _, some _) => .throws "BUG: a face has max 2 owners"

/-- The face loop, `mesh/mesh.hpp:713-733`. -/
def faceLoop (faces : List F) (ci : Nat) : List F → List Owner → Outcome (List Owner)
  | [], o => .ok o
  | f :: fs, o => (addFace faces ci f o).bind fun o => faceLoop faces ci fs o

/-- The cell loop, `mesh/mesh.hpp:708-736`. -/
def cellLoop (m : Mesh C F) : List C → Nat → List Owner → Outcome (List Owner)
  | [], _, o => .ok o
  | c :: cs, ci, o => (faceLoop m.faces ci (m.facesOf c) o).bind fun o => cellLoop m cs (ci + 1) o

/-- `neighbour_connectivity::compute_connectivity`, `mesh/mesh.hpp:704-737`. -/
def connectivity (m : Mesh C F) : Outcome (List Owner) :=
  cellLoop m m.cells 0 (List.replicate m.faces.length (none, none))

/-- `neighbour_connectivity::neighbour_via`, `mesh/mesh.hpp:745-764`. The failed
`assert(fo[0].value() == cl_ofs)` is undefined behaviour (an empty `fo[0]` throws
`bad_optional_access` in a checked build and nothing in a release build; it is also `ub` here). -/
def neighbourVia (m : Mesh C F) (o : List Owner) (c : C) (f : F) : Outcome (C × Bool) :=
  if o.length ≠ m.faces.length then .throws "Inconsistent neighbour information."
  else (offset m.cells c).bind fun cl => (offset m.faces f).bind fun fo =>
    match o[fo]? with
    | none => .throws "out_of_range"
    | some p =>
      let p : Owner := if p.1.isSome && p.1 != some cl then (p.2, p.1) else p
      if p.1 = some cl then
        match p.2 with
        | none => match m.cells[0]? with
          | none => .ub "cells_begin of an empty mesh"
          | some c0 => .ok (c0, false)
        | some j => match m.cells[j]? with
          | none => .ub "past the last cell"
          | some c' => .ok (c', true)
      else .ub "assert: fo[0].value() == cl_ofs"

/-- Counting loop of `mark_internal_faces` over one cell, `mesh/mesh.hpp:672-677`. -/
def countFaces (faces : List F) : List F → List Nat → Outcome (List Nat)
  | [], n => .ok n
  | f :: fs, n => (offset faces f).bind fun i =>
      match n[i]? with
      | none => .ub "neigh_count out of range"
      | some k => countFaces faces fs (n.set i (k + 1))

/-- Counting loop over all cells, `mesh/mesh.hpp:670-678`. -/
def countCells (m : Mesh C F) : List C → List Nat → Outcome (List Nat)
  | [], n => .ok n
  | c :: cs, n => (countFaces m.faces (m.facesOf c) n).bind fun n => countCells m cs n

/-- Marking loop, `mesh/mesh.hpp:681-690`. -/
def markLoop (nf : Nat) (nc : List Nat) : List Nat → List BDesc → Outcome (List BDesc)
  | [], b => .ok b
  | i :: is, b =>
    match nc[i]? with
    | none => .ub "neigh_count out of range"
    | some k =>
      if k = 0 ∨ k = 1 ∨ k = 2 then
        if b.length = nf then
          match b[i]? with
          | none => .throws "out_of_range"
          | some bi => markLoop nf nc is (b.set i (if bi.isB && k == 2 then bi.setInt true else bi))
        else .ub "assert: boundary_info.size() == faces_size()"
      else .ub "assert: more than two neighbours"

/-- `mark_internal_faces`, `mesh/mesh.hpp:665-691`. Returns the updated descriptors. -/
def markInternal (m : Mesh C F) : Outcome (List BDesc) :=
  (countCells m m.cells (List.replicate m.faces.length 0)).bind fun nc =>
    markLoop m.faces.length nc (List.range m.faces.length) m.binfo

end Verif.Neighbours
