import Verif.Model.Lookup
/-!
Topological queries of `mesh/mesh.hpp` and the boundary descriptors of `mesh/mesh_storage.hpp`.
-/
namespace Verif.MeshTopo
open Verif.Lookup

/-- `boundary_descriptor`, `mesh/mesh_storage.hpp:53-84`. -/
structure BDesc where
  id : Nat
  tag : Nat
  isB : Bool
  isInt : Bool
  deriving Repr, DecidableEq

/-- `boundary_descriptor()`, `mesh/mesh_storage.hpp:61-63`. -/
def BDesc.default : BDesc := ⟨0, 0, false, false⟩
/-- `boundary_descriptor(id, b)`, `mesh/mesh_storage.hpp:65-67`. -/
def BDesc.mk2 (id : Nat) (b : Bool) : BDesc := ⟨id, id, b, false⟩
/-- `boundary_descriptor(id, tag, b)`, `mesh/mesh_storage.hpp:69-71`. -/
def BDesc.mk3 (id tag : Nat) (b : Bool) : BDesc := ⟨id, tag, b, false⟩
/-- `id(size_t)`, `mesh/mesh_storage.hpp:74`. -/
def BDesc.setId (d : BDesc) (i : Nat) : BDesc := { d with id := i, tag := i }
/-- `is_boundary(bool)`, `mesh/mesh_storage.hpp:80`. -/
def BDesc.setB (d : BDesc) (b : Bool) : BDesc := { d with isB := b }
/-- `is_internal(bool)`, `mesh/mesh_storage.hpp:83`. -/
def BDesc.setInt (d : BDesc) (b : Bool) : BDesc := { d with isInt := b }

/-- The part of a mesh used by the topological queries: stored cells and faces, the face enumerator
`faces(msh, cl)` and the per-face boundary descriptors (`mesh/mesh_storage.hpp:113-245`). -/
structure Mesh (C F : Type) where
  cells : List C
  faces : List F
  facesOf : C → List F
  binfo : List BDesc

variable {C F : Type}

/-- `std::vector::at` on the boundary descriptors (throws out_of_range). -/
def binfoAt (m : Mesh C F) (i : Nat) : Outcome BDesc :=
  match m.binfo[i]? with
  | some d => .ok d
  | none => .throws "out_of_range"

/-- The `assert(boundary_info.size() == faces_size())` at the top of every query
(`mesh/mesh.hpp:427,439,446,...`). A failed assert is undefined behaviour. -/
def sizeOk (m : Mesh C F) {α : Type} (k : Outcome α) : Outcome α :=
  if m.binfo.length = m.faces.length then k else .ub "assert: boundary_info.size() == faces_size()"

/-- `mesh::is_boundary(id)`, `mesh/mesh.hpp:437-441`. -/
def isBoundaryId (m : Mesh C F) (i : Nat) : Outcome Bool :=
  sizeOk m ((binfoAt m i).bind fun d => .ok d.isB)

/-- `mesh::is_boundary(face)`, `mesh/mesh.hpp:444-449`. -/
def isBoundary [LT F] [DecidableLT F] (m : Mesh C F) (f : F) : Outcome Bool :=
  sizeOk m ((lookup m.faces f).bind fun i => i.conv.bind fun i =>
    (binfoAt m i).bind fun d => .ok d.isB)

/-- `mesh::boundary_id(id)`, `mesh/mesh.hpp:459-466`. -/
def boundaryIdOfId (m : Mesh C F) (i : Nat) : Outcome Nat :=
  sizeOk m ((isBoundaryId m i).bind fun b =>
    if !b then .throws "Face is not a boundary." else (binfoAt m i).bind fun d => .ok d.id)

/-- `mesh::boundary_id(face)`, `mesh/mesh.hpp:468-477`. -/
def boundaryId [LT F] [DecidableLT F] (m : Mesh C F) (f : F) : Outcome Nat :=
  sizeOk m ((lookup m.faces f).bind fun i => i.conv.bind fun i => (isBoundaryId m i).bind fun b =>
    if !b then .throws "Face is not a boundary." else (binfoAt m i).bind fun d => .ok d.id)

/-- `mesh::boundary_faces_size()`, `mesh/mesh.hpp:480-491`. -/
def boundaryFacesSize (m : Mesh C F) : Outcome Nat :=
  sizeOk m (.ok (m.binfo.countP (fun d => d.isB)))

/-- `mesh::boundary_faces_size(id)`, `mesh/mesh.hpp:494-505`. -/
def boundaryFacesSizeId (m : Mesh C F) (id : Nat) : Outcome Nat :=
  sizeOk m (.ok (m.binfo.countP (fun d => d.isB && d.id == id)))

/-- `mesh::internal_faces_size()`, `mesh/mesh.hpp:508-519`. -/
def internalFacesSize (m : Mesh C F) : Outcome Nat :=
  sizeOk m (.ok (m.binfo.countP (fun d => !d.isB)))

/-- Insertion into the `std::set<size_t>` of `mesh/mesh.hpp:428-431`, kept as a sorted list. -/
def setInsert (x : Nat) : List Nat → List Nat
  | [] => [x]
  | y :: ys => if x < y then x :: y :: ys else if x = y then y :: ys else y :: setInsert x ys

/-- `mesh::boundary_id_list`, `mesh/mesh.hpp:424-434`. -/
def boundaryIdList (m : Mesh C F) : Outcome (List Nat) :=
  sizeOk m (.ok (m.binfo.foldl (fun s d => if d.isB then setInsert d.id s else s) []))

/-! ### The skipping iterator -/

/-- `filter_iterator::find_next`, `mesh/mesh.hpp:98-106`. The iterator is a position;
the predicate may throw. -/
def findNext {α : Type} (p : α → Outcome Bool) (l : List α) (pos : Nat) : Outcome Nat :=
  if h : pos < l.length then
    (p l[pos]).bind fun b => if b then .ok pos else findNext p l (pos + 1)
  else .ok pos
termination_by l.length - pos

/-- Constructor of `filter_iterator` at a position, `mesh/mesh.hpp:114-119`. -/
def filterBegin {α : Type} (p : α → Outcome Bool) (l : List α) (pos : Nat) : Outcome Nat :=
  if pos ≠ l.length then findNext p l pos else .ok pos

/-- `filter_iterator::operator++`, `mesh/mesh.hpp:124-129`. -/
def filterNext {α : Type} (p : α → Outcome Bool) (l : List α) (pos : Nat) : Outcome Nat :=
  if pos ≠ l.length then findNext p l (pos + 1) else findNext p l pos

/-- Loop `for (; it != end; ++it) out.push_back(*it)` over a filter iterator; the end iterator
(`mesh/mesh.hpp:537-549,576-581`) sits at `l.length`. -/
def filterLoop {α : Type} (p : α → Outcome Bool) (l : List α) : (fuel pos : Nat) → Outcome (List α)
  | 0, pos => if pos = l.length then .ok [] else .ub "fuel"
  | fuel + 1, pos =>
    if pos = l.length then .ok []
    else match l[pos]? with
      | none => .ub "dereferenced iterator past the end"
      | some x => (filterNext p l pos).bind fun pos' =>
          (filterLoop p l fuel pos').bind fun r => .ok (x :: r)

/-- Iterating over all boundary faces: `boundary_faces_begin()` to `boundary_faces_end()`,
`mesh/mesh.hpp:522-549`, predicate `mesh/mesh.hpp:142-150`. -/
def boundaryFaces [LT F] [DecidableLT F] (m : Mesh C F) : Outcome (List F) :=
  sizeOk m ((filterBegin (isBoundary m) m.faces 0).bind fun b =>
    filterLoop (isBoundary m) m.faces m.faces.length b)

/-- Predicate `is_internal_pred`, `mesh/mesh.hpp:172-180`. -/
def internalPred [LT F] [DecidableLT F] (m : Mesh C F) (f : F) : Outcome Bool :=
  (isBoundary m f).bind fun b => .ok (!b)

/-- Iterating over all internal faces, `mesh/mesh.hpp:568-581`. -/
def internalFaces [LT F] [DecidableLT F] (m : Mesh C F) : Outcome (List F) :=
  sizeOk m ((filterBegin (internalPred m) m.faces 0).bind fun b =>
    filterLoop (internalPred m) m.faces m.faces.length b)

/-- Predicate `is_boundary_pred_with_id`, `mesh/mesh.hpp:152-170`. -/
def boundaryWithIdPred [LT F] [DecidableLT F] (m : Mesh C F) (id : Nat) (f : F) : Outcome Bool :=
  (lookup m.faces f).bind fun eid => eid.conv.bind fun eid =>
    (isBoundaryId m eid).bind fun b =>
      if b then (boundaryIdOfId m eid).bind fun i => .ok (i == id) else .ok false

/-- Iterating over the faces of one boundary, `mesh/mesh.hpp:552-565`. -/
def boundaryFacesId [LT F] [DecidableLT F] (m : Mesh C F) (id : Nat) : Outcome (List F) :=
  sizeOk m ((filterBegin (boundaryWithIdPred m id) m.faces 0).bind fun b =>
    filterLoop (boundaryWithIdPred m id) m.faces m.faces.length b)

end Verif.MeshTopo
