import Verif.Model.MeshTopo
import Verif.Model.Util
/-!
`boundary_conditions/boundary_conditions.hpp`: the class `BoundaryConditions`.

The four kinds of conditions have identical storage (one tuple per face, one list of functions, one
counter); they are indexed by `Kind`. Simplifications: function identifiers are integers for all kinds
(the code uses `size_t` for three of them); contact functions have the same value type as the others.
-/
namespace Verif.BoundaryCond
open Verif.Lookup Verif.MeshTopo

/-- The four kinds of conditions. -/
inductive Kind | dirichlet | neumann | robin | contact
  deriving Repr, DecidableEq

/-- Enumerators, `boundary_conditions.hpp:38-68`. -/
def DIRICHLET : Nat := 0
def CLAMPED : Nat := 1
def DX : Nat := 2
def DY : Nat := 3
def DZ : Nat := 4
def DXDY : Nat := 5
def DXDZ : Nat := 6
def DYDZ : Nat := 7
def NOTHING : Nat := 8
def NEUMANN : Nat := 9
def FREE : Nat := 10
def ROBIN : Nat := 11
def WHATEVER : Nat := 12
def SIGNORINI : Nat := 13
def SIGNORINI_FACE : Nat := 14
def SIGNORINI_CELL : Nat := 15
def NO_CONTACT : Nat := 16

/-- The tuple stored per face, `boundary_conditions.hpp:200-208`. -/
structure Entry where
  flag : Bool
  btype : Nat
  bid : Nat
  fid : Int
  deriving Repr, DecidableEq

/-- Storage of one kind: tuples, functions and counter, `boundary_conditions.hpp:194-210`. -/
structure KState (Fn : Type) where
  faces : List Entry
  funcs : List Fn
  count : Nat
  deriving DecidableEq

/-- The object: four storages and the factor, `boundary_conditions.hpp:192-212`. -/
structure State (K Fn : Type) where
  st : Kind → KState Fn
  factor : K

/-- Replace the storage of one kind. -/
def State.put {K Fn : Type} (s : State K Fn) (k : Kind) (x : KState Fn) : State K Fn :=
  { s with st := fun k' => if k' = k then x else s.st k' }

/-- Initial tuples, `boundary_conditions.hpp:242-245`. -/
def initEntry : Kind → Entry
  | .dirichlet => ⟨false, NOTHING, 0, 0⟩
  | .neumann => ⟨false, FREE, 0, 0⟩
  | .robin => ⟨false, WHATEVER, 0, 0⟩
  | .contact => ⟨false, NO_CONTACT, 0, -1⟩

/-- Constructor, `boundary_conditions.hpp:239-246`. -/
def init {C F K Fn : Type} (m : Mesh C F) (one : K) : State K Fn :=
  ⟨fun k => ⟨List.replicate m.faces.length (initEntry k), [], 0⟩, one⟩

section
variable {C F : Type} [LT F] [DecidableLT F]

/-- Loop of `search_faces`, `boundary_conditions.hpp:220-229`. -/
def searchLoop (m : Mesh C F) (b : Nat) : List F → Outcome (List Nat)
  | [] => .ok []
  | f :: fs => (lookup m.faces f).bind fun e => e.conv.bind fun i => (boundaryIdOfId m i).bind fun id =>
      (searchLoop m b fs).bind fun r => .ok (if id = b then i :: r else r)

/-- `search_faces`, `boundary_conditions.hpp:215-234`. -/
def searchFaces (m : Mesh C F) (b : Nat) : Outcome (List Nat) :=
  (boundaryFaces m).bind fun fs => searchLoop m b fs

/-- Identifiers of all boundary faces, as looked up in `boundary_conditions.hpp:285-289`. -/
def lookupLoop (m : Mesh C F) : List F → Outcome (List Nat)
  | [] => .ok []
  | f :: fs => (lookup m.faces f).bind fun e => e.conv.bind fun i =>
      (lookupLoop m fs).bind fun r => .ok (i :: r)

/-- The store loop common to all `add...` members, e.g. `boundary_conditions.hpp:253-257`. -/
def storeLoop {Fn : Type} (e : Entry) : List Nat → KState Fn → Outcome (KState Fn)
  | [], s => .ok s
  | i :: is, s =>
    if i < s.faces.length then storeLoop e is { s with faces := s.faces.set i e, count := s.count + 1 }
    else .throws "out_of_range"

/-- A call of a mutating member. -/
inductive Call (K Fn : Type)
  /-- `addDirichletBC` / `addNeumannBC` / `addRobinBC` / `addContactBC` with a function. -/
  | add (k : Kind) (btype bid : Nat) (fn : Fn)
  /-- `addContactBC` without a function. -/
  | addContact (btype bid : Nat)
  /-- `addDirichletEverywhere`. -/
  | everywhere (fn : Fn)
  /-- `multiplyAllFunctionsByAFactor`. -/
  | scale (x : K)
  deriving DecidableEq

variable {K Fn : Type}

/-- The mutating members, `boundary_conditions.hpp:248-348`. In `addDirichletEverywhere` the lookups
and the stores are interleaved in the code; a lookup cannot depend on a store. -/
def exec (m : Mesh C F) (s : State K Fn) : Call K Fn → Outcome (State K Fn)
  | .add k t b fn =>
    let x := s.st k
    let fid := x.funcs.length
    (searchFaces m b).bind fun l =>
      (storeLoop ⟨true, t, b, fid⟩ l { x with funcs := x.funcs ++ [fn] }).bind fun x => .ok (s.put k x)
  | .addContact t b =>
    (searchFaces m b).bind fun l =>
      (storeLoop ⟨true, t, b, -1⟩ l (s.st .contact)).bind fun x => .ok (s.put .contact x)
  | .everywhere fn =>
    let x := s.st .dirichlet
    let fid := x.funcs.length
    (boundaryFaces m).bind fun fs => (lookupLoop m fs).bind fun l =>
      (storeLoop ⟨true, DIRICHLET, 0, fid⟩ l { x with funcs := x.funcs ++ [fn] }).bind fun x =>
        .ok (s.put .dirichlet x)
  | .scale x => .ok { s with factor := x }

/-- A history of calls. -/
def run (m : Mesh C F) : State K Fn → List (Call K Fn) → Outcome (State K Fn)
  | s, [] => .ok s
  | s, c :: cs => (exec m s c).bind fun s => run m s cs

/-- `vector::at` on the tuples of one kind. -/
def entryAt (s : State K Fn) (k : Kind) (i : Nat) : Outcome Entry :=
  match (s.st k).faces[i]? with
  | some e => .ok e
  | none => .throws "out_of_range"

/-- `is_..._face(size_t)`, `boundary_conditions.hpp:378-423`. -/
def isFace (s : State K Fn) (k : Kind) (i : Nat) : Outcome Bool := (entryAt s k i).bind fun e => .ok e.flag
/-- `..._boundary_type(size_t)`, `boundary_conditions.hpp:426-471`. -/
def typeOf (s : State K Fn) (k : Kind) (i : Nat) : Outcome Nat := (entryAt s k i).bind fun e => .ok e.btype
/-- `..._boundary_id(size_t)`, `boundary_conditions.hpp:474-515`. -/
def idOf (s : State K Fn) (k : Kind) (i : Nat) : Outcome Nat := (entryAt s k i).bind fun e => .ok e.bid

/-- Overload taking a face: forwards the looked-up identifier. -/
def viaFace {α : Type} (m : Mesh C F) (q : Nat → Outcome α) (f : F) : Outcome α :=
  (lookup m.faces f).bind fun e => e.conv.bind q

/-- `is_..._face(face)`, `boundary_conditions.hpp:384,396,408,420`. -/
def isFaceF (m : Mesh C F) (s : State K Fn) (k : Kind) (f : F) : Outcome Bool := viaFace m (isFace s k) f
/-- `..._boundary_type(face)`, `boundary_conditions.hpp:432,444,456,468`. -/
def typeOfF (m : Mesh C F) (s : State K Fn) (k : Kind) (f : F) : Outcome Nat := viaFace m (typeOf s k) f
/-- `..._boundary_id(face)`, `boundary_conditions.hpp:480,492,504,517-521`. The contact overload
forwards to `robin_boundary_id`. -/
def idOfF (m : Mesh C F) (s : State K Fn) (k : Kind) (f : F) : Outcome Nat :=
  match k with
  | .contact => viaFace m (idOf s .robin) f
  | k => viaFace m (idOf s k) f

/-- `..._boundary_func(size_t)`, `boundary_conditions.hpp:663-753`: the stored function, and the factor
it is to be multiplied by (`none` for contact functions, which are returned as stored). A negative
identifier is tested for contact only; converted to `size_t` it is out of range. -/
def funcOf (s : State K Fn) (k : Kind) (i : Nat) : Outcome (Option K × Fn) :=
  (isFace s k i).bind fun b =>
    if !b then .throws "not a face of this kind"
    else (entryAt s k i).bind fun e =>
      if e.fid < 0 then .throws "no function"
      else match (s.st k).funcs[e.fid.toNat]? with
        | none => .throws "out_of_range"
        | some f => .ok (if k = .contact then none else some s.factor, f)

/-- `nb_faces_...`, `boundary_conditions.hpp:356-376`. -/
def nbFaces (s : State K Fn) (k : Kind) : Nat := (s.st k).count

/-- `nb_faces_boundary`, `boundary_conditions.hpp:350-354`. -/
def nbFacesBoundary (s : State K Fn) : Nat :=
  nbFaces s .dirichlet + nbFaces s .neumann + nbFaces s .robin + nbFaces s .contact

/-- `faces_id` followed by the loop of `cell_has_..._faces`, `boundary_conditions.hpp:523-585`; the
identifiers are those of the cell's faces. -/
def cellHas (s : State K Fn) (k : Kind) : List Nat → Outcome Bool
  | [] => .ok false
  | i :: is => (isFace s k i).bind fun b => if b then .ok true else cellHas s k is

/-- `howmany_contact_faces`, `boundary_conditions.hpp:587-602`. -/
def howmanyContact (s : State K Fn) : List Nat → Outcome Nat
  | [] => .ok 0
  | i :: is => (isFace s .contact i).bind fun b => (howmanyContact s is).bind fun n =>
      .ok (if b then n + 1 else n)

/-- Loop shared by `faces_without_contact`, `faces_with_unknowns` and `faces_with_contact`,
`boundary_conditions.hpp:610-661`: keep the faces whose contact type passes the test. -/
def facesByType (m : Mesh C F) (s : State K Fn) (p : Nat → Bool) : List F → Outcome (List F)
  | [] => .ok []
  | f :: fs => (typeOfF m s .contact f).bind fun t => (facesByType m s p fs).bind fun r =>
      .ok (if p t then f :: r else r)

/-- `faces_without_contact`, `boundary_conditions.hpp:610-625`. -/
def facesWithoutContact (m : Mesh C F) (s : State K Fn) (c : C) : Outcome (List F) :=
  facesByType m s (fun t => t == NO_CONTACT) (m.facesOf c)
/-- `faces_with_unknowns`, `boundary_conditions.hpp:627-643`. -/
def facesWithUnknowns (m : Mesh C F) (s : State K Fn) (c : C) : Outcome (List F) :=
  facesByType m s (fun t => t != SIGNORINI_CELL) (m.facesOf c)
/-- `faces_with_contact`, `boundary_conditions.hpp:645-661`. -/
def facesWithContact (m : Mesh C F) (s : State K Fn) (c : C) : Outcome (List F) :=
  facesByType m s (fun t => t != NO_CONTACT) (m.facesOf c)

end

/-- `imposed_dofs<true>`, `boundary_conditions.hpp:124-137`. -/
def imposedScalar (t n : Nat) : Outcome Nat :=
  if t = DIRICHLET then .ok n
  else if t = NOTHING then .ok 0
  else .throws "Unknown Boundary condition"

/-- `imposed_dofs<false>`, `boundary_conditions.hpp:139-173`. Division by a zero dimension is
undefined. -/
def imposedVector (t n dim : Nat) : Outcome Nat :=
  if dim = 0 then .ub "division by zero" else
  let nd := n / dim
  if t = DIRICHLET then .ok n
  else if t = CLAMPED then .ok n
  else if t = DX then .ok nd
  else if t = DY then .ok nd
  else if t = DZ then (if dim ≠ 3 then .throws "You are not in 3D" else .ok nd)
  else if t = DXDY then .ok (2 * nd)
  else if t = DXDZ then (if dim ≠ 3 then .throws "You are not in 3D" else .ok (2 * nd))
  else if t = DYDZ then (if dim ≠ 3 then .throws "You are not in 3D" else .ok (2 * nd))
  else if t = NOTHING then .ok 0
  else .throws "Unknown Boundary condition"

/-- `dirichlet_imposed_dofs(face_id, degree)`, `boundary_conditions.hpp:766-780`, given the number
`n` of face unknowns. -/
def imposedDofs {K Fn : Type} (scalar : Bool) (s : State K Fn) (i n dim : Nat) : Outcome Nat :=
  (isFace s .dirichlet i).bind fun b =>
    if b then (typeOf s .dirichlet i).bind fun t => if scalar then imposedScalar t n else imposedVector t n dim
    else .ok 0

end Verif.BoundaryCond
