import Verif.Model.MeshTopo
/-!
Numbering of the boundary unknowns of the two-dimensional virtual element method:
`methods/implementation_vem/methods_vem_2d.hpp:35-181` (`faces_ccw` and `dof_mapper`).

Simplifications: a face is the list of its two point numbers in stored order, faces are ordered lexicographically. A
cell is given by the point numbers returned by `point_ids()`; a cell of a generic mesh also by the faces
`faces(msh, cl)`. `std::map` is the list of the writes, the last one first. Numbers do not overflow.
-/
namespace Verif.VemDofs
open Verif.Lookup Verif.MeshTopo

/-- The cells of the three kinds of two-dimensional meshes. -/
inductive Cell where
  | tri (p0 p1 p2 : Nat)
  | quad (p0 p1 p2 p3 : Nat)
  | poly (pts : List Nat) (fcs : List (List Nat))

/-- The inner loop of `faces_ccw` for generic meshes, `methods_vem_2d.hpp:93-99`. -/
def matching (n0 n1 : Nat) (flipped : Bool) : List (List Nat) → Outcome (List (List Nat × Bool))
  | [] => .ok []
  | f :: fs => match f with
    | [a, b] =>
      if a < b then (matching n0 n1 flipped fs).bind fun r =>
        .ok (if a = n0 ∧ b = n1 then (f, flipped) :: r else r)
      else .ub "assert(fc_ptids[0] < fc_ptids[1])"
    | _ => .ub "assert(fc_ptids.size() == 2)"

/-- The outer loop, `methods_vem_2d.hpp:83-100`; `i` is the loop counter. -/
def polyLoop (pts : List Nat) (fcs : List (List Nat)) : List Nat → Outcome (List (List Nat × Bool))
  | [] => .ok []
  | i :: is =>
    let n0 := pts.getD i 0
    let n1 := pts.getD ((i + 1) % pts.length) 0
    (if n0 > n1 then matching n1 n0 true fcs else matching n0 n1 false fcs).bind fun r =>
      (polyLoop pts fcs is).bind fun rs => .ok (r ++ rs)

/-- `faces_ccw(msh, cl)`, `methods_vem_2d.hpp:35-104`; the faces of triangles and quadrangles are those of
`geometry/geometry_simplicial.hpp:167-186` and `geometry/geometry_hexahedral.hpp:141-158`. -/
def facesCcw : Cell → Outcome (List (List Nat × Bool))
  | .tri p0 p1 p2 =>
    if p0 < p1 ∧ p1 < p2 then .ok [([p0, p1], false), ([p1, p2], false), ([p0, p2], true)]
    else .ub "assert (ptids[0] < ptids[1] && ptids[1] < ptids[2])"
  | .quad p0 p1 p2 p3 =>
    .ok [([p0, p1], false), ([p1, p3], false), ([p2, p3], true), ([p0, p2], true)]
  | .poly pts fcs => (polyLoop pts fcs (List.range pts.length)).bind fun r =>
    if fcs.length = r.length then .ok r else .ub "assert(fcs.size() == reorder.size())"

/-- A mesh: number of points, faces, cells and boundary descriptors. -/
structure Mesh where
  npts : Nat
  faces : List (List Nat)
  cells : List Cell
  binfo : List BDesc

/-- The members of a `dof_mapper`, `methods_vem_2d.hpp:109-111`. -/
structure Mapper where
  byFace : List (List Nat)
  byCell : List (List Nat)
  bnd : List (Nat × List Nat)

/-- A newly constructed object before `recompute`. -/
def Mapper.empty : Mapper := ⟨[], [], []⟩

/-- The loop over the faces, `methods_vem_2d.hpp:126-134`; `base` is `pts_base`. -/
def faceLoop (k : Nat) : Nat → List (List Nat) → List (List Nat)
  | _, [] => []
  | base, f :: fs =>
    (f.getD 0 0 :: (List.range (k - 1)).map (base + ·) ++ [f.getD 1 0]) :: faceLoop k (base + (k - 1)) fs

/-- `msh.boundary_info(fc)`, `mesh/mesh.hpp:590-595`. -/
def boundaryInfo (m : Mesh) (f : List Nat) : Outcome BDesc :=
  if m.binfo.length ≠ m.faces.length then .ub "assert(boundary_info.size() == faces_size())"
  else (lookup m.faces f).bind fun i => i.conv.bind fun i =>
    match m.binfo[i]? with
    | some d => .ok d
    | none => .throws "out_of_range"

/-- One cell, `methods_vem_2d.hpp:142-160`: what has been collected in `cl_l2g` and in `bnd_face_dofs`. -/
def cellLoop (m : Mesh) (byFace : List (List Nat)) :
    List (List Nat × Bool) → List Nat → List (Nat × List Nat) → Outcome (List Nat × List (Nat × List Nat))
  | [], l2g, bnd => .ok (l2g, bnd)
  | (f, flip) :: fs, l2g, bnd =>
    (offset m.faces f).bind fun fcofs =>
      match byFace[fcofs]? with
      | none => .ub "l2g_byface read out of range"
      | some l =>
        let dir := if flip then l.reverse else l
        (boundaryInfo m f).bind fun bi =>
          cellLoop m byFace fs (l2g ++ dir.dropLast) (if bi.isB && !bi.isInt then (fcofs, dir) :: bnd else bnd)

/-- The loop over the cells, `methods_vem_2d.hpp:136-162`. -/
def cellsLoop (m : Mesh) : List Cell → Mapper → Outcome Mapper
  | [], M => .ok M
  | c :: cs, M => (facesCcw c).bind fun fs => (cellLoop m M.byFace fs [] M.bnd).bind fun r =>
    cellsLoop m cs { M with byCell := M.byCell ++ [r.1], bnd := r.2 }

/-- `recompute(msh, k)`, `methods_vem_2d.hpp:118-163`, on the members of the object. -/
def recompute (m : Mesh) (k : Nat) (M : Mapper) : Outcome Mapper :=
  if k < 1 then .throws "dof_mapper: degree must be > 0"
  else cellsLoop m m.cells { M with byFace := M.byFace ++ faceLoop k m.npts m.faces }

/-- The constructor, `methods_vem_2d.hpp:114-116`. -/
def construct (m : Mesh) (k : Nat) : Outcome Mapper := recompute m k .empty

/-- `face_to_global`, `methods_vem_2d.hpp:165-168`. -/
def faceToGlobal (M : Mapper) (i : Nat) : Outcome (List Nat) :=
  match M.byFace[i]? with
  | some l => .ok l
  | none => .ub "assert(face_num < l2g_byface.size())"

/-- `cell_to_global`, `methods_vem_2d.hpp:170-173`. -/
def cellToGlobal (M : Mapper) (i : Nat) : Outcome (List Nat) :=
  match M.byCell[i]? with
  | some l => .ok l
  | none => .ub "assert(cell_num < l2g_bycell.size())"

/-- `bnd_to_global`, `methods_vem_2d.hpp:175-180`. -/
def bndToGlobal (M : Mapper) (i : Nat) : List Nat := (M.bnd.lookup i).getD []

end Verif.VemDofs
