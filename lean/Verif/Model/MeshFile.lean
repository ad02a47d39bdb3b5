import Mathlib.Algebra.Ring.Defs
import Verif.Model.Fvca6
import Verif.Model.Neighbours
import Verif.Model.Sort
/-!
Reading Netgen and Cartesian mesh files: `loaders/loader_netgen.hpp`, `loaders/loader_cartesian.hpp`, the number
conversions of `loaders/strtot.hpp` and the wrapper `load_mesh` of `loaders/loader.hpp:103-119`.

Simplifications: a mapped file is a list of tokens separated by white space, the last one followed by at least one
byte of white space. Past the last token the conversions meet the zero bytes that fill the last page of the mapping,
and run out of the mapping when the size of the file is a multiple of the page size (`pad = false`). A count larger
than what the memory can hold (`cap`) ends in an exception of `reserve` or `push_back`. Coordinates are elements of a
ring. An element is the list of its point numbers; the order of `std::array` is the lexicographic order of lists. The
boundary lines of three-dimensional Netgen files are all read before the first one is looked up. `s_tag` of a
subdomain descriptor always equals `s_id` and is left out. Meshes are loaded into a newly constructed mesh object.
-/
namespace Verif.MeshFile
open Verif.Lookup Verif.MeshTopo

/-- Tokens: an integer, a number with integer part `ip` and a fractional part (its value is `x`, the value of what
follows the integer part read on its own is `rest`), such a rest, and a word no number can be read from. -/
inductive Tok (K : Type) where
  | int (z : Int)
  | real (ip : Int) (x rest : K)
  | frac (y : K)
  | word (s : String)

/-- The value of `strtoul`: negative numbers are taken modulo 2⁶⁴, what does not fit gives `ULONG_MAX`. -/
def ulong (z : Int) : Nat :=
  if z.natAbs < 18446744073709551616 then (z % 18446744073709551616).toNat else 18446744073709551615

section
variable {K : Type} [Ring K]

/-- `strtot<size_t>`, `loaders/strtot.hpp:93-99`: the value and the tokens behind `endptr`. Without a conversion the
value is zero and `endptr` stays. -/
def readNat (pad : Bool) : List (Tok K) → Outcome (Nat × List (Tok K))
  | [] => if pad then .ok (0, []) else .ub "read past the end of the mapping"
  | .int z :: ts => .ok (ulong z, ts)
  | .real ip _ rest :: ts => .ok (ulong ip, .frac rest :: ts)
  | .frac y :: ts => .ok (0, .frac y :: ts)
  | .word s :: ts => .ok (0, .word s :: ts)

/-- `strtot<double>`, `loaders/strtot.hpp:69-75`. -/
def readCoord (pad : Bool) : List (Tok K) → Outcome (K × List (Tok K))
  | [] => if pad then .ok (0, []) else .ub "read past the end of the mapping"
  | .int z :: ts => .ok ((z : K), ts)
  | .real _ x _ :: ts => .ok (x, ts)
  | .frac y :: ts => .ok (y, ts)
  | .word s :: ts => .ok (0, .word s :: ts)

/-- Several numbers of a line: `read_tetrahedron_line`, `read_triangle_line`, `read_edge_line`
(`loaders/loader_netgen.hpp:46-88`), `read_hexahedron_line`, `read_hex_face_line`, `read_quad_line`,
`read_quad_face_line` (`loaders/loader_cartesian.hpp:40-98`). -/
def readNats (pad : Bool) : Nat → List (Tok K) → Outcome (List Nat × List (Tok K))
  | 0, ts => .ok ([], ts)
  | k + 1, ts => (readNat pad ts).bind fun r => (readNats pad k r.2).bind fun rs => .ok (r.1 :: rs.1, rs.2)

/-- `read_2d_point_line` and `read_3d_point_line` with scale factor 1, `loaders/loader_utils.hpp:162-185`. -/
def readPoint (pad : Bool) : Nat → List (Tok K) → Outcome (List K × List (Tok K))
  | 0, ts => .ok ([], ts)
  | k + 1, ts => (readCoord pad ts).bind fun r => (readPoint pad k r.2).bind fun rs => .ok (r.1 * 1 :: rs.1, rs.2)

/-- The loop over the points, `loaders/loader_netgen.hpp:135-154`. -/
def readPoints (pad : Bool) (dim : Nat) : Nat → List (Tok K) → Outcome (List (List K) × List (Tok K))
  | 0, ts => .ok ([], ts)
  | k + 1, ts => (readPoint pad dim ts).bind fun r => (readPoints pad dim k r.2).bind fun rs => .ok (r.1 :: rs.1, rs.2)

/-- The loops over the lines with `w` numbers, `loaders/loader_netgen.hpp:170-193,207-226`. -/
def readLines (pad : Bool) (w : Nat) : Nat → List (Tok K) → Outcome (List (List Nat) × List (Tok K))
  | 0, ts => .ok ([], ts)
  | k + 1, ts => (readNats pad w ts).bind fun r => (readLines pad w k r.2).bind fun rs => .ok (r.1 :: rs.1, rs.2)

/-- `lines = strtot<size_t>(..)` and the allocations. -/
def readCount (pad : Bool) (cap : Nat) (ts : List (Tok K)) : Outcome (Nat × List (Tok K)) :=
  (readNat pad ts).bind fun r => if cap < r.1 then .throws "length_error or bad_alloc" else .ok r

/-- What a file contains: the points and the numbers on the lines of the cells and of the boundary. -/
structure Raw (K : Type) where
  points : List (List K)
  cells : List (List Nat)
  bnd : List (List Nat)

/-- The three sections of a file: `netgen_read` (`loaders/loader_netgen.hpp:107-235,321-474`), `hex_read` and
`quad_read` (`loaders/loader_cartesian.hpp:121-274,361-491`). -/
def readRaw (pad : Bool) (cap dim wc wb : Nat) (ts : List (Tok K)) : Outcome (Raw K) :=
  (readCount pad cap ts).bind fun n => (readPoints pad dim n.1 n.2).bind fun p =>
  (readCount pad cap p.2).bind fun m => (readLines pad wc m.1 m.2).bind fun c =>
  (readCount pad cap c.2).bind fun k => (readLines pad wb k.1 k.2).bind fun b => .ok ⟨p.1, c.1, b.1⟩

/-- The containers of a mesh, `mesh/mesh_storage.hpp:113-200`; two-dimensional meshes have no volumes. -/
structure Storage (K : Type) where
  points : List (List K)
  nodes : List (List Nat)
  edges : List (List Nat)
  surfaces : List (List Nat)
  volumes : List (List Nat)
  boundary : List BDesc
  subdomains : List Nat
  deriving DecidableEq

/-- A newly constructed mesh. -/
def Storage.empty : Storage K := ⟨[], [], [], [], [], [], []⟩

/-- What the file name stands for. An empty file cannot be mapped and counts as `missing`. -/
inductive Source (K : Type) where
  | noName
  | missing
  | file (pad : Bool) (toks : List (Tok K))

end

/-- `simplicial_element({..})`, `geometry/element_simplicial.hpp:56-60`: the constructor sorts. -/
def simplex (l : List Nat) : List Nat := Sort.sortBy (fun x y => decide (x < y)) l

/-- The entries of `l` at the given places. -/
def pick (l : List Nat) (ix : List Nat) : List Nat := ix.map fun i => l.getD i 0

/-- `priv::sort_uniq`, `loaders/loader_utils.hpp:153-160`. -/
def sortUniq (l : List (List Nat)) : List (List Nat) := unique (Sort.sortBy (fun x y => decide (x < y)) l)

/-- The nodes, one per point: `node_type({point_id})`. -/
def mkNodes (n : Nat) : List (List Nat) := (List.range n).map fun i => [i]

/-- The loop over the boundary elements of `populate_mesh`, `loaders/loader_netgen.hpp:275-285` and
`loaders/loader_cartesian.hpp:318-329,532-543`: whether all were found, and `boundary_info` afterwards. -/
def flag (faces : List (List Nat)) : List (List Nat × Nat) → List BDesc → Bool × List BDesc
  | [], info => (true, info)
  | x :: xs, info =>
    let position := findElementId faces x.1
    if position.1 = false then (false, info)
    else flag faces xs (info.set position.2.idVal (BDesc.mk2 x.2 true))

/-! ### Netgen -/

/-- The point numbers of a line `domain p1 p2 ..`, counted from 1 in the file. -/
def corners1 (line : List Nat) : List Nat := line.tail.map Fvca6.pred64

/-- The edges of a triangle, `loaders/loader_netgen.hpp:186-188`. -/
def triEdges (p : List Nat) : List (List Nat) := [[0, 1], [1, 2], [0, 2]].map fun ix => simplex (pick p ix)

/-- The edges of a tetrahedron, `loaders/loader_netgen.hpp:400-405`. -/
def tetEdges (p : List Nat) : List (List Nat) :=
  [[0, 1], [0, 2], [0, 3], [1, 2], [1, 3], [2, 3]].map fun ix => simplex (pick p ix)

/-- The surfaces of a tetrahedron, `loaders/loader_netgen.hpp:407-410`. -/
def tetSurfaces (p : List Nat) : List (List Nat) :=
  [[0, 1, 2], [0, 1, 3], [0, 2, 3], [1, 2, 3]].map fun ix => simplex (pick p ix)

/-- `faces(msh, cl)` of a tetrahedron, `geometry/geometry_simplicial.hpp:140-157`. -/
def tetFaces (p : List Nat) : List (List Nat) :=
  [[1, 2, 3], [0, 2, 3], [0, 1, 3], [0, 1, 2]].map fun ix => simplex (pick p ix)

section
variable {K : Type} [Ring K]

/-- `netgen_mesh_loader<T,2>::populate_mesh`, `loaders/loader_netgen.hpp:250-301`: the value returned and the
mesh. -/
def populate2 (r : Raw K) : Bool × Storage K :=
  let cells := r.cells.map corners1
  let edges := sortUniq (cells.flatMap triEdges)
  let surfaces := sortUniq (cells.map simplex)
  let bnd := r.bnd.map fun l => (simplex (corners1 l), l.headD 0)
  let f := flag edges bnd (List.replicate edges.length BDesc.default)
  (f.1, { points := r.points, nodes := mkNodes r.points.length, edges := edges, surfaces := surfaces, volumes := [],
          boundary := f.2, subdomains := if f.1 then List.replicate surfaces.length 0 else [] })

/-- `std::sort(tmp_volumes.begin(), tmp_volumes.end(), tmpvol_comp)`, `loaders/loader_netgen.hpp:429-432`: the order
of equal volumes is not determined. -/
def IsSort (srt : List (List Nat × Nat) → List (List Nat × Nat)) : Prop :=
  ∀ l, (srt l).Perm l ∧ (srt l).Pairwise fun x y => ¬ y.1 < x.1

/-- The second half of `netgen_read`, `loaders/loader_netgen.hpp:425-465`, and `populate_mesh`,
`loaders/loader_netgen.hpp:488-535`, for three-dimensional meshes. -/
def populate3 (srt : List (List Nat × Nat) → List (List Nat × Nat)) (r : Raw K) : Outcome (Bool × Storage K) :=
  let cells := r.cells.map corners1
  let edges := sortUniq (cells.flatMap tetEdges)
  let surfaces := sortUniq (cells.flatMap tetSurfaces)
  let vols := srt (r.cells.map fun l => (simplex (corners1 l), l.headD 0))
  let bnd := r.bnd.map fun l => (simplex (corners1 l), l.headD 0)
  let f := flag surfaces bnd (List.replicate surfaces.length BDesc.default)
  if f.1 = false then .throws "Face not found"
  else (Neighbours.markInternal ⟨vols.map Prod.fst, surfaces, tetFaces, f.2⟩).bind fun info =>
    .ok (true, { points := r.points, nodes := mkNodes r.points.length, edges := edges, surfaces := surfaces,
                 volumes := vols.map Prod.fst, boundary := info, subdomains := vols.map Prod.snd })

/-- `load_mesh_netgen` in two dimensions, `loaders/loader.hpp:103-129`: the value of `populate_mesh` is dropped. -/
def loadNetgen2 (cap : Nat) : Source K → Outcome (Bool × Storage K)
  | .noName => .ok (false, .empty)
  | .missing => .ub "mem() of a file that is not open"
  | .file pad ts => (readRaw pad cap 2 4 3 ts).bind fun r => .ok (true, (populate2 r).2)

/-- `load_mesh_netgen` in three dimensions, `loaders/loader.hpp:103-119,131-137`. -/
def loadNetgen3 (srt : List (List Nat × Nat) → List (List Nat × Nat)) (cap : Nat) :
    Source K → Outcome (Bool × Storage K)
  | .noName => .ok (false, .empty)
  | .missing => .ub "mem() of a file that is not open"
  | .file pad ts => (readRaw pad cap 3 5 4 ts).bind fun r => (populate3 srt r).bind fun x => .ok (true, x.2)

end

/-! ### Cartesian meshes: the elements keep the order of their points -/

/-- The edges of a quadrangle, `loaders/loader_cartesian.hpp:440-443`. -/
def quadEdges (p : List Nat) : List (List Nat) := [[0, 1], [0, 2], [1, 3], [2, 3]].map (pick p)

/-- The edges of a hexahedron, `loaders/loader_cartesian.hpp:206-217`. -/
def hexEdges (p : List Nat) : List (List Nat) :=
  [[0, 1], [0, 2], [0, 4], [1, 3], [1, 5], [2, 3], [2, 6], [3, 7], [4, 5], [4, 6], [5, 7], [6, 7]].map (pick p)

/-- The surfaces of a hexahedron, `loaders/loader_cartesian.hpp:219-224`. -/
def hexSurfaces (p : List Nat) : List (List Nat) :=
  [[0, 2, 6, 4], [1, 3, 7, 5], [0, 1, 3, 2], [4, 5, 7, 6], [0, 4, 5, 1], [2, 6, 7, 3]].map (pick p)

/-- `faces(msh, cl)` of a quadrangle, `geometry/geometry_hexahedral.hpp:141-158`. -/
def quadFaces (p : List Nat) : List (List Nat) := [[0, 1], [0, 2], [1, 3], [2, 3]].map (pick p)

/-- `faces(msh, cl)` of a hexahedron, `geometry/geometry_hexahedral.hpp:168-187`. -/
def hexFaces (p : List Nat) : List (List Nat) :=
  [[0, 2, 6, 4], [1, 3, 7, 5], [0, 1, 3, 2], [4, 5, 7, 6], [0, 4, 5, 1], [2, 6, 7, 3]].map (pick p)

section
variable {K : Type} [Ring K]

/-- `cartesian_mesh_loader<T,2>::populate_mesh`, `loaders/loader_cartesian.hpp:507-557`. -/
def populateQuad (r : Raw K) : Bool × Storage K :=
  let edges := sortUniq (r.cells.flatMap quadEdges)
  let f := flag edges (r.bnd.map fun l => (l, 0)) (List.replicate edges.length BDesc.default)
  (f.1, { points := r.points, nodes := mkNodes r.points.length, edges := edges, surfaces := sortUniq r.cells,
          volumes := [], boundary := f.2, subdomains := [] })

/-- `cartesian_mesh_loader<T,3>::populate_mesh`, `loaders/loader_cartesian.hpp:289-344`: the volumes are sorted,
repetitions stay. -/
def populateHex (r : Raw K) : Bool × Storage K :=
  let surfaces := sortUniq (r.cells.flatMap hexSurfaces)
  let f := flag surfaces (r.bnd.map fun l => (l, 0)) (List.replicate surfaces.length BDesc.default)
  (f.1, { points := r.points, nodes := mkNodes r.points.length, edges := sortUniq (r.cells.flatMap hexEdges),
          surfaces := surfaces, volumes := Sort.sortBy (fun x y => decide (x < y)) r.cells,
          boundary := f.2, subdomains := [] })

/-- `load_mesh_diskpp_cartesian` in two dimensions, `loaders/loader.hpp:103-119,139-145`; the only one of the four
that asks whether the file is open (`loaders/loader_cartesian.hpp:374-375`). -/
def loadQuad (cap : Nat) : Source K → Outcome (Bool × Storage K)
  | .noName => .ok (false, .empty)
  | .missing => .ok (false, .empty)
  | .file pad ts => (readRaw pad cap 2 4 2 ts).bind fun r => .ok (true, (populateQuad r).2)

/-- `load_mesh_diskpp_cartesian` in three dimensions, `loaders/loader.hpp:103-119,147-153`. -/
def loadHex (cap : Nat) : Source K → Outcome (Bool × Storage K)
  | .noName => .ok (false, .empty)
  | .missing => .ub "mem() of a file that is not open"
  | .file pad ts => (readRaw pad cap 3 8 4 ts).bind fun r => .ok (true, (populateHex r).2)

/-- `domain_info(cl)`, `mesh/mesh.hpp:583-588`, for cells stored in `cells`. -/
def domainInfo (s : Storage K) (cells : List (List Nat)) (c : List Nat) : Outcome Nat :=
  if s.subdomains.length ≠ cells.length then .ub "assert(subdomain_info.size() == cells_size())"
  else (lookup cells c).bind fun i => i.conv.bind fun i =>
    match s.subdomains[i]? with
    | some d => .ok d
    | none => .throws "out_of_range"

/-- `points(msh, elem)`, `geometry/geometry_simplicial.hpp:93-109` and `geometry/geometry_hexahedral.hpp:93-109`. -/
def pointsOf (s : Storage K) : List Nat → Outcome (List (List K))
  | [] => .ok []
  | i :: is => match s.points[i]? with
    | none => .ub "past the last point"
    | some p => (pointsOf s is).bind fun ps => .ok (p :: ps)

end

end Verif.MeshFile
