import Verif.Model.MeshFile
import Verif.Model.Hypercube
/-!
FVCA5 (`typ1`) mesh files: `fvca5_mesh_loader<T,2>`, `loaders/loader_fvca5.hpp:59-559`, and `load_mesh_fvca5_2d`,
`loaders/loader.hpp:103-119,155-161`.

Simplifications. A file is the list of its pieces between line feeds (the last one may be empty), a line is a list of
tokens separated by white space; words begin with a letter. A number with a fractional part is not negative if its
integer part is not. Using a variable that was never written is `ub`. A count larger than `cap` makes `reserve` throw.
A polygon is known to `renumber_hypercube_boundaries` by the numbers of its edges; `num c e` is
`boundary_number(normal(msh, c, e))`, which is defined if the corners of the polygon are points. Printing is left out. Meshes are loaded into a newly constructed mesh object.
-/
namespace Verif.Fvca5
open Verif.Lookup Verif.MeshTopo Verif.MeshFile

abbrev Line (K : Type) := List (Tok K)

/-- `fvca5_poly`, `loader_fvca5.hpp:68-81`; the `std::set` is a sorted list. -/
structure Poly where
  nodes : List Nat
  attached : List (List Nat)
  dom : Nat
  deriving DecidableEq

/-- The members filled by the reader, `loader_fvca5.hpp:86-89`. An edge of `m_edges` is the list of its two nodes with
the two neighbours. -/
structure Data (K : Type) where
  points : List (K × K)
  polys : List Poly
  bnd : List (List Nat)
  edges : List (List Nat × Nat × Nat)

section
variable {K : Type} [Ring K]

/-- `iss >> n` with `size_t n`; `none`: the stream has failed. -/
def unat : Line K → Option (Nat × Line K)
  | .int z :: ts => if z.natAbs < 18446744073709551616 then some (ulong z, ts) else none
  | .real ip _ rest :: ts => if ip.natAbs < 18446744073709551616 then some (ulong ip, .frac rest :: ts) else none
  | _ => none

/-- `iss >> x` with a floating point `x`. -/
def ucoord : Line K → Option (K × Line K)
  | .int z :: ts => some ((z : K), ts)
  | .real _ x _ :: ts => some (x, ts)
  | .frac y :: ts => some (y, ts)
  | _ => none

/-- `std::isdigit(iss.peek())` after `iss >> std::ws`. -/
def digit : Line K → Bool
  | .int z :: _ => decide (0 ≤ z)
  | .real ip _ _ :: _ => decide (0 ≤ ip)
  | _ => false

/-- `get_next_line`, `loader_fvca5.hpp:91-107`: at the end of the file lines are empty. -/
def next : List (Line K) → Line K × List (Line K)
  | [] => ([], [])
  | l :: ls => (l, ls)

/-- The loop of `fvca5_parse_vertices`, `loader_fvca5.hpp:133-146`. -/
def vertices : Nat → List (Line K) → Option (List (K × K) × List (Line K))
  | 0, ls => some ([], ls)
  | n + 1, ls => (ucoord (next ls).1).bind fun x => (ucoord x.2).bind fun y =>
    (vertices n (next ls).2).bind fun r => some ((x.1, y.1) :: r.1, r.2)

/-- The loop over the corners of a polygon, `loader_fvca5.hpp:177-182`; `none`: the stream has failed. -/
def corners : Nat → Line K → Outcome (Option (List Nat × Line K))
  | 0, l => .ok (some ([], l))
  | j + 1, l => match unat l with
    | some v => (corners j v.2).bind fun r => .ok (r.map fun r => (Fvca6.pred64 v.1 :: r.1, r.2))
    | none => if l = [] ∨ j ≠ 0 then .ub "val is not initialised" else .ok none

/-- The domain number, `loader_fvca5.hpp:192-198`. -/
def domain (l : Line K) : Nat :=
  if digit l then
    match unat l with
    | some v => v.1
    | none => 18446744073709551615
  else 0

/-- The loop of `fvca5_parse_polygons`, `loader_fvca5.hpp:171-201`. -/
def polygons (k : Nat) : Nat → List (Line K) → Outcome (Option (List Poly × List (Line K)))
  | 0, ls => .ok (some ([], ls))
  | n + 1, ls => (corners k (next ls).1).bind fun c => match c with
    | none => .ok none
    | some c => (polygons k n (next ls).2).bind fun r =>
      .ok (r.map fun r => (⟨c.1, [], domain c.2⟩ :: r.1, r.2))

/-- The tests on the two nodes of an edge, `loader_fvca5.hpp:242-260`, `:302-320`: the edge, smaller node first. -/
def edgeOf (a b : Nat) : Option (List Nat) :=
  if a < 1 ∨ b < 1 then none
  else if a - 1 = b - 1 then none
  else if a - 1 > b - 1 then some [b - 1, a - 1] else some [a - 1, b - 1]

/-- The loop of `fvca5_parse_boundary_edges`, `loader_fvca5.hpp:228-263`. -/
def boundaryEdges : Nat → List (Line K) → Option (List (List Nat) × List (Line K))
  | 0, ls => some ([], ls)
  | n + 1, ls => (unat (next ls).1).bind fun a => (unat a.2).bind fun b => (edgeOf a.1 b.1).bind fun e =>
    (boundaryEdges n (next ls).2).bind fun r => some (e :: r.1, r.2)

/-- `attached_edges.insert(e)`. -/
def insertEdge (e : List Nat) : List (List Nat) → List (List Nat)
  | [] => [e]
  | x :: xs => if e < x then e :: x :: xs else if x < e then x :: insertEdge e xs else x :: xs

/-- `if (n > 0) m_polys.at(n - 1).attached_edges.insert(e)`, `loader_fvca5.hpp:322-326`. -/
def attach (ps : List Poly) (n : Nat) (e : List Nat) : Outcome (List Poly) :=
  if 0 < n then
    match ps[n - 1]? with
    | none => .throws "out_of_range"
    | some p => .ok (ps.set (n - 1) { p with attached := insertEdge e p.attached })
  else .ok ps

/-- The loop of `fvca5_parse_all_edges`, `loader_fvca5.hpp:288-337`: polygons, edges and what is left. -/
def allEdges : Nat → List (Line K) → List Poly →
    Outcome (Option (List Poly × List (List Nat × Nat × Nat) × List (Line K)))
  | 0, ls, ps => .ok (some (ps, [], ls))
  | n + 1, ls, ps =>
    match ((unat (next ls).1).bind fun a => (unat a.2).bind fun b => (unat b.2).bind fun na => (unat na.2).bind fun nb =>
      (edgeOf a.1 b.1).bind fun e => some (e, na.1, nb.1)) with
    | none => .ok none
    | some x => (attach ps x.2.1 x.1).bind fun ps => (attach ps x.2.2 x.1).bind fun ps =>
      (allEdges n (next ls).2 ps).bind fun r => .ok (r.map fun r => (r.1, x :: r.2.1, r.2.2))

/-- The keywords of the polygons with their numbers of corners, `loader_fvca5.hpp:354-370`. -/
def polyKw : List (String × Nat) :=
  [("triangles", 3), ("quadrangles", 4), ("pentagons", 5), ("hexagons", 6), ("ennagons", 7), ("ettagons", 8)]

/-- A line of words. -/
def words (l : List String) : Line K := l.map .word

/-- The words of a line, if there is nothing else on it. -/
def asWords : Line K → Option (List String)
  | [] => some []
  | .word s :: ts => (asWords ts).map (s :: ·)
  | _ :: _ => none

/-- The blocks `fvca5_parse_block` tells apart, `loader_fvca5.hpp:348-384`. -/
inductive Kind
  | blank
  | vertices
  | polys (k : Nat)
  | bnd
  | edges
  | unknown
  deriving DecidableEq

/-- The tests with regular expressions. -/
def kind (l : Line K) : Kind :=
  match asWords l with
  | none => .unknown
  | some ws =>
    if ws = [] then .blank
    else if ws = ["vertices"] then .vertices
    else if ws = ["edges", "of", "the", "boundary"] then .bnd
    else if ws = ["edges", "of", "transmission"] then .bnd
    else if ws = ["all", "edges"] then .edges
    else match polyKw.find? fun p => ws = [p.1] with
      | some p => .polys p.2
      | none => .unknown

/-- `fvca5_parse_block`, `loader_fvca5.hpp:342-385`, `none` for `false`. -/
def parseBlock (cap : Nat) (d : Data K) (ls : List (Line K)) : Outcome (Option (Data K × List (Line K))) :=
  match kind (next ls).1 with
  | .blank => .ok (some (d, (next ls).2))
  | .unknown => .ok none
  | .vertices => match unat (next (next ls).2).1 with
    | none => .ok none
    | some n => .ok ((vertices n.1 (next (next ls).2).2).map fun r => ({ d with points := d.points ++ r.1 }, r.2))
  | .polys k => match unat (next (next ls).2).1 with
    | none => .ok none
    | some n => (polygons k n.1 (next (next ls).2).2).bind fun r =>
      .ok (r.map fun r => ({ d with polys := d.polys ++ r.1 }, r.2))
  | .bnd => match unat (next (next ls).2).1 with
    | none => .ok none
    | some n => if cap < n.1 then .throws "length_error or bad_alloc"
      else .ok ((boundaryEdges n.1 (next (next ls).2).2).map fun r => ({ d with bnd := d.bnd ++ r.1 }, r.2))
  | .edges => match unat (next (next ls).2).1 with
    | none => .ok none
    | some n => (allEdges n.1 (next (next ls).2).2 d.polys).bind fun r =>
      .ok (r.map fun r => ({ d with polys := r.1, edges := d.edges ++ r.2.1 }, r.2.2))

/-- The loop of `parse`, `loader_fvca5.hpp:397-409`, at most `fuel` turns. -/
def parseLoop (cap : Nat) : Nat → Data K → List (Line K) → Outcome (Option (Data K))
  | _, d, [] => .ok (some d)
  | 0, _, _ :: _ => .ub "out of fuel"
  | fuel + 1, d, l :: ls => (parseBlock cap d (l :: ls)).bind fun r => match r with
    | none => .ok none
    | some r => parseLoop cap fuel r.1 r.2

/-- `read_mesh` of an open file, `loader_fvca5.hpp:387-425`. Every turn takes at least one line. -/
def read (cap : Nat) (ls : List (Line K)) : Outcome (Option (Data K)) :=
  parseLoop cap ls.length ⟨[], [], [], []⟩ ls

/-- The containers of the mesh; a surface has the numbers of its edges and its points. -/
structure Loaded (K : Type) where
  points : List (K × K)
  nodes : List (List Nat)
  edges : List (List Nat)
  surfaces : List (List Nat × List Nat)
  boundary : List BDesc
  subdomains : List Nat
  deriving DecidableEq

/-- A new mesh. -/
def Loaded.empty : Loaded K := ⟨[], [], [], [], [], []⟩

/-- `surface_edges`, `loader_fvca5.hpp:495-511`: `none` if an edge is not found. -/
def edgeIds (edges : List (List Nat)) : List (List Nat) → Option (List Nat)
  | [] => some []
  | e :: es =>
    let id := findElementId edges e
    if id.1 = false then none else (edgeIds edges es).map (id.2.idVal :: ·)

/-- All polygons: edge numbers, points and domain. -/
def surfacesOf (edges : List (List Nat)) : List Poly → Option (List (List Nat × List Nat × Nat))
  | [] => some []
  | p :: ps => (edgeIds edges p.attached).bind fun ids => (surfacesOf edges ps).map ((ids, p.nodes, p.dom) :: ·)

/-- `std::sort(surfaces.begin(), surfaces.end(), comp)`: the order of surfaces with equal edges is not determined. -/
def IsSort (srt : List (List Nat × List Nat × Nat) → List (List Nat × List Nat × Nat)) : Prop :=
  ∀ l, (srt l).Perm l ∧ (srt l).Pairwise fun x y => ¬ y.1 < x.1

/-- `populate_mesh`, `loader_fvca5.hpp:427-558`: the value returned and the mesh. -/
def populate (srt : List (List Nat × List Nat × Nat) → List (List Nat × List Nat × Nat))
    (num : List Nat → List Nat → Option Nat) (d : Data K) : Outcome (Bool × Loaded K) :=
  let start : Loaded K := { points := d.points, nodes := mkNodes d.points.length, edges := [], surfaces := [], boundary := [],
                            subdomains := [] }
  let edges := Sort.sortBy (fun x y => decide (x < y)) (d.edges.map (·.1))
  let f := flag edges (d.bnd.map fun e => (e, 0)) (List.replicate edges.length BDesc.default)
  if f.1 = false then .ok (false, { start with boundary := f.2 })
  else match surfacesOf edges d.polys with
    | none => .ok (false, { start with edges := edges, boundary := f.2 })
    | some ss =>
      let s := srt ss
      let mesh (b : List BDesc) : Mesh (List Nat) (List Nat) := ⟨s.map (·.1), edges, fun c => c.map (edges.getD · []), b⟩
      (Neighbours.markInternal (mesh f.2)).bind fun b => (Hypercube.renumber (mesh b) num).bind fun r =>
        .ok (true, { start with edges := edges, surfaces := s.map fun x => (x.1, x.2.1), boundary := if r.1 then r.2 else b,
                                subdomains := s.map fun x => x.2.2 })

/-- `load_mesh_fvca5_2d`; `none`: the file cannot be opened. The value of `populate_mesh` is dropped. -/
def load (cap : Nat) (srt : List (List Nat × List Nat × Nat) → List (List Nat × List Nat × Nat))
    (num : List Nat → List Nat → Option Nat) : Option (List (Line K)) → Outcome (Bool × Loaded K)
  | none => .ok (false, .empty)
  | some ls => (read cap ls).bind fun r => match r with
    | none => .ok (false, .empty)
    | some d => (populate srt num d).bind fun x => .ok (true, x.2)

end

end Verif.Fvca5
