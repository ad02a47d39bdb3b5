import Verif.Model.Fvca5
import Verif.Model.Renumber
/-!
Medit mesh files: `medit_mesh_loader<T,2>` and `medit_mesh_loader<T,3>`, `loaders/loader_medit.hpp:42-713`, and
`load_mesh_medit`, `loaders/loader.hpp:103-119,189-203`.

Simplifications. A file is a list of tokens separated by white space; words begin with a letter. A number with a
fractional part is not negative if its integer part is not. Using a variable that was never written is `ub`. A count
larger than `cap` makes `reserve` throw. An edge is the list of its two nodes. Printing is left out. Meshes are loaded
into a newly constructed mesh object.

A failed extraction leaves the stream unusable. In two dimensions the keyword then keeps its value, the block it names
is entered again and its number of elements is never written: every failure inside a block is `ub`.
-/
namespace Verif.Medit
open Verif.MeshFile Verif.MeshTopo
open Verif.Fvca5 (unat ucoord insertEdge Poly Loaded surfacesOf)

section
variable {K : Type} [Ring K]

/-! ### Two dimensions -/

/-- `ifs >> n` with `size_t n` inside a block. -/
def num (ts : List (Tok K)) : Outcome (Nat × List (Tok K)) :=
  match unat ts with
  | some r => .ok r
  | none => .ub "elements_to_read is not initialised"

/-- `ifs >> x` with a floating point `x` inside a block. -/
def real (ts : List (Tok K)) : Outcome (K × List (Tok K)) :=
  match ucoord ts with
  | some r => .ok r
  | none => .ub "elements_to_read is not initialised"

/-- `ifs >> elements_to_read` followed by `reserve`: too large a number gives the largest one. -/
def count (cap : Nat) (ts : List (Tok K)) : Outcome (Nat × List (Tok K)) :=
  match unat ts with
  | some r => if cap < r.1 then .throws "length_error or bad_alloc" else .ok r
  | none => match ts with
    | .int _ :: _ => .throws "length_error"
    | .real _ _ _ :: _ => .throws "length_error"
    | _ => .ub "elements_to_read is not initialised"

/-- The loop of `medit_read_vertices`, `loader_medit.hpp:85-90`. -/
def vertices : Nat → List (Tok K) → Outcome (List (K × K) × List (Tok K))
  | 0, ts => .ok ([], ts)
  | n + 1, ts => (real ts).bind fun x => (real x.2).bind fun y => (real y.2).bind fun z => (real z.2).bind fun i =>
    (vertices n i.2).bind fun r => .ok ((x.1, y.1) :: r.1, r.2)

/-- The corners of a polygon, `loader_medit.hpp:109-115`. -/
def corners : Nat → List (Tok K) → Outcome (List Nat × List (Tok K))
  | 0, ts => .ok ([], ts)
  | j + 1, ts => (num ts).bind fun v => (corners j v.2).bind fun r => .ok (Fvca6.pred64 v.1 :: r.1, r.2)

end

/-- Two nodes, swapped if the first one is larger, `loader_medit.hpp:129-130,161-162`. -/
def swapped (a b : Nat) : List Nat := if a > b then [b, a] else [a, b]

/-- The pairs `nodes[j], nodes[j + 1]`, where the first node follows the last one, `loader_medit.hpp:116,125-127`. -/
def sidesOf (l : List Nat) : List (Nat × Nat) := l.zip (l.tail ++ l.head?.toList)

/-- The edges of a polygon, `loader_medit.hpp:125-134`. -/
def polyEdges : List (Nat × Nat) → Outcome (List (List Nat))
  | [] => .ok []
  | x :: xs => if x.1 = x.2 then .ub "assert(b_edge[0] != b_edge[1])"
    else (polyEdges xs).bind fun r => .ok (swapped x.1 x.2 :: r)

/-- `attached_edges` after the insertions in the order of the list. -/
def attached (es : List (List Nat)) : List (List Nat) := es.foldl (fun s e => insertEdge e s) []

section
variable {K : Type} [Ring K]

/-- The loop of `medit_read_polygons`, `loader_medit.hpp:104-135`: polygons, their edges and what is left. -/
def polygons (k : Nat) : Nat → List (Tok K) → Outcome (List Poly × List (List Nat) × List (Tok K))
  | 0, ts => .ok ([], [], ts)
  | n + 1, ts => (corners k ts).bind fun c => (num c.2).bind fun i => (polyEdges (sidesOf c.1)).bind fun es =>
    (polygons k n i.2).bind fun r => .ok (⟨c.1, attached es, i.1⟩ :: r.1, es ++ r.2.1, r.2.2)

/-- The loop of `medit_read_boundary_edges`, `loader_medit.hpp:151-170`. -/
def boundaryEdges : Nat → List (Tok K) → Outcome (List (List Nat × Nat) × List (Tok K))
  | 0, ts => .ok ([], ts)
  | n + 1, ts => (num ts).bind fun a => (num a.2).bind fun b =>
    if Fvca6.pred64 a.1 = Fvca6.pred64 b.1 then .ub "assert(b_edge[0] != b_edge[1])"
    else (num b.2).bind fun i => (boundaryEdges n i.2).bind fun r =>
      .ok ((swapped (Fvca6.pred64 a.1) (Fvca6.pred64 b.1), i.1) :: r.1, r.2)

/-- The members of the loader, `loader_medit.hpp:64-68`. -/
structure Data (K : Type) where
  points : List (K × K)
  nodes : List (List Nat)
  edges : List (List Nat)
  polys : List Poly
  bnd : List (List Nat × Nat)
  deriving DecidableEq

/-- The names of polygons, `loader_medit.hpp:242-257`. -/
def polyKw (s : String) : Option Nat :=
  if s = "Triangles" then some 3
  else if s = "Quadrilaterals" then some 4
  else if s = "Pentagons" then some 5
  else if s = "Hexagons" then some 6
  else none

/-- One block, `loader_medit.hpp:238-267`; `none`: the keyword is not known. -/
def block (cap : Nat) (d : Data K) (kw : String) (ts : List (Tok K)) : Outcome (Option (Data K × List (Tok K))) :=
  if kw = "Vertices" then (count cap ts).bind fun n => (vertices n.1 n.2).bind fun r =>
    .ok (some ({ d with points := d.points ++ r.1, nodes := d.nodes ++ mkNodes n.1 }, r.2))
  else match polyKw kw with
  | some k => (num ts).bind fun n => (polygons k n.1 n.2).bind fun r =>
    .ok (some ({ d with polys := d.polys ++ r.1, edges := d.edges ++ r.2.1 }, r.2.2))
  | none => if kw = "Edges" then (count cap ts).bind fun n => (boundaryEdges n.1 n.2).bind fun r =>
      .ok (some ({ d with bnd := r.1 }, r.2))
    else .ok none

/-- The loop over the keywords, `loader_medit.hpp:235-270`, at most `fuel` blocks. At the end of the file the keyword
keeps its value: before the first block it is `Dimension`, which is refused. -/
def parseLoop (cap : Nat) : Nat → Bool → Data K → List (Tok K) → Outcome (Option (Data K))
  | _, first, _, [] => if first then .ok none else .ub "elements_to_read is not initialised"
  | 0, _, _, _ :: _ => .ub "out of fuel"
  | fuel + 1, _, d, .word s :: ts =>
    if s = "End" then .ok (some d)
    else (block cap d s ts).bind fun r => match r with
      | none => .ok none
      | some r => parseLoop cap fuel false r.1 r.2
  | _ + 1, _, _, _ :: _ => .ok none

/-- Format and dimension, `loader_medit.hpp:203-233,462-492`, then `next`. -/
def header {α : Type} (next : List (Tok K) → Outcome (Option α)) : List (Tok K) → Outcome (Option α)
  | .word s :: ts =>
    if s ≠ "MeshVersionFormatted" then .ok none
    else if ts = [] then .ub "format is not initialised"
    else match unat ts with
      | none => .ok none
      | some f =>
        if f.1 ≠ 2 then .ok none
        else match f.2 with
        | .word s :: ts =>
          if s ≠ "Dimension" then .ok none
          else if ts = [] then .ub "dim is not initialised"
          else match unat ts with
            | none => .ok none
            | some d => if d.1 ≠ 3 then .ok none else next d.2
        | _ => .ok none
  | _ => .ok none

/-- `medit_read` of an open file, `loader_medit.hpp:191-274`. -/
def read (cap : Nat) (ts : List (Tok K)) : Outcome (Option (Data K)) :=
  header (fun ts => parseLoop cap ts.length true ⟨[], [], [], [], []⟩ ts) ts

end

/-- The edges that differ from all earlier ones, `loader_medit.hpp:306-331`. -/
def firsts (seen : List (List Nat)) : List (List Nat) → List (List Nat)
  | [] => []
  | e :: es => if e ∈ seen then firsts (seen ++ [e]) es else e :: firsts (seen ++ [e]) es

section
variable {K : Type} [Ring K]

/-- `populate_mesh`, `loader_medit.hpp:290-394`: the value returned and the mesh. `srt` is `std::sort` of the surfaces,
the order of surfaces with equal edges is not determined. -/
def populate (srt : List (List Nat × List Nat × Nat) → List (List Nat × List Nat × Nat)) (d : Data K) : Bool × Loaded K :=
  let edges := Sort.sortBy (fun x y => decide (x < y)) (firsts [] d.edges)
  let f := flag edges d.bnd (List.replicate edges.length BDesc.default)
  let start : Loaded K := ⟨d.points, d.nodes, [], [], f.2, []⟩
  if f.1 = false then (false, start)
  else match surfacesOf edges d.polys with
    | none => (false, { start with edges := edges })
    | some ss => (true, { start with edges := edges, surfaces := (srt ss).map fun x => (x.1, x.2.1) })

/-- `load_mesh_medit` in two dimensions; `none`: the file cannot be opened. The value of `populate_mesh` is dropped. -/
def load (cap : Nat) (srt : List (List Nat × List Nat × Nat) → List (List Nat × List Nat × Nat)) :
    Option (List (Tok K)) → Outcome (Bool × Loaded K)
  | none => .ok (false, .empty)
  | some ts => (read cap ts).bind fun r => match r with
    | none => .ok (false, .empty)
    | some d => .ok (true, (populate srt d).2)

/-! ### Three dimensions

Here the variables are new in every turn of a loop. A failed extraction writes its variable unless the file is at its
end; nothing is written afterwards, and the next keyword is not found. `none` stands for a stream that has failed when
all variables used so far were written. -/

/-- `ifs >> n` with a new `size_t n`. -/
def fresh (ts : List (Tok K)) : Outcome (Option (Nat × List (Tok K))) :=
  if ts = [] then .ub "variable is not initialised" else .ok (unat ts)

/-- The entries of a line, `loader_medit.hpp:439-444`. -/
def entries : Nat → List (Tok K) → Outcome (Option (List Nat × List (Tok K)))
  | 0, ts => .ok (some ([], ts))
  | k + 1, ts => (fresh ts).bind fun v => match v with
    | none => if k = 0 then .ok none else .ub "temp is not initialised"
    | some v => (entries k v.2).bind fun r => .ok (r.map fun r => (v.1 :: r.1, r.2))

/-- `read_medit3d_line`, `loader_medit.hpp:432-447`. -/
def line (ts : List (Tok K)) : Outcome (Option (List Nat × List (Tok K))) :=
  (fresh ts).bind fun n => match n with
    | some n => entries n.1 n.2
    | none => match ts with
      | .int _ :: _ => .ub "temp is not initialised"
      | .real _ _ _ :: _ => .ub "temp is not initialised"
      | _ => .ok none

/-- The points, `loader_medit.hpp:504-510`. -/
def points3 : Nat → List (Tok K) → Outcome (Option (List (K × K × K) × List (Tok K)))
  | 0, ts => .ok (some ([], ts))
  | k + 1, ts => match ucoord ts with
    | none => .ub "y is not initialised"
    | some x => match ucoord x.2 with
      | none => .ub "z is not initialised"
      | some y => match ucoord y.2 with
        | none => if y.2 = [] ∨ k ≠ 0 then .ub "z is not initialised" else .ok none
        | some z => (points3 k z.2).bind fun r => .ok (r.map fun r => ((x.1, y.1, z.1) :: r.1, r.2))

/-- A number of lines, for instance `loader_medit.hpp:521-525`. -/
def lines : Nat → List (Tok K) → Outcome (Option (List (List Nat) × List (Tok K)))
  | 0, ts => .ok (some ([], ts))
  | k + 1, ts => (line ts).bind fun l => match l with
    | none => if k = 0 then .ok none else .ub "num_entries is not initialised"
    | some l => (lines k l.2).bind fun r => .ok (r.map fun r => (l.1 :: r.1, r.2))

/-- The boundary faces, `loader_medit.hpp:584-589`. -/
def bnds3 : Nat → List (Tok K) → Outcome (Option (List (Nat × Nat) × List (Tok K)))
  | 0, ts => .ok (some ([], ts))
  | k + 1, ts => match unat ts with
    | none => .ub "id is not initialised"
    | some a => (fresh a.2).bind fun b => match b with
      | none => if k = 0 then .ok none else .ub "num is not initialised"
      | some b => (bnds3 k b.2).bind fun r => .ok (r.map fun r => ((a.1, b.1) :: r.1, r.2))

/-- What a failed extraction writes: zero, or the largest number if the number is too large. -/
def failedValue : List (Tok K) → Nat
  | .int _ :: _ => 18446744073709551615
  | .real _ _ _ :: _ => 18446744073709551615
  | _ => 0

/-- The edges, `loader_medit.hpp:600-611`: nothing is asked of the stream afterwards. -/
def edges3 : Nat → List (Tok K) → Outcome (List (List Nat))
  | 0, _ => .ok []
  | k + 1, ts => match unat ts with
    | none => .ub "v2 is not initialised"
    | some a => (fresh a.2).bind fun b => match b with
      | none => if k = 0 then .ok [swapped a.1 (failedValue a.2)] else .ub "v1 is not initialised"
      | some b => (edges3 k b.2).bind fun r => .ok (swapped a.1 b.1 :: r)

/-- `expect`, `loader_medit.hpp:417-430`. -/
def expect (s : String) : List (Tok K) → Option (List (Tok K))
  | .word w :: ts => if w = s then some ts else none
  | _ => none

/-- A number of lines and the lines. At the end of the file `lines_to_read` keeps the value `prev`; a word makes it
zero. -/
def body {α : Type} (prev : Nat) (f : Nat → List (Tok K) → Outcome (Option (α × List (Tok K)))) (ts : List (Tok K)) :
    Outcome (Option (Nat × α × List (Tok K))) :=
  match unat ts with
  | some n => (f n.1 n.2).bind fun r => .ok (r.map fun r => (n.1, r.1, r.2))
  | none => match ts with
    | [] => if prev = 0 then .ok none else .ub "variable is not initialised"
    | .int _ :: _ => .ub "variable is not initialised"
    | .real _ _ _ :: _ => .ub "variable is not initialised"
    | _ => .ok none

/-- Continue unless the reader has returned `false`, or is going to because the next keyword is not found. -/
def andThen {α β : Type} (o : Outcome (Option α)) (f : α → Outcome (Option β)) : Outcome (Option β) :=
  o.bind fun r => match r with
    | none => .ok none
    | some a => f a

/-- A section: keyword, number of lines, lines. -/
def sect {α : Type} (s : String) (prev : Nat) (f : Nat → List (Tok K) → Outcome (Option (α × List (Tok K))))
    (ts : List (Tok K)) : Outcome (Option (Nat × α × List (Tok K))) :=
  match expect s ts with
  | none => .ok none
  | some ts => body prev f ts

/-- The last section, `loader_medit.hpp:592-611`. -/
def lastSect (prev : Nat) (ts : List (Tok K)) : Outcome (Option (List (List Nat))) :=
  match expect "Edges" ts with
  | none => .ok none
  | some ts => match unat ts with
    | some n => (edges3 n.1 n.2).bind fun r => .ok (some r)
    | none => match ts with
      | [] => if prev = 0 then .ok (some []) else .ub "variable is not initialised"
      | .int _ :: _ => .ub "variable is not initialised"
      | .real _ _ _ :: _ => .ub "variable is not initialised"
      | _ => .ok (some [])

/-- The members of the loader, `loader_medit.hpp:407-415`. -/
structure Data3 (K : Type) where
  points : List (K × K × K)
  v2f : List (List Nat)
  v2v : List (List Nat)
  f2e : List (List Nat)
  f2v : List (List Nat)
  bnd : List (Nat × Nat)
  edges : List (List Nat)
  deriving DecidableEq

/-- The sections, `loader_medit.hpp:494-613`. -/
def sections (cap : Nat) (ts : List (Tok K)) : Outcome (Option (Data3 K)) :=
  match expect "Vertices" ts with
  | none => .ok none
  | some ts =>
  (count cap ts).bind fun n =>
  andThen (points3 n.1 n.2) fun ps =>
  andThen (sect "Volumes->Faces" n.1 lines ps.2) fun v2f =>
  andThen (sect "Volumes->Vertices" v2f.1 lines v2f.2.2) fun v2v =>
  andThen (sect "Faces->Edges" v2v.1 lines v2v.2.2) fun f2e =>
  andThen (sect "Faces->Vertices" f2e.1 lines f2e.2.2) fun f2v =>
  match expect "Faces->Control" f2v.2.2 with
  | none => .ok none
  | some ts =>
  andThen (sect "volumes" f2v.1 bnds3 ts) fun b =>
  andThen (lastSect b.1 b.2.2) fun es => .ok (some ⟨ps.1, v2f.2.1, v2v.2.1, f2e.2.1, f2v.2.1, b.2.1, es⟩)

end

section
variable {K : Type}

/-- `medit3d_read` of an open file, `loader_medit.hpp:449-614`. -/
def read3 (cap : Nat) (ts : List (Tok K)) [Ring K] : Outcome (Option (Data3 K)) := header (sections cap) ts

/-- The containers of the mesh; faces and volumes have the numbers of their edges or faces and their points. -/
structure Loaded3 (K : Type) where
  points : List (K × K × K)
  nodes : List (List Nat)
  edges : List (List Nat)
  faces : List (List Nat × List Nat)
  vols : List (List Nat × List Nat)
  boundary : List BDesc
  deriving DecidableEq

/-- A new mesh. -/
def Loaded3.empty : Loaded3 K := ⟨[], [], [], [], [], []⟩

/-- The descriptors, `loader_medit.hpp:704-709`; nothing is tested. -/
def marks (t : List Nat) : List (Nat × Nat) → List BDesc → Outcome (List BDesc)
  | [], b => .ok b
  | x :: xs, b => match t[x.1]? with
    | none => .ub "conv_table[..] out of range"
    | some j => if j < b.length then marks t xs (b.set j (BDesc.mk2 x.2 true)) else .ub "boundary_info[..] out of range"

/-- `populate_mesh`, `loader_medit.hpp:630-712`: the value returned and the mesh. -/
def populate3 (srt : List Renumber.Entry → List Renumber.Entry) (d : Data3 K) : Outcome (Bool × Loaded3 K) :=
  (Renumber.populate3 (.ub "conv_table[first] out of range") srt
    ⟨Renumber.enumerate d.edges, Renumber.enumerate d.f2e, d.f2v, Renumber.enumerate d.v2f, d.v2v⟩).bind fun p =>
  (marks p.2.2 d.bnd (List.replicate p.1.faces.length BDesc.default)).bind fun b =>
  .ok (false, ⟨d.points, mkNodes d.points.length, p.1.edges, p.1.faces, p.1.vols, b⟩)

/-- `load_mesh_medit` in three dimensions; `none`: the file cannot be opened. The value of `populate_mesh` is dropped. -/
def load3 [Ring K] (cap : Nat) (srt : List Renumber.Entry → List Renumber.Entry) :
    Option (List (Tok K)) → Outcome (Bool × Loaded3 K)
  | none => .ok (false, .empty)
  | some ts => (read3 cap ts).bind fun r => match r with
    | none => .ok (false, .empty)
    | some d => (populate3 srt d).bind fun x => .ok (true, x.2)

end

end Verif.Medit
