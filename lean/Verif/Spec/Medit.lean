import Verif.Model.Medit
import Verif.Spec.Fvca5
import Verif.Spec.Renumber
/-!
Contents of Medit files, their text, and the meshes they stand for. Of the model only the types of tokens and of the
containers of a mesh are used.
-/
namespace Verif.Spec.Medit
open Verif.MeshFile (Tok)
open Verif.Fvca5 (Loaded)
open Verif.Medit (Loaded3)
open Verif.Spec (CoordTok natTok Collects FlaggedAs PermBelow)
open Verif.Spec.Fvca5 (ordered)

/-- The blocks of a two-dimensional file; nodes are counted from zero. Vertices have a third coordinate and a reference
number, polygons and boundary edges a reference number. -/
inductive Block (K : Type)
  | vertices (pts : List (List K))
  | polys (k : Nat) (ps : List (List Nat × Nat))
  | edges (es : List (Nat × List Nat))

section
variable {K : Type} [Ring K]

/-- The names of polygons. -/
def polyName : Nat → Option String
  | 3 => some "Triangles"
  | 4 => some "Quadrilaterals"
  | 5 => some "Pentagons"
  | 6 => some "Hexagons"
  | _ => none

/-- Nodes counted from one, then the reference number. -/
def cornerLine (c : List Nat) (ref : Nat) : List (Tok K) := c.map (fun i => natTok (i + 1)) ++ [natTok ref]

/-- `ts` is the text of the block. -/
def BlockText : List (Tok K) → Block K → Prop
  | ts, .vertices pts => ∃ pt, List.Forall₂ CoordTok pt pts.flatten ∧ ts = .word "Vertices" :: natTok pts.length :: pt
  | ts, .polys k ps => ∃ name, polyName k = some name ∧
      ts = .word name :: natTok ps.length :: ps.flatMap fun p => cornerLine p.1 p.2
  | ts, .edges es => ts = .word "Edges" :: natTok es.length :: es.flatMap fun e => cornerLine e.2 e.1

/-- Format and dimension. -/
def head : List (Tok K) := [.word "MeshVersionFormatted", natTok 2, .word "Dimension", natTok 3]

/-- `ts` is the text of the blocks one after the other; anything may follow the end. -/
def FileText (ts : List (Tok K)) (bs : List (Block K)) : Prop :=
  ∃ tss rest, List.Forall₂ BlockText tss bs ∧ ts = head ++ tss.flatten ++ .word "End" :: rest

end

section
variable {K : Type}

/-- The points of a block. -/
def Block.points : Block K → List (List K)
  | .vertices pts => pts
  | _ => []

/-- The polygons of a block. -/
def Block.polygons : Block K → List (List Nat × Nat)
  | .polys _ ps => ps
  | _ => []

/-- The boundary edges of a block. -/
def Block.bnds : Block K → Option (List (Nat × List Nat))
  | .edges es => some es
  | _ => none

/-- The points of a file: the third coordinate and the reference number are not used. -/
def pointsOf (bs : List (Block K)) : List (K × K) :=
  (bs.flatMap Block.points).filterMap fun
    | [x, y, _, _] => some (x, y)
    | _ => none

/-- The polygons of a file. -/
def polygonsOf (bs : List (Block K)) : List (List Nat × Nat) := bs.flatMap Block.polygons

/-- The boundary edges of a file are those of the last block of edges. -/
def bndOf (bs : List (Block K)) : List (Nat × List Nat) := (bs.filterMap Block.bnds).getLast?.getD []

/-- `e` joins two consecutive corners of the polygon, smaller number first. -/
def Side (c : List Nat) (e : List Nat) : Prop :=
  ∃ j, j < c.length ∧ e = ordered (c.getD j 0) (c.getD ((j + 1) % c.length) 0)

/-- Numbers are 64-bit numbers, vertices have four numbers, polygons the right number of corners and no two equal
consecutive ones, boundary edges two different nodes. -/
def BlockOk (cap : Nat) : Block K → Prop
  | .vertices pts => pts.length ≤ cap ∧ ∀ p ∈ pts, p.length = 4
  | .polys k ps => ps.length < 2 ^ 64 ∧ ∀ p ∈ ps, p.1.length = k ∧ p.2 < 2 ^ 64 ∧ (∀ c ∈ p.1, c + 1 < 2 ^ 64) ∧
      ∀ j, j < p.1.length → p.1.getD j 0 ≠ p.1.getD ((j + 1) % p.1.length) 0
  | .edges es => es.length ≤ cap ∧ ∀ e ∈ es, e.1 < 2 ^ 64 ∧ ∃ a b, e.2 = [a, b] ∧ a ≠ b ∧ a + 1 < 2 ^ 64 ∧ b + 1 < 2 ^ 64

/-- A file of a mesh: blocks are in order, vertices are given in one block, boundary edges are sides of polygons and no
two polygons have the same sides. -/
structure FileOk (cap : Nat) (bs : List (Block K)) : Prop where
  bound : cap < 2 ^ 64
  block : ∀ b ∈ bs, BlockOk cap b
  once : (bs.map Block.points).countP (fun l => decide (0 < l.length)) ≤ 1
  bnd : ∀ e ∈ bndOf bs, ∃ p ∈ polygonsOf bs, Side p.1 (ordered (e.2.getD 0 0) (e.2.getD 1 0))
  differ : (polygonsOf bs).Pairwise fun p q => ∃ e, ¬ (Side p.1 e ↔ Side q.1 e)

/-- Surface number `j` of the mesh is the polygon with corners `c`: it has these points, and its edges are the sides, each
once and in increasing order. -/
def IsSurface (m : Loaded K) (j : Nat) (c : List Nat) : Prop :=
  ∃ s, m.surfaces[j]? = some s ∧ s.2 = c ∧ s.1.Pairwise (· < ·) ∧ ∀ e, (∃ i ∈ s.1, m.edges[i]? = some e) ↔ Side c e

/-- The mesh of the file: points and nodes are the vertices, the edges are the sides of the polygons in increasing order,
the surfaces are the polygons in increasing order of their edges, and an edge is on the boundary exactly if it is listed,
with the number given there. The reference numbers of polygons are not kept. -/
structure MeshOf (bs : List (Block K)) (m : Loaded K) : Prop where
  points : m.points = pointsOf bs
  nodes : m.nodes = (List.range (pointsOf bs).length).map fun i => [i]
  edges : Collects m.edges fun e => ∃ p ∈ polygonsOf bs, Side p.1 e
  sorted : (m.surfaces.map Prod.fst).Pairwise (· < ·)
  nsurf : m.surfaces.length = (polygonsOf bs).length
  stored : ∀ p ∈ polygonsOf bs, ∃ j, IsSurface m j p.1
  surf : ∀ j, j < m.surfaces.length → ∃ p ∈ polygonsOf bs, IsSurface m j p.1
  boundary : FlaggedAs m.boundary m.edges (bndOf bs)
  subdomains : m.subdomains = []

end

/-! ### Three dimensions: everything is counted from zero -/

/-- Contents of a file. -/
structure Contents (K : Type) where
  points : List (K × K × K)
  v2f : List (List Nat)
  v2v : List (List Nat)
  f2e : List (List Nat)
  f2v : List (List Nat)
  bnd : List (Nat × Nat)
  edges : List (Nat × Nat)

section
variable {K : Type} [Ring K]

/-- A line of a table: the number of entries, then the entries. -/
def row (l : List Nat) : List (Tok K) := natTok l.length :: l.map natTok

/-- A table with its keyword. -/
def table (s : String) (l : List (List Nat)) : List (Tok K) := .word s :: natTok l.length :: l.flatMap row

/-- `ts` is the text; anything may follow. -/
def Text (ts : List (Tok K)) (m : Contents K) : Prop :=
  ∃ pt rest, List.Forall₂ CoordTok pt (m.points.flatMap fun p => [p.1, p.2.1, p.2.2]) ∧
    ts = head ++ (.word "Vertices" :: natTok m.points.length :: pt) ++ table "Volumes->Faces" m.v2f ++
      table "Volumes->Vertices" m.v2v ++ table "Faces->Edges" m.f2e ++ table "Faces->Vertices" m.f2v ++
      (.word "Faces->Control" :: .word "volumes" :: natTok m.bnd.length ::
        m.bnd.flatMap fun b => [natTok b.1, natTok b.2]) ++
      (.word "Edges" :: natTok m.edges.length :: m.edges.flatMap fun e => [natTok e.1, natTok e.2]) ++ rest

/-- The numbers of a table are 64-bit numbers. -/
def Fits (l : List (List Nat)) : Prop := l.length < 2 ^ 64 ∧ ∀ r ∈ l, r.length < 2 ^ 64 ∧ ∀ i ∈ r, i < 2 ^ 64

/-- Numbers are 64-bit numbers, and edges, faces and volumes refer to existing ones. -/
structure ContentsOk (cap : Nat) (m : Contents K) : Prop where
  bound : cap < 2 ^ 64
  points : m.points.length ≤ cap
  v2f : Fits m.v2f
  v2v : Fits m.v2v
  f2e : Fits m.f2e
  f2v : Fits m.f2v
  nbnd : m.bnd.length < 2 ^ 64
  bnd : ∀ b ∈ m.bnd, b.1 < m.f2e.length ∧ b.2 < 2 ^ 64
  nedges : m.edges.length < 2 ^ 64
  edge : ∀ e ∈ m.edges, e.1 < 2 ^ 64 ∧ e.2 < 2 ^ 64
  fe : ∀ l ∈ m.f2e, ∀ i ∈ l, i < m.edges.length
  vf : ∀ l ∈ m.v2f, ∀ i ∈ l, i < m.f2e.length
  fv : m.f2v.length = m.f2e.length
  vv : m.v2v.length = m.v2f.length

/-- The boundary number of face `i`: the last one listed. -/
def faceNumber (bnd : List (Nat × Nat)) (i : Nat) : Option Nat :=
  (bnd.filter fun b => decide (b.1 = i)).getLast?.map Prod.snd

/-- The mesh is the file with edges, faces and volumes renumbered by `π`, `σ` and `τ` such that they are in order. -/
structure MeshOf3 (c : Contents K) (m : Loaded3 K) (π σ τ : Nat → Nat) : Prop where
  points : m.points = c.points
  nodes : m.nodes = (List.range c.points.length).map fun i => [i]
  permE : PermBelow c.edges.length π
  permF : PermBelow c.f2e.length σ
  permV : PermBelow c.v2f.length τ
  nedges : m.edges.length = c.edges.length
  nfaces : m.faces.length = c.f2e.length
  nvols : m.vols.length = c.v2f.length
  edges : ∀ i e, c.edges[i]? = some e → m.edges[π i]? = some (ordered e.1 e.2)
  faces : ∀ i es vs, c.f2e[i]? = some es → c.f2v[i]? = some vs → m.faces[σ i]? = some (es.map π, vs)
  vols : ∀ i fs vs, c.v2f[i]? = some fs → c.v2v[i]? = some vs → m.vols[τ i]? = some (fs.map σ, vs)
  edgesSorted : m.edges.Pairwise fun a b => ¬ b < a
  facesSorted : (m.faces.map Prod.fst).Pairwise fun a b => ¬ b < a
  volsSorted : (m.vols.map Prod.fst).Pairwise fun a b => ¬ b < a
  nbnd : m.boundary.length = c.f2e.length
  boundary : ∀ i, i < c.f2e.length → ∃ d, m.boundary[σ i]? = some d ∧ d.isB = (faceNumber c.bnd i).isSome ∧
    d.isInt = false ∧ d.id = (faceNumber c.bnd i).getD 0

end

end Verif.Spec.Medit
