import Verif.Model.Fvca5
import Verif.Spec.MeshFile
import Verif.Spec.Neighbours
/-!
Contents of an FVCA5 file as a list of blocks, its text, and the data and the mesh it stands for. Of the model only the
types of tokens, of the data read and of the containers of a mesh are used.
-/
namespace Verif.Spec.Fvca5
open Verif.MeshFile (Tok)
open Verif.Fvca5 (Line Poly Data Loaded)
open Verif.Spec (CoordTok natTok)
open Verif.MeshTopo (BDesc)

/-- A line `a b n m` of the edges, counted from zero: two nodes and the polygons on the two sides. -/
structure Edge where
  a : Nat
  b : Nat
  left : Option Nat
  right : Option Nat
  deriving DecidableEq

/-- The blocks of a file; nodes and polygons are counted from zero. A polygon is given by its corners and the number of
its domain, if there is one. -/
inductive Block (K : Type)
  | blank
  | vertices (pts : List (K × K))
  | polys (k : Nat) (ps : List (List Nat × Option Nat))
  | bnd (transmission : Bool) (es : List (Nat × Nat))
  | edges (es : List Edge)

section
variable {K : Type} [Ring K]

/-- The names of polygons in FVCA5 files. -/
def polyName : Nat → Option String
  | 3 => some "triangles"
  | 4 => some "quadrangles"
  | 5 => some "pentagons"
  | 6 => some "hexagons"
  | 7 => some "ennagons"
  | 8 => some "ettagons"
  | _ => none

/-- A neighbour in the file: zero for none. -/
def side : Option Nat → Nat
  | none => 0
  | some i => i + 1

/-- The line of a vertex; anything may follow. -/
def VertexLine (l : Line K) (p : K × K) : Prop := ∃ x y rest, CoordTok x p.1 ∧ CoordTok y p.2 ∧ l = x :: y :: rest

/-- The line of a polygon. -/
def polyLine (p : List Nat × Option Nat) : Line K :=
  p.1.map (fun c => natTok (c + 1)) ++ p.2.toList.map natTok

/-- The line of a boundary edge; anything may follow. -/
def BndLine (l : Line K) (e : Nat × Nat) : Prop := ∃ rest, l = natTok (e.1 + 1) :: natTok (e.2 + 1) :: rest

/-- The line of an edge; anything may follow. -/
def EdgeLine (l : Line K) (e : Edge) : Prop :=
  ∃ rest, l = natTok (e.a + 1) :: natTok (e.b + 1) :: natTok (side e.left) :: natTok (side e.right) :: rest

/-- `ls` is the text of the block. -/
def BlockText : List (Line K) → Block K → Prop
  | ls, .blank => ls = [[]]
  | ls, .vertices pts => ∃ rest vs, List.Forall₂ VertexLine vs pts ∧
      ls = [.word "vertices"] :: (natTok pts.length :: rest) :: vs
  | ls, .polys k ps => ∃ name rest, polyName k = some name ∧
      ls = [.word name] :: (natTok ps.length :: rest) :: ps.map polyLine
  | ls, .bnd t es => ∃ rest vs, List.Forall₂ BndLine vs es ∧
      ls = (if t then [.word "edges", .word "of", .word "transmission"]
        else [.word "edges", .word "of", .word "the", .word "boundary"]) :: (natTok es.length :: rest) :: vs
  | ls, .edges es => ∃ rest vs, List.Forall₂ EdgeLine vs es ∧
      ls = [.word "all", .word "edges"] :: (natTok es.length :: rest) :: vs

/-- `ls` is the text of the blocks one after the other. -/
def FileText (ls : List (Line K)) (bs : List (Block K)) : Prop := ∃ ts, List.Forall₂ BlockText ts bs ∧ ls = ts.flatten

end

section
variable {K : Type}

/-- The points of a block. -/
def Block.points : Block K → List (K × K)
  | .vertices pts => pts
  | _ => []

/-- The polygons of a block. -/
def Block.polygons : Block K → List (List Nat × Option Nat)
  | .polys _ ps => ps
  | _ => []

/-- The boundary edges of a block. -/
def Block.bnds : Block K → List (Nat × Nat)
  | .bnd _ es => es
  | _ => []

/-- The edges of a block. -/
def Block.all : Block K → List Edge
  | .edges es => es
  | _ => []

/-- The block may follow blocks with `np` polygons: numbers are 64-bit numbers, polygons have the right number of
corners, edges join two different nodes and neighbours have been given before. -/
def BlockOk (cap np : Nat) : Block K → Prop
  | .blank => True
  | .vertices pts => pts.length < 2 ^ 64
  | .polys k ps => ps.length < 2 ^ 64 ∧
      ∀ p ∈ ps, p.1.length = k ∧ (∀ c ∈ p.1, c + 1 < 2 ^ 64) ∧ ∀ n, p.2 = some n → n < 2 ^ 64
  | .bnd _ es => es.length ≤ cap ∧ ∀ e ∈ es, e.1 ≠ e.2 ∧ e.1 + 1 < 2 ^ 64 ∧ e.2 + 1 < 2 ^ 64
  | .edges es => es.length < 2 ^ 64 ∧ ∀ e ∈ es, e.a ≠ e.b ∧ e.a + 1 < 2 ^ 64 ∧ e.b + 1 < 2 ^ 64 ∧
      (∀ i, e.left = some i → i < np ∧ i + 1 < 2 ^ 64) ∧ ∀ i, e.right = some i → i < np ∧ i + 1 < 2 ^ 64

/-- Every block may follow the ones before it. -/
def FileOk (cap : Nat) (bs : List (Block K)) : Prop :=
  cap < 2 ^ 64 ∧ ∀ pre b post, bs = pre ++ b :: post → BlockOk cap (pre.flatMap Block.polygons).length b

/-- Two nodes in increasing order. -/
def ordered (a b : Nat) : List Nat := [min a b, max a b]

/-- Polygon number `i` is on a side of the edge. -/
def Edge.Beside (e : Edge) (i : Nat) : Prop := e.left = some i ∨ e.right = some i

/-- The data holds exactly what the blocks contain: points, polygons and edges in the order of the file; the edges of
polygon `i` are the ones that name it as a neighbour, in increasing order. -/
structure Holds (d : Data K) (bs : List (Block K)) : Prop where
  points : d.points = bs.flatMap Block.points
  nodes : d.polys.map (·.nodes) = (bs.flatMap Block.polygons).map Prod.fst
  dom : d.polys.map (·.dom) = (bs.flatMap Block.polygons).map fun p => p.2.getD 0
  bnd : d.bnd = (bs.flatMap Block.bnds).map fun e => ordered e.1 e.2
  edges : d.edges = (bs.flatMap Block.all).map fun e => (ordered e.a e.b, side e.left, side e.right)
  sorted : ∀ p ∈ d.polys, p.attached.Pairwise (· < ·)
  attached : ∀ i p, d.polys[i]? = some p → ∀ x, x ∈ p.attached ↔
    ∃ e ∈ bs.flatMap Block.all, e.Beside i ∧ x = ordered e.a e.b

/-- Data of a mesh: every edge is given once, boundary edges and the edges of polygons are among them, no two polygons
have the same edges, an edge has at most two polygons, and corners are points. -/
structure Proper (d : Data K) : Prop where
  edges : (d.edges.map (·.1)).Nodup
  bnd : ∀ e ∈ d.bnd, e ∈ d.edges.map (·.1)
  sorted : ∀ p ∈ d.polys, p.attached.Pairwise (· < ·)
  attached : ∀ p ∈ d.polys, ∀ e ∈ p.attached, e ∈ d.edges.map (·.1)
  differ : (d.polys.map (·.attached)).Nodup
  two : ∀ e, (d.polys.filter fun p => decide (e ∈ p.attached)).length ≤ 2
  corner : ∀ p ∈ d.polys, ∀ i ∈ p.nodes, i < d.points.length

/-- Surface number `j` of the mesh, with its domain, is the polygon `p`. -/
def IsSurface (m : Loaded K) (j : Nat) (p : Poly) : Prop :=
  ∃ s, m.surfaces[j]? = some s ∧ s.2 = p.nodes ∧ m.subdomains[j]? = some p.dom ∧ s.1.map (m.edges[·]?) = p.attached.map some

/-- The number of polygons with the edge `e`. -/
def polysAt (d : Data K) (e : List Nat) : Nat := (d.polys.filter fun p => decide (e ∈ p.attached)).length

/-- The descriptor of an edge according to the list of boundary edges alone. -/
def Unnumbered (d : Data K) (e : List Nat) (x : BDesc) : Prop :=
  (x.isB = true ↔ e ∈ d.bnd) ∧ (x.isInt = true ↔ e ∈ d.bnd ∧ polysAt d e = 2) ∧ x.id = 0

/-- The mesh of the data `d`, where `num c e` is the side of a square the edge `e` of the surface with the edges `c` is
on, if it is on one. Points and nodes are those of the file, the edges are in increasing order, surfaces and domains are
those of the polygons. If every edge with one polygon is on a side, these edges are the boundary with the number of the
side; the other edges, and otherwise all of them, are on the boundary if the file says so. -/
structure MeshOf (d : Data K) (num : List Nat → List Nat → Option Nat) (m : Loaded K) : Prop where
  points : m.points = d.points
  nodes : m.nodes = (List.range d.points.length).map fun i => [i]
  sorted : m.edges.Pairwise (· < ·)
  edges : ∀ e, e ∈ m.edges ↔ e ∈ d.edges.map (·.1)
  surfSorted : (m.surfaces.map (·.1)).Pairwise (· < ·)
  nsurf : m.surfaces.length = d.polys.length
  nsub : m.subdomains.length = d.polys.length
  stored : ∀ p ∈ d.polys, ∃ j, IsSurface m j p
  surf : ∀ j, j < d.polys.length → ∃ p ∈ d.polys, IsSurface m j p
  nbnd : m.boundary.length = m.edges.length
  numbered : (∀ s ∈ m.surfaces, ∀ e, some e ∈ s.1.map (m.edges[·]?) → polysAt d e = 1 → num s.1 e ≠ none) →
    ∀ (i : Nat) (e : List Nat) (x : BDesc), m.edges[i]? = some e → m.boundary[i]? = some x →
      (polysAt d e = 1 → x.isB = true ∧ x.isInt = false ∧
        ∃ s ∈ m.surfaces, some e ∈ s.1.map (m.edges[·]?) ∧ num s.1 e = some x.id) ∧
      (polysAt d e ≠ 1 → Unnumbered d e x)
  unnumbered : (∃ s ∈ m.surfaces, ∃ e, some e ∈ s.1.map (m.edges[·]?) ∧ polysAt d e = 1 ∧ num s.1 e = none) →
    ∀ (i : Nat) (e : List Nat) (x : BDesc), m.edges[i]? = some e → m.boundary[i]? = some x → Unnumbered d e x

end

end Verif.Spec.Fvca5
