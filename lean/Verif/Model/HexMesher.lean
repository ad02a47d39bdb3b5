import Verif.Model.HexMesh
import Verif.Model.Lookup
/-!
`fvca5_hex_mesher<generic_mesh<T,2>>::make_level`, `mesh/meshgen.hpp:745-856`: from the polygons of
`mesh/meshgen_fvca5hex.hpp` to a generic 2D mesh.

Simplifications: coordinates are lattice coordinates divided by `coord_max` in an arbitrary field, without rounding;
the storage is empty before the call.
-/
namespace Verif.HexMesher
open Verif.HexMesh

/-- `std::lower_bound` with a comparison. -/
def lowerBound {α : Type} (lt : α → α → Bool) (v : List α) (x : α) : Nat :=
  Lookup.lowerBoundLoop (fun i => match v[i]? with | some y => lt y x | none => false) 0 v.length

/-- `fvca5::offset` with zero-based result, `mesh/meshgen_fvca5hex.hpp:368-379`. -/
def offset (points : List Pt) (q : Pt) : Outcome Nat :=
  let i := lowerBound ptLt points q
  match points[i]? with
  | none => .throws "point not found, this is a bug."
  | some y => if y = q then .ok i else .throws "point not found, this is a bug."

/-- A generic edge, `geometry/element_generic.hpp:231-312`: sorted node identifiers and the points in the order given. -/
structure GEdge where
  ids : Nat × Nat
  pts : Nat × Nat
  deriving DecidableEq, Repr

/-- The constructor of `generic_element_edge`. -/
def mkGEdge (a b : Nat) : GEdge := ⟨if a < b then (a, b) else (b, a), (a, b)⟩

/-- `operator<` of edges: lexicographic comparison of the two identifiers. -/
def gedgeLt (e f : GEdge) : Bool := ptLt e.ids f.ids

/-- The lambda `edge_transform`, lines 785-792. -/
def edgeTransform (points : List Pt) (e : Edge) : Outcome GEdge :=
  (offset points e.1).bind fun a =>
  (offset points e.2).bind fun b =>
  if a = b then .ub "assert(ea_ofs != eb_ofs)" else .ok (mkGEdge a b)

/-- `std::transform` with a function that may throw. -/
def transform {α β : Type} (f : α → Outcome β) : List α → Outcome (List β)
  | [] => .ok []
  | a :: l => (f a).bind fun b => (transform f l).bind fun bs => .ok (b :: bs)

/-- `find_element_id`, `mesh/mesh.hpp:184-197`, followed by the test of the result (lines 804-806, 828-830). -/
def findEdge (edges : List GEdge) (e : GEdge) : Outcome Nat :=
  let i := lowerBound gedgeLt edges e
  match edges[i]? with
  | none => .throws "edge not found, this is a bug."
  | some y => if gedgeLt e y then .throws "edge not found, this is a bug." else .ok i

/-- A boundary descriptor: the identifier of the boundary, or internal. -/
abbrev Info := Option Nat

/-- `size_t(boundary)`, `mesh/meshgen_fvca5hex.hpp:25-30`. -/
def sideId : Side → Nat
  | .bottom => 0
  | .right => 1
  | .top => 2
  | .left => 3

/-- The loop over the edges of one side, lines 801-810. -/
def markSide (points : List Pt) (edges : List GEdge) (id : Nat) : List Edge → List Info → Outcome (List Info)
  | [], info => .ok info
  | e :: es, info =>
    (edgeTransform points e).bind fun g =>
    (findEdge edges g).bind fun i =>
    if i < info.length then markSide points edges id es (info.set i (some id)) else .throws "vector::at"

/-- The loop over `boundary_edges`, lines 799-811; a `std::map` is visited by increasing key. -/
def markAll (points : List Pt) (edges : List GEdge) (bnd : Side → List Edge) : List Side → List Info → Outcome (List Info)
  | [], info => .ok info
  | s :: ss, info => (markSide points edges (sideId s) (bnd s) info).bind (markAll points edges bnd ss)

/-- A generic surface: edge identifiers and points. -/
structure Surf where
  edges : List Nat
  pts : List Nat
  deriving DecidableEq, Repr

/-- The loop over the sides of a polygon, lines 821-839. -/
def surface (points : List Pt) (edges : List GEdge) (p : Poly) : Outcome Surf :=
  (transform (fun s => (edgeTransform points (mkEdge s.1 s.2)).bind fun g =>
    (findEdge edges g).bind fun i => (offset points s.1).bind fun a => .ok (i, a)) (sides p)).bind fun l =>
  .ok ⟨l.map Prod.fst, l.map Prod.snd⟩

/-- `operator<` of surfaces, `geometry/element_generic.hpp:179-182`. -/
def surfLt (a b : Surf) : Bool := decide (a.edges < b.edges)

/-- The storage after the call. -/
structure GMesh (K : Type) where
  points : List (K × K)
  nodes : List Nat
  edges : List GEdge
  bnd : List Info
  surfaces : List Surf
  subdomains : List Nat

/-- `make_level`, lines 767-856. -/
def makeLevel (K : Type) [Div K] [NatCast K] (fuel level : Nat) : Outcome (GMesh K) :=
  (makeHexmesh fuel level).bind fun (hm, _) =>
  let points := hm.points.map fun q => ((q.1 : K) / (hm.coordMax : K), (q.2 : K) / (hm.coordMax : K))
  (transform (edgeTransform hm.points) hm.edges).bind fun es =>
  let es := Sort.sortBy gedgeLt es
  (markAll hm.points es hm.bnd [.bottom, .right, .top, .left] (List.replicate es.length none)).bind fun info =>
  (transform (surface hm.points es) hm.polys).bind fun ss =>
  let ss := Sort.sortBy surfLt ss
  .ok ⟨points, List.range hm.points.length, es, info, ss, List.replicate ss.length 0⟩

end Verif.HexMesher
