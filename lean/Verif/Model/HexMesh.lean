import Verif.Model.Outcome
import Verif.Model.Sort
/-!
The hexagonal mesh generator: `mesh/meshgen_fvca5hex.hpp`.

Simplifications: the four vectors of `boundary_edges` are a function of the side; `domain_id` of a polygon is never
set or read and is left out; recursion that does not end is `ub` (stack overflow), so recursive functions take
fuel. `size_t` arithmetic that can wrap is reduced modulo 2⁶⁴.
-/
namespace Verif.HexMesh

/-- `point`, lines 32-55: lattice coordinates. -/
abbrev Pt := Nat × Nat

/-- `point::operator<`, lines 46-49. -/
def ptLt (p q : Pt) : Bool := p.1 < q.1 || (p.1 == q.1 && p.2 < q.2)

/-- `point::make_absolute`, lines 40-44. -/
def shift (bx bY : Nat) (p : Pt) : Pt := (p.1 + bx, p.2 + bY)

/-- `edge`, lines 57-82. -/
abbrev Edge := Pt × Pt

/-- The constructor of `edge`, lines 61-67 (its assertion is C28's `c28_edges_proper`). -/
def mkEdge (a b : Pt) : Edge := if ptLt b a then (b, a) else (a, b)

/-- `edge::operator<`, lines 75-78. -/
def edgeLt (e f : Edge) : Bool := ptLt e.1 f.1 || (e.1 == f.1 && ptLt e.2 f.2)

/-- `polygon`, lines 84-108. -/
abbrev Poly := List Pt

/-- `std::lexicographical_compare` of points. -/
def lexLt : Poly → Poly → Bool
  | _, [] => false
  | [], _ :: _ => true
  | p :: ps, q :: qs => if ptLt p q then true else if ptLt q p then false else lexLt ps qs

/-- `polygon::operator<`, lines 98-107. -/
def polyLt (p q : Poly) : Bool :=
  if p.length < q.length then true else if q.length < p.length then false else lexLt p q

/-- `boundary`, lines 25-30. -/
inductive Side where
  | bottom | right | top | left
  deriving DecidableEq, Repr

/-- `make_main_hex`, lines 110-120. -/
def mainHex : List Poly := [[(0, 2), (1, 1), (2, 1), (3, 2), (2, 3), (1, 3)]]
/-- `add_bottom`, lines 122-134. -/
def bottomPolys : List Poly := [[(0, 0), (3, 0), (2, 1), (1, 1)]]
/-- `add_top` on the boundary, lines 136-148. -/
def topPolys : List Poly := [[(0, 4), (1, 3), (2, 3), (3, 4)]]
/-- `add_top` inside, lines 150-160. -/
def topInner : List Poly := [[(0, 4), (1, 3), (2, 3), (3, 4), (2, 5), (1, 5)]]
/-- `add_left`, lines 162-179. -/
def leftPolys : List Poly := [[(0, 0), (1, 1), (0, 2)], [(0, 2), (1, 3), (0, 4)]]
/-- `add_right` on the boundary, lines 181-202. -/
def rightPolys : List Poly := [[(4, 0), (4, 2), (3, 2), (2, 1), (3, 0)], [(4, 2), (4, 4), (3, 4), (2, 3), (3, 2)]]
/-- `add_right` inside, lines 204-223. -/
def rightInner : List Poly :=
  [[(4, 0), (5, 1), (4, 2), (3, 2), (2, 1), (3, 0)], [(4, 2), (5, 3), (4, 4), (3, 4), (2, 3), (3, 2)]]

/-- Boundary edges pushed by the four functions. -/
def sideEdges : Side → List Edge
  | .bottom => [mkEdge (0, 0) (3, 0), mkEdge (3, 0) (4, 0)]
  | .top => [mkEdge (0, 4) (3, 4), mkEdge (3, 4) (4, 4)]
  | .left => [mkEdge (0, 0) (0, 2), mkEdge (0, 2) (0, 4)]
  | .right => [mkEdge (4, 0) (4, 2), mkEdge (4, 2) (4, 4)]

/-- `hexmesh`, lines 225-236, without the owners. -/
structure HM where
  coordMax : Nat
  points : List Pt
  edges : List Edge
  polys : List Poly
  bnd : Side → List Edge

/-- The loop over the sides of a polygon, lines 250-258: `points[i]` with `points[(i+1)%points.size()]`. -/
def sides (p : Poly) : List (Pt × Pt) :=
  (List.range p.length).map fun i => (p.getD i (0, 0), p.getD ((i + 1) % p.length) (0, 0))

/-- `update_geometry`, lines 238-260. -/
def updateGeometry (hm : HM) (polys : List Poly) (bnd : Side → List Edge) : HM :=
  { hm with
    polys := hm.polys ++ polys
    bnd := fun s => hm.bnd s ++ bnd s
    edges := hm.edges ++ polys.flatMap fun p => (sides p).map fun s => mkEdge s.1 s.2
    points := hm.points ++ polys.flatMap fun p => (sides p).map Prod.fst }

/-- Local polygons of a tile, lines 275-293. -/
def localPolys (bottom top left right : Bool) : List Poly :=
  mainHex ++ (if bottom then bottomPolys else []) ++ (if top then topPolys else topInner) ++
    (if left then leftPolys else []) ++ (if right then rightPolys else rightInner)

/-- Local boundary edges of a tile. -/
def localBnd (bottom top left right : Bool) : Side → List Edge
  | .bottom => if bottom then sideEdges .bottom else []
  | .top => if top then sideEdges .top else []
  | .left => if left then sideEdges .left else []
  | .right => if right then sideEdges .right else []

/-- One tile, lines 267-306. -/
def tile (hm : HM) (xmin xmax ymin ymax : Nat) : HM :=
  let bottom := ymin == 0
  let top := ymax == hm.coordMax
  let left := xmin == 0
  let right := xmax == hm.coordMax
  updateGeometry hm ((localPolys bottom top left right).map fun p => p.map (shift xmin ymin))
    (fun s => (localBnd bottom top left right s).map fun e => (shift xmin ymin e.1, shift xmin ymin e.2))

/-- 2⁶⁴. -/
def W : Nat := 18446744073709551616

/-- `hexmesh_work`, lines 262-309. -/
def work : Nat → HM → Nat → Nat → Nat → Nat → Outcome HM
  | 0, _, _, _, _, _ => .ub "stack overflow"
  | fuel + 1, hm, xmin, xmax, ymin, ymax =>
    if (xmax + W - xmin) % W ≠ (ymax + W - ymin) % W then .ub "assert"
    else if (xmax + W - xmin) % W = 4 ∧ (ymax + W - ymin) % W = 4 then .ok (tile hm xmin xmax ymin ymax)
    else
      let xm := ((xmax + xmin) % W) / 2
      let ym := ((ymax + ymin) % W) / 2
      (work fuel hm xmin xm ymin ym).bind fun hm =>
      (work fuel hm xm xmax ymin ym).bind fun hm =>
      (work fuel hm xmin xm ym ymax).bind fun hm =>
      work fuel hm xm xmax ym ymax

/-- `ipow`, lines 311-317. -/
def ipow (base : Nat) : Nat → Nat
  | 0 => 1
  | e + 1 => ipow base e * base % W

/-- `std::unique`. -/
def unique {α : Type} [DecidableEq α] : List α → List α
  | a :: b :: l => if a = b then unique (b :: l) else a :: unique (b :: l)
  | l => l

/-- Owners of an edge. -/
abbrev Owners := Edge → Option Nat × Option Nat

/-- The lambda `add_edge_owner`, lines 336-346. -/
def addOwner (o : Owners) (e : Edge) (k : Nat) : Outcome Owners :=
  match o e with
  | (some _, some _) => .throws "more than two owners for a face."
  | (some a, none) => .ok fun e' => if e' = e then (some a, some k) else o e'
  | (none, b) => .ok fun e' => if e' = e then (some k, b) else o e'

/-- The inner loop, lines 352-357. -/
def addOwners (k : Nat) : List (Pt × Pt) → Owners → Outcome Owners
  | [], o => .ok o
  | s :: ss, o => (addOwner o (mkEdge s.1 s.2) k).bind (addOwners k ss)

/-- The loop over the polygons, lines 348-358; `k` is the position of the first polygon of the list. -/
def ownersFrom : Nat → List Poly → Owners → Outcome Owners
  | _, [], o => .ok o
  | k, p :: ps, o => (addOwners k (sides p) o).bind (ownersFrom (k + 1) ps)

/-- `make_hexmesh`, lines 319-366. -/
def makeHexmesh (fuel l : Nat) : Outcome (HM × Owners) :=
  let cm := ipow 2 (l + 2)
  (work fuel ⟨cm, [], [], [], fun _ => []⟩ 0 cm 0 cm).bind fun hm =>
  let hm := { hm with
    points := unique (Sort.sortBy ptLt hm.points)
    edges := unique (Sort.sortBy edgeLt hm.edges)
    polys := Sort.sortBy polyLt hm.polys }
  (ownersFrom 0 hm.polys fun _ => (none, none)).bind fun o => .ok (hm, o)

end Verif.HexMesh
