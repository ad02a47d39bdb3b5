import Verif.Spec.Points
/-!
The triangulation of two-dimensional cells by ear cutting: `contrib/earcut.hpp` (the ring without holes) and
`triangulation_earcut_algorithm`, `split_in_raw_triangles`, `split_in_raw_triangles_index` of
`quadratures/bits/raw_simplices.hpp`.

The circular doubly linked list is a list of its nodes in the order of the `next` pointers, turned so that the node a
function works on comes second: `a :: b :: c :: rest` stands for the pointer to `b`, with `b->prev = a` and
`b->next = c`. A node of the C++ list is a position of the list here; `steiner` is only set for holes and left out.
Loops that run until a pointer comes back count the nodes still to be visited. Coordinates are exact. Polygons of more
than eighty points, for which the code looks up the points near an ear by a space-filling curve (`isEarHashed`), are
not treated.
-/
namespace Verif.Earcut
open Verif.Spec

variable {K : Type}

/-- `Node`, `earcut.hpp:45-69`. -/
structure Node (K : Type) where
  i : Nat
  p : P2 K

/-- Triangles in the order of `indices`; `clean` is a ghost: no `cureLocalIntersections` removed a node and no ring of
three or more nodes was given up. -/
structure Result (K : Type) where
  tris : List (Node K × Node K × Node K)
  clean : Bool

section field
variable [Field K] [LinearOrder K]

/-- `area`, `earcut.hpp:800-806`. -/
def area (p q r : P2 K) : K := (q.y - p.y) * (r.x - q.x) - (q.x - p.x) * (r.y - q.y)

/-- `equals`, `earcut.hpp:808-814`. -/
def equals (p q : P2 K) : Bool := decide (p.x = q.x) && decide (p.y = q.y)

/-- `pointInTriangle`, `earcut.hpp:775-782`. -/
def pointInTriangle (a b c p : P2 K) : Bool :=
  decide (0 ≤ (c.x - p.x) * (a.y - p.y) - (a.x - p.x) * (c.y - p.y)) &&
  decide (0 ≤ (a.x - p.x) * (b.y - p.y) - (b.x - p.x) * (a.y - p.y)) &&
  decide (0 ≤ (b.x - p.x) * (c.y - p.y) - (c.x - p.x) * (b.y - p.y))

/-- `sign`, `earcut.hpp:852-857`. -/
def sign (v : K) : Int := (if 0 < v then 1 else 0) - (if v < 0 then 1 else 0)

/-- `onSegment`, `earcut.hpp:843-850`. -/
def onSegment (p q r : P2 K) : Bool :=
  decide (q.x ≤ max p.x r.x) && decide (min p.x r.x ≤ q.x) && decide (q.y ≤ max p.y r.y) && decide (min p.y r.y ≤ q.y)

/-- `intersects`, `earcut.hpp:816-841`. -/
def intersects (p1 q1 p2 q2 : P2 K) : Bool :=
  let o1 := sign (area p1 q1 p2)
  let o2 := sign (area p1 q1 q2)
  let o3 := sign (area p2 q2 p1)
  let o4 := sign (area p2 q2 q1)
  (o1 != o2 && o3 != o4) || (o1 == 0 && onSegment p1 p2 q1) || (o2 == 0 && onSegment p1 q2 q1) ||
    (o3 == 0 && onSegment p2 p1 q2) || (o4 == 0 && onSegment p2 q1 q2)

/-- `locallyInside`, `earcut.hpp:874-881`; `ap`, `an` are the neighbours of `a`. -/
def locallyInside (ap a an b : P2 K) : Bool :=
  if area ap a an < 0 then decide (0 ≤ area a b an) && decide (0 ≤ area a ap b)
  else decide (area a b ap < 0) || decide (area a an b < 0)

/-- The loop of `isEar` over the nodes from `ear->next->next` to the one before `ear->prev`, with their neighbours
(`earcut.hpp:378-388`): the list starts at `ear->next` and ends with `ear->prev`. -/
def noneInside (a b c : P2 K) : List (Node K) → Bool
  | u :: p :: v :: rest =>
    !(pointInTriangle a b c p.p && decide (0 ≤ area u.p p.p v.p)) && noneInside a b c (p :: v :: rest)
  | _ => true

/-- `isEar`, `earcut.hpp:366-389`. -/
def isEar : List (Node K) → Bool
  | a :: b :: c :: rest => decide (area a.p b.p c.p < 0) && noneInside a.p b.p c.p (c :: rest ++ [a])
  | _ => false

/-- From one `continue` of the loop of `earcutLinked` to the next cut (`earcut.hpp:319-344`): the list at the first ear
among `k` nodes. -/
def findEar : Nat → List (Node K) → Option (List (Node K))
  | k + 1, a :: b :: c :: rest =>
    if isEar (a :: b :: c :: rest) then some (a :: b :: c :: rest) else findEar k (b :: c :: rest ++ [a])
  | _, _ => none

/-- The loop of `earcutLinked`, `earcut.hpp:318-342`: the triangles cut off and the nodes left, fewer than three unless
no ear was found. The first argument bounds the number of cuts. -/
def slice : Nat → List (Node K) → List (Node K × Node K × Node K) × List (Node K)
  | m + 1, r =>
    match findEar r.length r with
    | some (a :: b :: c :: rest) =>
      let s := slice m (c :: rest ++ [a])
      ((a, b, c) :: s.1, s.2)
    | _ => ([], r)
  | 0, r => ([], r)

/-- The list at the first node, among `k`, that `filterPoints` removes (`earcut.hpp:276-295`), or the list after `k`
nodes. -/
def findFlat : Nat → List (Node K) → Bool × List (Node K)
  | k + 1, a :: b :: c :: rest =>
    if equals b.p c.p || decide (area a.p b.p c.p = 0) then (true, a :: b :: c :: rest)
    else findFlat k (b :: c :: rest ++ [a])
  | _, r => (false, r)

/-- `filterPoints`, `earcut.hpp:268-298`; `k` nodes are visited unless one is removed, then all. Of two nodes the first
looked at is removed (`area(p->prev, p, p->prev)` is zero), and a single node stays. The first argument bounds the
number of removals. -/
def filterPoints : Nat → Nat → List (Node K) → List (Node K)
  | m + 1, k, r =>
    match r with
    | [a, _] => [a]
    | r =>
      match findFlat k r with
      | (true, a :: _ :: c :: rest) =>
        filterPoints m (rest.length + 2) ((c :: rest).getLast (by simp) :: a :: (c :: rest).dropLast)
      | (_, r') => r'
  | 0, _, r => r

/-- The list at the first node, among `k`, that `cureLocalIntersections` removes (`earcut.hpp:443-462`), or the list
after `k` nodes. Of up to three nodes none is: with two, `locallyInside` fails; otherwise `a` and `b` are the same. -/
def findCross : Nat → List (Node K) → Bool × List (Node K)
  | k + 1, a :: p :: q :: b :: rest =>
    if !equals a.p b.p && intersects a.p p.p q.p b.p &&
        locallyInside ((b :: rest).getLast (by simp)).p a.p p.p b.p &&
        locallyInside q.p b.p (rest.headD a).p a.p then (true, a :: p :: q :: b :: rest)
    else findCross k (p :: q :: b :: rest ++ [a])
  | k, r => (false, r.rotate k)

/-- The loop of `cureLocalIntersections`, `earcut.hpp:437-462`. The first argument bounds the number of cures. -/
def cure : Nat → Nat → List (Node K) → List (Node K × Node K × Node K) × List (Node K)
  | m + 1, k, r =>
    match findCross k r with
    | (true, a :: p :: _ :: b :: rest) =>
      let s := cure m (rest.length + 1) (b :: rest ++ [a])
      ((a, p, b) :: s.1, s.2)
    | (_, r') => ([], r')
  | 0, _, r => ([], r)

/-- `intersectsPolygon`, `earcut.hpp:859-872`, over the given edges `p`, `p->next`. -/
def intersectsPolygon (edges : List (Node K × Node K)) (a b : Node K) : Bool :=
  edges.any fun e => e.1.i != a.i && e.2.i != a.i && e.1.i != b.i && e.2.i != b.i && intersects e.1.p e.2.p a.p b.p

/-- `middleInside`, `earcut.hpp:883-902`. -/
def middleInside (edges : List (Node K × Node K)) (a b : Node K) : Bool :=
  let px := (a.p.x + b.p.x) / 2
  let py := (a.p.y + b.p.y) / 2
  edges.foldl (fun inside e =>
    if (decide (py < e.1.p.y) != decide (py < e.2.p.y)) && decide (e.2.p.y ≠ e.1.p.y) &&
        decide (px < (e.2.p.x - e.1.p.x) * (py - e.1.p.y) / (e.2.p.y - e.1.p.y) + e.1.p.x)
    then !inside else inside) false

/-- `isValidDiagonal`, `earcut.hpp:784-796`. -/
def isValidDiagonal (edges : List (Node K × Node K)) (ap a an bp b bn : Node K) : Bool :=
  an.i != b.i && ap.i != b.i && !intersectsPolygon edges a b &&
  ((locallyInside ap.p a.p an.p b.p && locallyInside bp.p b.p bn.p a.p && middleInside edges a b &&
      (decide (area ap.p a.p bp.p ≠ 0) || decide (area a.p bp.p b.p ≠ 0))) ||
    (equals a.p b.p && decide (0 < area ap.p a.p an.p) && decide (0 < area bp.p b.p bn.p)))

/-- The loop over `b` in `splitEarcut` (`earcut.hpp:474-491`) for a list `a' :: a :: n :: rest`: the two lists that
`splitPolygon` (`earcut.hpp:904-932`) makes, at `a` and at the copy of `b`. `bp` is `b->prev` and `seen` are the nodes
from `n` to the one before `bp`. -/
def findB (edges : List (Node K × Node K)) (a' a n : Node K) :
    Node K → List (Node K) → List (Node K) → Option (List (Node K) × List (Node K))
  | _, _, [] => none
  | bp, seen, b :: rest =>
    if a.i != b.i && isValidDiagonal edges a' a n bp b (rest.headD a') then
      some (a' :: a :: b :: rest, bp :: b :: a :: seen)
    else findB edges a' a n b (seen ++ [bp]) rest

/-- The loop over `a` in `splitEarcut`, `earcut.hpp:472-495`. -/
def findDiagonal : Nat → List (Node K) → Option (List (Node K) × List (Node K))
  | k + 1, a' :: a :: n :: rest =>
    match findB ((a :: n :: rest ++ [a']).zip (n :: rest ++ [a', a])) a' a n n [] rest with
    | some s => some s
    | none => findDiagonal k (a :: n :: rest ++ [a'])
  | _, _ => none

/-- `earcutLinked` (`earcut.hpp:300-364`) from pass 0, with the passes 1 and 2 and `splitEarcut` written out. The first
argument bounds the depth of `splitEarcut`. -/
def linked : Nat → List (Node K) → Result K
  | m + 1, r =>
    let s0 := slice r.length r
    if s0.2.length < 3 then ⟨s0.1, true⟩ else
    let r1 := filterPoints s0.2.length s0.2.length s0.2
    let s1 := slice r1.length r1
    if s1.2.length < 3 then ⟨s0.1 ++ s1.1, true⟩ else
    let f1 := filterPoints s1.2.length s1.2.length s1.2
    let cu := cure f1.length f1.length f1
    let r2 := filterPoints cu.2.length cu.2.length cu.2
    let s2 := slice r2.length r2
    let t := s0.1 ++ s1.1 ++ cu.1 ++ s2.1
    let ok := cu.1.isEmpty
    if s2.2.length < 3 then ⟨t, ok⟩ else
    match findDiagonal s2.2.length s2.2 with
    | none => ⟨t, false⟩
    | some (ra, rc) =>
      let qa := linked m (filterPoints ra.length 1 ra)
      let qc := linked m (filterPoints rc.length 1 rc)
      ⟨t ++ qa.tris ++ qc.tris, ok && qa.clean && qc.clean⟩
  | 0, _ => ⟨[], false⟩

/-- The winding sum of `linkedList`, `earcut.hpp:233-243`: `p1 = points[i]`, `p2 = points[j]` the one before. -/
def windingSum (pts : List (P2 K)) : K :=
  ((sides pts).map fun e => (e.1.x - e.2.x) * (e.2.y + e.1.y)).sum

/-- `linkedList(points, true)`, `earcut.hpp:221-266`, at the node it returns. -/
def linkedList (pts : List (P2 K)) : List (Node K) :=
  let nodes := pts.zipIdx.map fun e => (⟨e.2, e.1⟩ : Node K)
  let l := if 0 < windingSum pts then nodes else nodes.reverse
  match l.getLast?, l.head? with
  | some z, some h =>
    if equals z.p h.p then
      let l' := l.dropLast
      l'.rotate (l'.length - 1)
    else l.rotate (l.length - 2)
  | _, _ => []

/-- `mapbox::earcut` of a single ring, `earcut.hpp:159-219, 963-969`, for at most eighty points: the nodes. -/
def earcut (pts : List (P2 K)) : Option (Result K) :=
  if 80 < pts.length then none
  else
    let r := linkedList pts
    if r.length < 3 then some ⟨[], true⟩ else some (linked r.length r)

/-- `triangulation_earcut_algorithm`, `raw_simplices.hpp:341-402`: triples of local indices. -/
def triangulate (pts : List (P2 K)) : Option (List (Nat × Nat × Nat)) :=
  (earcut pts).map fun r => r.tris.map fun t => (t.1.i, t.2.1.i, t.2.2.i)

/-- `split_in_raw_triangles(msh, cl)`, `raw_simplices.hpp:232-254`, from the points of the cell. -/
def splitTriangles (pts : List (P2 K)) : Option (List (P2 K × P2 K × P2 K)) :=
  (triangulate pts).map fun l =>
    l.map fun t => (pts.getD t.1 ⟨0, 0⟩, pts.getD t.2.1 ⟨0, 0⟩, pts.getD t.2.2 ⟨0, 0⟩)

end field

end Verif.Earcut
