import Verif.Model.TriRefine
/-!
Building a hierarchy of nested triangle meshes: `mesh/mesh_hierarchy.hpp:46-400`.

Simplifications: the member `boundary_id` of an internal edge is not initialised when the edge is not a
boundary edge (`mesh/mesh_hierarchy.hpp:51-62,64-74`) and is copied around; the parameter `junk` is the
value found there. The test `is_boundary(e)` and the identifier `boundary_id(e)` of a stored edge are the
ones stored with it. `assert`s are undefined behaviour when they fail.
-/
namespace Verif.Hierarchy
open TriRefine

/-- `struct edge`, `mesh/mesh_hierarchy.hpp:46-108`: `pb` is `none` until the edge is broken. -/
structure HEdge where
  e : Edge
  pb : Option Nat
  bid : Nat
  bnd : Bool
  deriving DecidableEq, Repr

/-- Comparison of edges ignores everything but the two points, `mesh/mesh_hierarchy.hpp:88-96`. -/
def hlt (x y : HEdge) : Bool := decide (x.e < y.e)

/-- `edge(msh, e)`, `mesh/mesh_hierarchy.hpp:50-62`. -/
def ofMesh (junk : Nat) (x : Edge × Bd) : HEdge := ⟨x.1, none, if x.2.bnd then x.2.id else junk, x.2.bnd⟩

/-- `edge(ap0, ap1, bid, bnd)`, `mesh/mesh_hierarchy.hpp:76-86`. -/
def mk4 (p q : Nat) (x : HEdge) : HEdge := ⟨mkEdge p q, none, x.bid, x.bnd⟩

/-- `edge(ap0, ap1, false)`, `mesh/mesh_hierarchy.hpp:64-74`. -/
def mk3 (junk p q : Nat) : HEdge := ⟨mkEdge p q, none, junk, false⟩

section
variable {K : Type} [Field K]

/-- The loop that breaks the edges, `mesh/mesh_hierarchy.hpp:147-155`. -/
def breakAll : List (K × K) → List HEdge → Outcome (List (K × K) × List HEdge)
  | pts, [] => .ok (pts, [])
  | pts, x :: xs =>
    match pts[x.e.a]?, pts[x.e.b]? with
    | some p, some q =>
      match breakAll (pts ++ [midpoint p q]) xs with
      | .ok (pts', ys) => .ok (pts', { x with pb := some pts.length } :: ys)
      | o => o
    | _, _ => .ub "m_points out of range"

end

/-- `*std::lower_bound(m_edges.begin(), edges_end, edge(p, q))`: the element found is used whatever it is;
there is none past the end. The assertion that it is broken gives the number of its midpoint. -/
def find (edges : List HEdge) (p q : Nat) : Outcome (HEdge × Nat) :=
  match edges[Lookup.lowerBound (edges.map HEdge.e) (mkEdge p q)]? with
  | none => .ub "dereference of edges_end"
  | some x => match x.pb with
    | none => .ub "assert(is_broken)"
    | some k => .ok (x, k)

/-- One turn of the loop over the triangles, `mesh/mesh_hierarchy.hpp:161-208`. -/
def split (junk : Nat) (edges : List HEdge) (t : Tri) : Outcome (List HEdge × (Tri × List Tri)) :=
  (find edges t.a t.b).bind fun r0 =>
  (find edges t.b t.c).bind fun r1 =>
  (find edges t.a t.c).bind fun r2 =>
  let x0 := r0.1; let b0 := r0.2
  let x1 := r1.1; let b1 := r1.2
  let x2 := r2.1; let b2 := r2.2
  if x0.e.b = x1.e.a ∧ x1.e.b = x2.e.b ∧ x0.e.a = x2.e.a then
    .ok ([mk4 x0.e.a b0 x0, mk3 junk b0 b2, mk4 x0.e.a b2 x2,
          mk4 x0.e.b b0 x0, mk3 junk b0 b1, mk4 x1.e.a b1 x1,
          mk4 x1.e.b b1 x1, mk3 junk b1 b2, mk4 x2.e.b b2 x2],
         (t, [mkTri x0.e.a b0 b2, mkTri x0.e.b b0 b1, mkTri x1.e.b b1 b2, mkTri b0 b1 b2]))
  else .ub "assert(t_e0.p1 == t_e1.p0)"

/-- The loop over the triangles: new edges in order of creation, and for every triangle its four parts
(the list `m_triangles` is used as a queue, `coarse_to_fine_int` records the parts). -/
def splitAll (junk : Nat) (edges : List HEdge) : List Tri → Outcome (List HEdge × List (Tri × List Tri))
  | [] => .ok ([], [])
  | t :: ts =>
    (split junk edges t).bind fun r =>
    (splitAll junk edges ts).bind fun rs => .ok (r.1 ++ rs.1, r.2 :: rs.2)

/-- `std::remove_if` without the `erase`, `mesh/mesh_hierarchy.hpp:211-212`: the elements kept are moved
to the front and the length does not change; the tail of a vector of trivially copyable elements keeps
its old contents. -/
def removeIf (p : HEdge → Bool) (l : List HEdge) : List HEdge :=
  let kept := l.filter fun x => !p x
  kept ++ l.drop kept.length

/-- `std::unique` with the edges' `operator==`: of equal neighbours the first is kept. -/
def uniqueFrom (last : HEdge) : List HEdge → List HEdge
  | [] => []
  | y :: ys => if last.e = y.e then uniqueFrom last ys else y :: uniqueFrom y ys

/-- See `uniqueFrom`. -/
def unique : List HEdge → List HEdge
  | [] => []
  | x :: xs => x :: uniqueFrom x xs

/-- `sort_uniq(m_edges)`, `mesh/mesh_hierarchy.hpp:215`. -/
def sortUniq (l : List HEdge) : List HEdge := unique (Sort.sortBy hlt l)

section
variable {K : Type} [Field K]

/-- `build_next`, `mesh/mesh_hierarchy.hpp:145-280,319-327`: the refined mesh, and the parts of every
triangle. -/
def buildNext (junk : Nat) (m : Mesh K) : Outcome (Mesh K × List (Tri × List Tri)) :=
  let es := Sort.sortBy hlt (m.edges.map (ofMesh junk))
  (breakAll m.points es).bind fun r =>
  (splitAll junk r.2 m.tris).bind fun s =>
  let es' := sortUniq (removeIf (fun x => x.pb.isSome) (r.2 ++ s.1))
  .ok ({ points := r.1
         edges := es'.map fun x => (x.e, ⟨x.bid, x.bnd⟩)
         tris := Sort.sortBy (fun x y => decide (x < y)) (s.2.flatMap Prod.snd) }, s.2)

end

/-- The identifiers of the parts of one triangle: `fine.lookup`, `mesh/mesh_hierarchy.hpp:299-308`. -/
def lookups (fine : List Tri) : List Tri → Outcome (List Nat)
  | [] => .ok []
  | t :: ts =>
    (Lookup.lookup fine t).bind fun i =>
    i.conv.bind fun i =>
    (lookups fine ts).bind fun is => .ok (i :: is)

/-- The loop of `make_coarse_to_fine_map`, `mesh/mesh_hierarchy.hpp:288-312`. -/
def c2fLoop (coarse fine : List Tri) : List (Tri × List Tri) → List (List Nat) → Outcome (List (List Nat))
  | [], ret => .ok ret
  | (t, ks) :: rest, ret =>
    (Lookup.lookup coarse t).bind fun i =>
    i.conv.bind fun i =>
    (lookups fine ks).bind fun is => c2fLoop coarse fine rest (ret.set i is)

/-- `make_coarse_to_fine_map`, `mesh/mesh_hierarchy.hpp:282-317`: `ret` starts with zeros, and the map
`coarse_to_fine_int` is traversed in increasing order of its keys. -/
def c2f (coarse fine : List Tri) (parts : List (Tri × List Tri)) : Outcome (List (List Nat)) :=
  c2fLoop coarse fine (Sort.sortBy (fun x y => decide (x.1 < y.1)) parts)
    (List.replicate coarse.length [0, 0, 0, 0])

/-- `build_hierarchy`, `mesh/mesh_hierarchy.hpp:389-412`: the meshes of levels `0 … levels` and the
`levels` maps. -/
def build {K : Type} [Field K] (junk : Nat) : Nat → Mesh K → Outcome (List (Mesh K) × List (List (List Nat)))
  | 0, m => .ok ([m], [])
  | k + 1, m =>
    (buildNext junk m).bind fun r =>
    (c2f m.tris r.1.tris r.2).bind fun c =>
    (build junk k r.1).bind fun rest => .ok (m :: rest.1, c :: rest.2)

end Verif.Hierarchy
