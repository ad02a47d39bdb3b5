import Verif.Model.Gmsh
/-!
Prisms generated by GMSH: `gmsh_geometry_loader<generic_mesh<T,3>>`, `loaders/loader_gmsh.hpp:485-990`.

As in `Model/Gmsh`, results of the GMSH API are arguments. `std::sort` is a parameter: it may order elements with equal
keys as it likes. Edges are given by their nodes, smaller one first; the order of the points of an edge is left out, since
it depends on which of several equal edges `std::unique` leaves. Surfaces and volumes are pairs: numbers of
subelements, points. `throw("...")` throws a string.
-/
namespace Verif.GmshPrism
open Verif.Lookup Verif.MeshTopo Verif.MeshFile Verif.Gmsh

/-- An implementation of `std::sort` where elements are compared by their keys. -/
abbrev Sorter := {α : Type} → (α → List Nat) → List α → List α

/-- What `std::sort` guarantees. -/
def IsSorter (srt : Sorter) : Prop :=
  ∀ {α : Type} (key : α → List Nat) (l : List α), (srt key l).Perm l ∧ (srt key l).Pairwise fun x y => ¬ key y < key x

/-- The edges of a prism, `loader_gmsh.hpp:663-671`. -/
def prismEdges (p : List Nat) : List (List Nat) :=
  [[0, 1], [0, 2], [0, 3], [1, 2], [1, 4], [2, 5], [3, 4], [3, 5], [4, 5]].map fun ix => simplex (pick p ix)

/-- The faces of a prism, `loader_gmsh.hpp:673-677,681-685`. -/
def prismFaces (p : List Nat) : List (List Nat) :=
  [[0, 1, 2], [0, 1, 4, 3], [0, 2, 5, 3], [1, 2, 5, 4], [3, 4, 5]].map fun ix => pick p ix

/-- The prisms of an entity with `(subdom_id, tag)`, `gmsh_get_prisms` and the `switch`, `loader_gmsh.hpp:614-716`: elements
of other types are reported on the terminal and left out. -/
def regionPrisms (tab : List (Option Nat)) (r : Region × Nat) : Outcome (List (List Nat × Nat × Nat)) :=
  (traverse (fun b => if b.type = 6 then (elements tab 6 b).bind fun es => .ok (es.map fun e => (e, r.2, r.1.tag))
    else .ok []) r.1.blocks).bind fun l => .ok l.flatten

/-- `std::unique` of faces after the one kept last, compared by `temp_face::operator==`, `loader_gmsh.hpp:513-528`. -/
def uniqFrom (x : List Nat) : List (List Nat) → List (List Nat)
  | [] => []
  | y :: ys => if simplex x = simplex y then uniqFrom x ys else y :: uniqFrom y ys

/-- `priv::sort_uniq(tmp_surfaces)`. -/
def uniqFaces (srt : Sorter) (l : List (List Nat)) : List (List Nat) :=
  match srt simplex l with
  | [] => []
  | x :: xs => x :: uniqFrom x xs

/-- The number of the edge between two nodes, `loader_gmsh.hpp:734-740`. -/
def edgeId (edges : List (List Nat)) (a b : Nat) : Outcome Nat :=
  let e := simplex [a, b]
  match edges[lowerBound edges e]? with
  | none => .throws "edge not found"
  | some y => if y = e then .ok (lowerBound edges e) else .throws "edge not found"

/-- A surface: numbers of its edges and its points, `loader_gmsh.hpp:727-748`. -/
def surface (edges : List (List Nat)) (f : List Nat) : Outcome (List Nat × List Nat) :=
  (traverse (fun i => (read f i).bind fun a => (read f ((i + 1) % f.length)).bind fun b => edgeId edges a b)
    (List.range f.length)).bind fun ids => .ok (ids, f)

/-- `surf_map_table`, `loader_gmsh.hpp:754-766`. -/
def table (srt : Sorter) (surfs : List (List Nat × List Nat)) : List ((List Nat × List Nat) × Nat) :=
  srt (fun x => simplex x.1.2) surfs.zipIdx

/-- `std::equal(a.begin(), a.end(), b.begin())`. -/
def equalTo : List Nat → List Nat → Outcome Bool
  | [], _ => .ok true
  | _ :: _, [] => .ub "read past the end"
  | a :: as, b :: bs => if a = b then equalTo as bs else .ok false

/-- The number of the surface with the points `f`, `loader_gmsh.hpp:771-799,825-842`: `lower_bound` in the table and the test
with `eq`. -/
def find (tab : List ((List Nat × List Nat) × Nat)) (f : List Nat) : Outcome (Option Nat) :=
  match tab[lowerBound (tab.map fun x => simplex x.1.2) (simplex f)]? with
  | none => .ok none
  | some x => (equalTo (simplex x.1.2) (simplex f)).bind fun b => .ok (if b then some x.2 else none)

/-- A volume: numbers of its surfaces and its points, `loader_gmsh.hpp:790-809`. -/
def volume (tab : List ((List Nat × List Nat) × Nat)) (c : List Nat × Nat × Nat) : Outcome (List Nat × List Nat × Nat × Nat) :=
  (traverse (fun f => (find tab f).bind fun o => match o with
    | none => .throws "face not found"
    | some i => .ok i) (prismFaces c.1)).bind fun ids => .ok (ids, c)

/-- The loop over the sides with `k` nodes, `loader_gmsh.hpp:856-886,891-923`. -/
def sideLoop (tab : List (Option Nat)) (surf : List ((List Nat × List Nat) × Nat)) (d : BDesc) (k : Nat) (tags : List Nat) :
    List Nat → List BDesc → Outcome (List BDesc)
  | [], info => .ok info
  | i :: is, info => (corners tab tags k (k * i)).bind fun f => (find surf f).bind fun o =>
      match o with
      | none => .throws "Face not found"
      | some j => if j < info.length then sideLoop tab surf d k tags is (info.set j d) else .throws "out_of_range"

/-- `detect_boundary_faces`, `loader_gmsh.hpp:821-931`; `b` is `b_id`. -/
def patchLoop (tab : List (Option Nat)) (surf : List ((List Nat × List Nat) × Nat)) :
    List Patch → Nat → List BDesc → Outcome (List BDesc)
  | [], _, info => .ok info
  | p :: ps, b, info =>
    match p.types with
    | [s] => (sideLoop tab surf (BDesc.mk3 b p.tag true) 3 s.tri (List.range (turns s.tri.length 3)) info).bind fun info =>
        (sideLoop tab surf (BDesc.mk3 b p.tag true) 4 s.quad (List.range (turns s.quad.length 4)) info).bind fun info =>
        patchLoop tab surf ps (b + 1) info
    | _ => .ub "assert(elemTypes.size() == 1)"

/-- The containers of the mesh. -/
structure Loaded (K : Type) where
  points : List (List K)
  nodes : List (List Nat)
  edges : List (List Nat)
  surfaces : List (List Nat × List Nat)
  volumes : List (List Nat × List Nat)
  boundary : List BDesc
  subdomains : List (Nat × Nat)
  deriving DecidableEq

/-- `read_mesh` and `populate_mesh`, `loader_gmsh.hpp:937-986`. -/
def load {K : Type} (srt : Sorter) (g : Model K) : Outcome (Loaded K) :=
  let tab := tagTable g.nodeTags
  (points 3 g).bind fun ps =>
  (traverse (regionPrisms tab) g.regions.zipIdx).bind fun l =>
    let cells := l.flatten
    let edges := MeshFile.sortUniq (cells.flatMap fun c => prismEdges c.1)
    (traverse (surface edges) (uniqFaces srt (cells.flatMap fun c => prismFaces c.1))).bind fun ss =>
    let surfs := srt Prod.fst ss
    let st := table srt surfs
    (traverse (volume st) cells).bind fun vs =>
    let vols := srt Prod.fst vs
    (patchLoop tab st g.patches 0 (List.replicate surfs.length BDesc.default)).bind fun info =>
    (Neighbours.markInternal ⟨vols.map Prod.fst, surfs.map Prod.fst, fun c => c.map ((surfs.map Prod.fst).getD · []),
      info⟩).bind fun info =>
    .ok { points := ps, nodes := mkNodes g.nodeTags.length, edges := edges, surfaces := surfs,
          volumes := vols.map fun v => (v.1, v.2.1), boundary := info, subdomains := vols.map fun v => v.2.2 }

end Verif.GmshPrism
