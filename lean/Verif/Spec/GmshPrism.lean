import Verif.Spec.Gmsh
import Verif.Model.GmshPrism
/-!
A mesh of prisms made by GMSH and what a mesh stores when it has been taken over correctly. Of the model only the types
of what GMSH returns and the containers of a mesh are used.
-/
namespace Verif.Spec.GmshPrism
open Verif.Gmsh (Model)
open Verif.GmshPrism (Loaded)
open Verif.MeshTopo (BDesc)
open Verif.Spec (Collects)
open Verif.Spec.Gmsh (Contents Corners listed)

section
variable {K : Type}

/-- GMSH returns the mesh `m` of prisms: elements have type 6; of the sides of a patch, those with three nodes come
first. -/
structure Returns (g : Model K) (m : Contents K) : Prop where
  tags : g.nodeTags = m.nodes.map Prod.fst
  coords : g.coords = (m.nodes.map Prod.snd).flatten
  regions : List.Forall₂ (fun r R => r.tag = R.1 ∧ List.Forall₂
    (fun (b : Verif.Gmsh.Block) (B : List (List Nat)) => b.type = 6 ∧ b.elemTags.length = B.length ∧ b.nodeTags = B.flatten)
      r.blocks R.2) g.regions m.regions
  patches : List.Forall₂ (fun p P => p.tag = P.1 ∧ ∃ s T Q, p.types = [s] ∧ P.2 = T ++ Q ∧ s.tri = T.flatten ∧
    s.quad = Q.flatten ∧ (∀ f ∈ T, f.length = 3) ∧ ∀ f ∈ Q, f.length = 4) g.patches m.patches

/-- Node tags are different, nodes have three coordinates, blocks are not empty, elements have six different nodes, sides
have different nodes. -/
structure Proper (m : Contents K) : Prop where
  tags : (m.nodes.map Prod.fst).Nodup
  coords : ∀ x ∈ m.nodes, x.2.length = 3
  block : ∀ R ∈ m.regions, ∀ B ∈ R.2, B ≠ []
  elem : ∀ R ∈ m.regions, ∀ B ∈ R.2, ∀ e ∈ B, Corners m 6 e
  side : ∀ P ∈ m.patches, ∀ f ∈ P.2, Corners m f.length f

/-- The prism with bottom `a b c` and top `d e f` has the edge `x y`. -/
inductive PrismEdge : List Nat → Nat → Nat → Prop
  | bottom (a b c d e f x y : Nat) : List.Sublist [x, y] [a, b, c] → PrismEdge [a, b, c, d, e, f] x y
  | top (a b c d e f x y : Nat) : List.Sublist [x, y] [d, e, f] → PrismEdge [a, b, c, d, e, f] x y
  | up (a b c d e f x y : Nat) : (x, y) ∈ [a, b, c].zip [d, e, f] → PrismEdge [a, b, c, d, e, f] x y

/-- The face of a prism, its points one after the other along its border: bottom, three sides, top. -/
def facesOf : List Nat → List (List Nat)
  | [a, b, c, d, e, f] => [[a, b, c], [a, b, e, d], [a, c, f, d], [b, c, f, e], [d, e, f]]
  | _ => []

/-- `f` is, up to the order of its points, a face of the prism. -/
def HasFace (c f : List Nat) : Prop := ∃ f' ∈ facesOf c, f'.Perm f

instance (c f : List Nat) : Decidable (HasFace c f) := by unfold HasFace; infer_instance

/-- The nodes `x` are the first ones of `f` in increasing order. -/
def Begins (x f : List Nat) : Prop := ∃ t, f.Perm (x ++ t) ∧ ∀ i ∈ x, ∀ j ∈ t, i < j

/-- The number of prisms with the face `f`. -/
def around (cells : List ((Nat × Nat) × List Nat)) (f : List Nat) : Nat :=
  cells.countP fun c => decide (HasFace c.2 f)

/-- The edges are the edges of the prisms, each once. -/
def EdgesAs (m : Contents K) (edges : List (List Nat)) : Prop :=
  Collects edges fun e => ∃ c ∈ m.cells, ∃ x y, PrismEdge c.2 x y ∧ e.Perm [x, y] ∧ e.Pairwise (· < ·)

/-- The surface `s` has the points of a face along its border, and edge number `i` of it joins its points `i` and `i+1`. -/
def SurfaceAs (m : Contents K) (edges : List (List Nat)) (s : List Nat × List Nat) : Prop :=
  (∃ c ∈ m.cells, s.2 ∈ facesOf c.2) ∧
  List.Forall₂ (fun id p => ∃ e, edges[id]? = some e ∧ e.Perm [p.1, p.2]) s.1
    (s.2.zip (s.2.tail ++ s.2.head?.toList))

/-- The surfaces are the faces of the prisms, each once, in increasing order of the numbers of their edges. -/
def SurfacesAs (m : Contents K) (edges : List (List Nat)) (surfaces : List (List Nat × List Nat)) : Prop :=
  (surfaces.map Prod.fst).Pairwise (· < ·) ∧ (∀ s ∈ surfaces, SurfaceAs m edges s) ∧
  surfaces.Pairwise (fun s t => ¬ s.2.Perm t.2) ∧ ∀ c ∈ m.cells, ∀ f ∈ facesOf c.2, ∃ s ∈ surfaces, s.2.Perm f

/-- The volumes are the prisms of the mesh with their points in the order of GMSH and the numbers of their faces, in
non-decreasing order of these numbers; the subdomains are number and tag of their regions. -/
def VolumesAs (m : Contents K) (surfaces : List (List Nat × List Nat)) (volumes : List (List Nat × List Nat))
    (subdomains : List (Nat × Nat)) : Prop :=
  (volumes.map Prod.fst).Pairwise (· ≤ ·) ∧
  (subdomains.zip (volumes.map Prod.snd)).Perm m.cells ∧ subdomains.length = volumes.length ∧
  ∀ v ∈ volumes, List.Forall₂ (fun id f => ∃ s, surfaces[id]? = some s ∧ s.2.Perm f) v.1 (facesOf v.2)

/-- The descriptor of a surface: a boundary face exactly if a patch has it, with number and tag of the last such patch,
and internal if moreover two prisms have it. -/
def FaceAs (m : Contents K) (f : List Nat) (d : BDesc) : Prop :=
  (d.isB = true ↔ (listed m.sides f).isSome = true) ∧ (d.isInt = true ↔ d.isB = true ∧ around m.cells f = 2) ∧
  d.id = ((listed m.sides f).getD (0, 0)).1 ∧ d.tag = ((listed m.sides f).getD (0, 0)).2

/-- The mesh stored is the mesh `m`. -/
structure StoredAs (m : Contents K) (s : Loaded K) : Prop where
  points : Verif.Spec.Gmsh.PointsAs 3 m s.points s.nodes
  edges : EdgesAs m s.edges
  surfaces : SurfacesAs m s.edges s.surfaces
  volumes : VolumesAs m s.surfaces s.volumes s.subdomains
  boundary : List.Forall₂ (FaceAs m) (s.surfaces.map Prod.snd) s.boundary

end
end Verif.Spec.GmshPrism
