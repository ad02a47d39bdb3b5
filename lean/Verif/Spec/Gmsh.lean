import Verif.Model.Gmsh
import Verif.Spec.MeshFile
/-!
A mesh made by GMSH and what a mesh stores when it has been taken over correctly. Of the model only the types of what
GMSH returns, the containers of a mesh and the boundary descriptors are used.
-/
namespace Verif.Spec.Gmsh
open Verif.Gmsh (Model Sides)
open Verif.MeshTopo (BDesc)
open Verif.Spec (SubSimplex Collects)

/-- A mesh of GMSH: nodes with tag and coordinates; regions with tag and elements in blocks of one type; patches with
tag and sides. Elements and sides are lists of node tags. -/
structure Contents (K : Type) where
  nodes : List (Nat × List K)
  regions : List (Nat × List (List (List Nat)))
  patches : List (Nat × List (List Nat))

section
variable {K : Type}

/-- GMSH returns the mesh `m`; of the sides of an element type those selected by `sel` are looked at. -/
structure Returns (sel : Sides → List Nat) (g : Model K) (m : Contents K) : Prop where
  tags : g.nodeTags = m.nodes.map Prod.fst
  coords : g.coords = (m.nodes.map Prod.snd).flatten
  regions : List.Forall₂ (fun r R => r.tag = R.1 ∧ List.Forall₂
    (fun (b : Verif.Gmsh.Block) (B : List (List Nat)) => b.elemTags.length = B.length ∧ b.nodeTags = B.flatten)
      r.blocks R.2) g.regions m.regions
  patches : List.Forall₂ (fun p P => p.tag = P.1 ∧ ∃ s, p.types = [s] ∧ sel s = P.2.flatten) g.patches m.patches

/-- The list consists of `n` different node tags of the mesh. -/
def Corners (m : Contents K) (n : Nat) (e : List Nat) : Prop :=
  e.length = n ∧ e.Nodup ∧ ∀ t ∈ e, t ∈ m.nodes.map Prod.fst

/-- Node tags are different, nodes have three coordinates, blocks are not empty, elements have `nc` and sides `nf`
different nodes. -/
structure Proper (nc nf : Nat) (m : Contents K) : Prop where
  tags : (m.nodes.map Prod.fst).Nodup
  coords : ∀ x ∈ m.nodes, x.2.length = 3
  block : ∀ R ∈ m.regions, ∀ B ∈ R.2, B ≠ []
  elem : ∀ R ∈ m.regions, ∀ B ∈ R.2, ∀ e ∈ B, Corners m nc e
  side : ∀ P ∈ m.patches, ∀ f ∈ P.2, Corners m nf f

/-- The place of a node in the list of nodes. -/
def Contents.pos (m : Contents K) (t : Nat) : Nat := (m.nodes.map Prod.fst).idxOf t

/-- All cells: number and tag of their region, places of their nodes. -/
def Contents.cells (m : Contents K) : List ((Nat × Nat) × List Nat) :=
  m.regions.zipIdx.flatMap fun R => R.1.2.flatten.map fun e => ((R.2, R.1.1), e.map m.pos)

/-- All sides: number and tag of their patch, places of their nodes. -/
def Contents.sides (m : Contents K) : List ((Nat × Nat) × List Nat) :=
  m.patches.zipIdx.flatMap fun P => P.1.2.map fun f => ((P.2, P.1.1), f.map m.pos)

/-- Number and tag of the patch of the face `f`: of the last one that has it. -/
def listed (sides : List ((Nat × Nat) × List Nat)) (f : List Nat) : Option (Nat × Nat) :=
  (sides.filter fun x => decide (x.2.Perm f)).getLast?.map Prod.fst

/-- The number of cells having all the corners `f`. -/
def around (cells : List ((Nat × Nat) × List Nat)) (f : List Nat) : Nat :=
  cells.countP fun c => decide (∀ i ∈ f, i ∈ c.2)

/-- The descriptor of the face `f`: a boundary face exactly if a patch has it, with number and tag of the patch, and an
internal one if moreover it lies between two cells. -/
def FaceAs (m : Contents K) (f : List Nat) (d : BDesc) : Prop :=
  (d.isB = true ↔ (listed m.sides f).isSome = true) ∧ (d.isInt = true ↔ d.isB = true ∧ around m.cells f = 2) ∧
  d.id = ((listed m.sides f).getD (0, 0)).1 ∧ d.tag = ((listed m.sides f).getD (0, 0)).2

/-- Every face has the descriptor of its patch. -/
def FacesAs (m : Contents K) (faces : List (List Nat)) (info : List BDesc) : Prop :=
  info.length = faces.length ∧
  ∀ (i : Nat) (f : List Nat) (d : BDesc), faces[i]? = some f → info[i]? = some d → FaceAs m f d

/-- The points are those of the nodes, `dim` coordinates each, and there is a node for each. -/
def PointsAs (dim : Nat) (m : Contents K) (points : List (List K)) (nodes : List (List Nat)) : Prop :=
  points = m.nodes.map (fun x => x.2.take dim) ∧ nodes = (List.range m.nodes.length).map fun i => [i]

/-- The cells stored are those of the mesh, in non-decreasing order and each with increasing corners; `tags` are the
tags of their regions. -/
def CellsAs (m : Contents K) (cells : List (List Nat)) (tags : List Nat) : Prop :=
  cells.Pairwise (· ≤ ·) ∧ (∀ c ∈ cells, c.Pairwise (· < ·)) ∧ ∃ l : List ((Nat × Nat) × List Nat),
    l.Perm m.cells ∧ tags = l.map (fun c => c.1.2) ∧ List.Forall₂ List.Perm cells (l.map Prod.snd)

end
end Verif.Spec.Gmsh
