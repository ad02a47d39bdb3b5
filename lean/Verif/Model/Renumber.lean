import Verif.Model.Outcome
/-!
Sorting the entities of a mesh and rewriting the references to them: `populate_mesh` of
`loaders/loader_fvca6.hpp:250-357` and `loaders/loader_poly.hpp:279-368,552-663`.

Simplifications: an edge is the list of its two nodes, smaller first; a face (a cell in 2D) is the list of its
edge identifiers with the list of its points; a volume likewise. `std::sort` does not fix the order of equal
elements, so sorting is a parameter `srt` constrained by `IsSort`. Unchecked `[]` out of range is `ub`, `at`
throws.
-/
namespace Verif.Renumber

/-- An entity with its number in the file. -/
abbrev Entry := Nat × List Nat

/-- What `std::sort` with the comparison of the second members guarantees. -/
def IsSort (srt : List Entry → List Entry) : Prop :=
  ∀ l, (srt l).Perm l ∧ (srt l).Pairwise fun a b => ¬ b.2 < a.2

/-- `v.resize(n)`: new entries are zero, old ones are kept. -/
def resize (t : List Nat) (n : Nat) : List Nat := t.take n ++ List.replicate (n - t.length) 0

/-- The loop that fills the conversion table, `loader_fvca6.hpp:267-271`; `bad` is what an index out of range
does. -/
def fill (bad : Outcome (List Nat)) : List Nat → Nat → List Entry → Outcome (List Nat)
  | t, _, [] => .ok t
  | t, i, x :: xs => if x.1 < t.length then fill bad (t.set x.1 i) (i + 1) xs else bad

/-- Rewriting a list of references, `loader_fvca6.hpp:274-278`. -/
def relink (t : List Nat) : List Nat → Outcome (List Nat)
  | [] => .ok []
  | r :: rs => match t[r]? with
    | none => .ub "conv_table[ptr] out of range"
    | some j => match relink t rs with
      | .ok js => .ok (j :: js)
      | o => o

/-- Rewriting the references of every entity. -/
def relinkAll (t : List Nat) : List Entry → Outcome (List Entry)
  | [] => .ok []
  | x :: xs => (relink t x.2).bind fun r => (relinkAll t xs).bind fun rs => .ok ((x.1, r) :: rs)

/-- Attaching the points, `faces_to_vts.at(fe.first)`, `loader_fvca6.hpp:289-297,315-322`. -/
def withPoints (vts : List (List Nat)) : List Entry → Outcome (List (List Nat × List Nat))
  | [] => .ok []
  | x :: xs => match vts[x.1]? with
    | none => .throws "out_of_range"
    | some v => (withPoints vts xs).bind fun rs => .ok ((x.2, v) :: rs)

/-- What was read from the file. -/
structure Raw where
  edges : List Entry
  f2e : List Entry
  f2v : List (List Nat)
  v2f : List Entry
  v2v : List (List Nat)

/-- The containers of the mesh. -/
structure Loaded where
  edges : List (List Nat)
  faces : List (List Nat × List Nat)
  vols : List (List Nat × List Nat)
  deriving DecidableEq, Repr

/-- Edges and faces, and the two conversion tables. `badE` is what an edge number out of range does when the
first table is filled. -/
def populateFaces (badE : Outcome (List Nat)) (srt : List Entry → List Entry) (r : Raw) :
    Outcome (List (List Nat) × List (List Nat × List Nat) × List Nat × List Nat) :=
  let es := srt r.edges
  (fill badE (resize [] es.length) 0 es).bind fun t =>
  (relinkAll t r.f2e).bind fun fe =>
  let fs := srt fe
  (withPoints r.f2v fs).bind fun faces =>
  (fill (.ub "conv_table[fe.first] out of range") (resize t fs.length) 0 fs).bind fun t' =>
  .ok (es.map Prod.snd, faces, t, t')

/-- The whole conversion in 3D. -/
def populate3 (badE : Outcome (List Nat)) (srt : List Entry → List Entry) (r : Raw) :
    Outcome (Loaded × List Nat × List Nat) :=
  (populateFaces badE srt r).bind fun p =>
  (relinkAll p.2.2.2 r.v2f).bind fun vf =>
  (withPoints r.v2v (srt vf)).bind fun vols =>
  .ok (⟨p.1, p.2.1, vols⟩, p.2.2.1, p.2.2.2)

/-- Numbers of the entities in FVCA6 files: their position, `loader_fvca6.hpp:148,172,232`. -/
def enumerate (l : List (List Nat)) : List Entry := l.zipIdx.map fun x => (x.2, x.1)

/-- `populate_mesh` of the FVCA6 loader, `loader_fvca6.hpp:250-328`. -/
def fvca6 (srt : List Entry → List Entry) (edges f2e f2v v2f v2v : List (List Nat)) : Outcome Loaded :=
  (populate3 (.ub "conv_table[first] out of range") srt
    ⟨enumerate edges, enumerate f2e, f2v, enumerate v2f, v2v⟩).bind fun p => .ok p.1

/-- Boundary descriptors of one group of `poly` files, `loader_poly.hpp:326-336,624-632`: `none` is the default
descriptor. In 2D the table is read with `[]`, in 3D with `at`: `bad`. -/
def mark (bad : Outcome (List (Option Nat))) (t : List Nat) (g : Nat) :
    List Nat → List (Option Nat) → Outcome (List (Option Nat))
  | [], b => .ok b
  | x :: xs, b => match t[x]? with
    | none => bad
    | some j => if j < b.length then mark bad t g xs (b.set j (some g)) else .throws "out_of_range"

/-- All groups in turn. -/
def markAll (bad : Outcome (List (Option Nat))) (t : List Nat) : List Entry → List (Option Nat) →
    Outcome (List (Option Nat))
  | [], b => .ok b
  | g :: gs, b => (mark bad t g.1 g.2 b).bind fun b' => markAll bad t gs b'

/-- `populate_mesh` of the 3D `poly` loader, `loader_poly.hpp:552-663`. -/
def poly3 (srt : List Entry → List Entry) (r : Raw) (groups : List Entry) :
    Outcome (Loaded × List (Option Nat)) :=
  (populate3 (.throws "out_of_range") srt r).bind fun p =>
  (markAll (.throws "out_of_range") p.2.2 groups (List.replicate p.1.faces.length none)).bind fun b => .ok (p.1, b)

/-- `populate_mesh` of the 2D `poly` loader, `loader_poly.hpp:279-368`; the cells are the faces. -/
def poly2 (srt : List Entry → List Entry) (r : Raw) (groups : List Entry) :
    Outcome (List (List Nat) × List (List Nat × List Nat) × List (Option Nat)) :=
  (populateFaces (.throws "out_of_range") srt r).bind fun p =>
  (markAll (.ub "conv_table[edge_id] out of range") p.2.2.1 groups (List.replicate p.1.length none)).bind fun b =>
  .ok (p.1, p.2.1, b)

end Verif.Renumber
