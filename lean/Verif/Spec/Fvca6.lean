import Verif.Model.Fvca6
/-!
The FVCA6 format: how a mesh with indices from 0 is written to a file with indices from 1.
-/
namespace Verif.Spec.Fvca6
open Verif.Fvca6
variable {K : Type}

/-- A mesh as the format describes it, indices from 0. -/
structure Mesh6 (K : Type) where
  points : List (K × K × K)
  v2f : List (List Nat)
  v2v : List (List Nat)
  f2e : List (List Nat)
  f2v : List (List Nat)
  controls : List (Int × Int)
  edges : List (Nat × Nat)

/-- An index is written from 1. -/
def idx (i : Nat) : Tok K := .int (i + 1 : Nat)

/-- A number of entries. -/
def count (n : Nat) : Tok K := .int (n : Nat)

/-- A line of a table: the number of indices, then the indices. -/
def row (l : List Nat) : List (Tok K) := count l.length :: l.map idx

/-- A table with its keyword. -/
def table (s : String) (l : List (List Nat)) : List (Tok K) := .word s :: count l.length :: l.flatMap row

/-- The text after the header. -/
def body (m : Mesh6 K) : List (Tok K) :=
  (.word "Vertices" :: count m.points.length ::
    m.points.flatMap fun p => [.coord p.1, .coord p.2.1, .coord p.2.2]) ++
  table "Volumes->faces" m.v2f ++ table "Volumes->Verticess" m.v2v ++ table "Faces->Edgess" m.f2e ++
  table "Faces->Vertices" m.f2v ++
  (.word "Faces->Control" :: .word "volumes" :: count m.controls.length ::
    m.controls.flatMap fun c => [.int c.1, .int c.2]) ++
  (.word "Edges" :: count m.edges.length :: m.edges.flatMap fun e => [idx e.1, idx e.2])

/-- The numbers of a table fit in 64 bits. -/
def Fits (l : List (List Nat)) : Prop :=
  l.length < 2 ^ 64 ∧ ∀ r ∈ l, r.length < 2 ^ 64 ∧ ∀ i ∈ r, i + 1 < 2 ^ 64

/-- All numbers fit in 64 bits. -/
structure Fits6 (m : Mesh6 K) : Prop where
  points : m.points.length < 2 ^ 64
  v2f : Fits m.v2f
  v2v : Fits m.v2v
  f2e : Fits m.f2e
  f2v : Fits m.f2v
  controls : m.controls.length < 2 ^ 64
  edges : m.edges.length < 2 ^ 64
  edge : ∀ e ∈ m.edges, e.1 + 1 < 2 ^ 64 ∧ e.2 + 1 < 2 ^ 64

end Verif.Spec.Fvca6
