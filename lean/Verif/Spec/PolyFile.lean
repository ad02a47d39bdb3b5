import Verif.Model.PolyFile
/-!
The `poly` formats: sections, how they are written, and what they mean.
-/
namespace Verif.Spec.PolyFile
open Verif.PolyFile
variable {K : Type}

/-- A section of a file. -/
inductive Sec (K : Type) where
  | dim (d : Nat)
  | version (v : Nat)
  | nodes (l : List (Nat × K × K × K))
  | cells (kw : String) (l : List Entry)
  | groups (kw : String) (l : List (String × Entry))

/-- An entity: number, count, references. -/
def row (e : Entry) : List (Tok K) := .int e.1 :: .int e.2.length :: e.2.map .int

/-- The text of a section. -/
def write : Sec K → List (Tok K)
  | .dim d => [.word "*Dimension", .int d]
  | .version v => [.word "*Version", .int v]
  | .nodes l => .word "*Nodes" :: .int l.length ::
      l.flatMap fun n => [.int n.1, .coord n.2.1, .coord n.2.2.1, .coord n.2.2.2]
  | .cells kw l => .word kw :: .int l.length :: l.flatMap row
  | .groups kw l => .word kw :: .int l.length :: l.flatMap fun g => .word g.1 :: row g.2

/-- A section belongs to the format of dimension `d`. -/
def Valid (d : Nat) : Sec K → Prop
  | .dim d' => d' = d
  | .version _ => True
  | .nodes _ => True
  | .cells kw _ => kw ∈ cellKw d
  | .groups kw _ => kw ∈ grpKw d

/-- What a section contributes: it replaces what was known. -/
def apply (x : Data K) : Sec K → Data K
  | .dim _ => x
  | .version _ => x
  | .nodes l => { x with vts := l }
  | .cells kw l => { x with cells := upd x.cells kw l }
  | .groups kw l => { x with groups := upd x.groups kw (l.map Prod.snd) }

/-- The contents of a file. -/
def content (l : List (Sec K)) : Data K := l.foldl apply ⟨[], fun _ => [], fun _ => []⟩

/-- The text of a file, without the end marker. -/
def text (l : List (Sec K)) : List (Tok K) := .word "**BeginMesh" :: l.flatMap write

/-- A section without entries. -/
def Idle : Sec K → Prop
  | .dim _ => True
  | .version _ => True
  | .nodes l => l = []
  | .cells _ l => l = []
  | .groups _ l => l = []

end Verif.Spec.PolyFile
