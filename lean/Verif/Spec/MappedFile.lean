/-!
Lines of a text: what a file made of terminated lines and an unterminated rest looks like.
-/
namespace Verif.Spec.MappedFile

/-- The text made of the given lines, each followed by a newline. -/
def terminated : List (List UInt8) → List UInt8
  | [] => []
  | l :: ls => l ++ (10 : UInt8) :: terminated ls

/-- A list of bytes without newline. -/
def NoNewline (l : List UInt8) : Prop := ∀ c ∈ l, c ≠ 10

end Verif.Spec.MappedFile
