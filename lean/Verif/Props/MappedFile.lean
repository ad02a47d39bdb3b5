import Verif.Lemmas.MappedFile
import Verif.Model.MappedFile
import Verif.Spec.MappedFile
/-!
Property C33.
-/
namespace Verif.Props.MappedFile
open Verif.MappedFile Verif.Spec.MappedFile

/-- C33. Reading as many lines as the file has terminated lines yields exactly these lines, for any
non-empty content; the pointer is then at the start of the unterminated rest. -/
theorem c33_lines_partial (ls : List (List UInt8)) (rest : List UInt8) (hne : terminated ls ++ rest ≠ [])
    (h : ∀ l ∈ ls, NoNewline l) :
    readLines ls.length (openFile (terminated ls ++ rest)) =
      (.ok ls, ⟨terminated ls ++ rest, .pos (terminated ls).length, true⟩) := by
  have h0 : (terminated ls ++ rest).length ≠ 0 := fun e => hne (List.length_eq_zero_iff.1 e)
  have := readLines_from ls rest (openFile (terminated ls ++ rest)) 0 (by rw [openFile, if_neg h0]) h
    (by rw [openFile, if_neg h0]; simp)
  rw [this]
  simp only [openFile, if_neg h0, Nat.zero_add]

example : terminated [[65], [], [66, 67]] ++ [68] ≠ [] ∧ ∀ l ∈ [[65], [], [66, 67]], NoNewline l := by
  refine ⟨by decide, ?_⟩
  intro l hl c hc
  simp at hl
  rcases hl with rfl | rfl | rfl <;> simp at hc <;> rcases hc with rfl | rfl <;> decide

/-- C33. The end-of-file predicate answers the opposite question: on an open file it is true exactly when
something is left to read. -/
theorem c33_end_general (f : File) (p : Nat) (hp : f.start = .pos p) :
    f.atEnd = .ok (decide (p ≠ f.bytes.length)) := by
  simp [File.atEnd, hp]

/-- C33 violation. `end()` is true right after opening any non-empty file, and false once everything has
been read. -/
theorem c33_end_violation (ls : List (List UInt8)) (hne : ls ≠ []) (h : ∀ l ∈ ls, NoNewline l) :
    (openFile (terminated ls)).atEnd = .ok true ∧ (readLines ls.length (openFile (terminated ls))).2.atEnd = .ok false := by
  have hne' : terminated ls ++ [] ≠ [] := by
    cases ls with
    | nil => exact absurd rfl hne
    | cons l ls => simp [terminated]
  have hr := c33_lines_partial ls [] hne' h
  have h0 : (terminated ls).length ≠ 0 := fun e => hne' (by rw [List.length_eq_zero_iff.1 e]; rfl)
  constructor
  · rw [openFile, if_neg h0]
    simp only [File.atEnd, Outcome.ok.injEq, decide_eq_true_eq]
    exact fun e => h0 e.symm
  · simp only [List.append_nil] at hr
    rw [hr]
    simp [File.atEnd]

example : ([[65]] : List (List UInt8)) ≠ [] := by decide

/-- C33 violation. An unterminated rest is never returned: the call after the last terminated line throws
whether or not something is left, and the call after that is undefined behaviour. -/
theorem c33_rest_violation (ls : List (List UInt8)) (rest : List UInt8) (hne : terminated ls ++ rest ≠ [])
    (h : ∀ l ∈ ls, NoNewline l) (hr : NoNewline rest) :
    let f := (readLines ls.length (openFile (terminated ls ++ rest))).2
    f.getLine.1 = .throws "out_of_range" ∧ f.getLine.2.getLine.1 = .ub "memchr on a null pointer" := by
  simp only [c33_lines_partial ls rest hne h]
  have : memchr ((terminated ls ++ rest).drop (terminated ls).length) = none := by
    rw [List.drop_left]; exact memchr_none rest hr
  constructor <;> simp only [File.getLine, this]

example : terminated [[65]] ++ [66] ≠ [] ∧ NoNewline [66] := by
  refine ⟨by decide, ?_⟩
  intro c hc
  simp at hc
  subst hc
  decide

/-- C33 violation, smallest case: the only line of the file `A` is lost. -/
theorem c33_violation : (openFile [65]).getLine.1 = .throws "out_of_range" := by decide

/-- C33. An empty file is not opened; reading from it dereferences a pointer that was never set. -/
theorem c33_empty : (openFile []).isOpen = false ∧ (openFile []).getLine.1.IsUB := by decide

end Verif.Props.MappedFile
