import Verif.Model.Outcome
/-!
Memory-mapped text files, `libdiskpp/src/common/mapped_file.cpp` (path relative to `/repo`). The mapped bytes
are a list, the read pointer a position in it. The operating system calls are assumed to succeed, except that
`mmap` fails on empty files (it rejects a length of zero).
-/
namespace Verif.MappedFile

/-- The read pointer `m_start`: never assigned, null, or at an offset from `m_addr`. -/
inductive Ptr where
  | uninit
  | null
  | pos (p : Nat)
  deriving DecidableEq, Repr

/-- The members used for reading, `common/mapped_file.h`. -/
structure File where
  bytes : List UInt8
  start : Ptr
  isOpen : Bool
  deriving DecidableEq, Repr

/-- The newline character. -/
def nl : UInt8 := 10

/-- The constructor and `map`, `mapped_file.cpp:53-116`. -/
def openFile (content : List UInt8) : File :=
  if content.length = 0 then ⟨content, .uninit, false⟩ else ⟨content, .pos 0, true⟩

/-- `end()`, `mapped_file.cpp:150-153`. -/
def File.atEnd (f : File) : Outcome Bool :=
  match f.start with
  | .uninit => .ub "uninitialised pointer"
  | .null => .ok false
  | .pos p => .ok (decide (p ≠ f.bytes.length))

/-- `memchr(start, '\n', n)`: offset of the first newline, if any. -/
def memchr : List UInt8 → Option Nat
  | [] => none
  | c :: cs => if c = nl then some 0 else (memchr cs).map (· + 1)

/-- `get_line()`, `mapped_file.cpp:155-166`: the result and the object afterwards. -/
def File.getLine (f : File) : Outcome (List UInt8) × File :=
  match f.start with
  | .uninit => (.ub "uninitialised pointer", f)
  | .null => (.ub "memchr on a null pointer", f)
  | .pos p =>
    match memchr (f.bytes.drop p) with
    | none => (.throws "out_of_range", { f with start := .null })
    | some k => (.ok ((f.bytes.drop p).take k), { f with start := .pos (p + k + 1) })

/-- `n` successive calls of `get_line()`, stopping at the first one that does not return. -/
def readLines : Nat → File → Outcome (List (List UInt8)) × File
  | 0, f => (.ok [], f)
  | n + 1, f =>
    match f.getLine with
    | (.ok l, f) =>
      match readLines n f with
      | (.ok ls, f) => (.ok (l :: ls), f)
      | (.throws e, f) => (.throws e, f)
      | (.ub e, f) => (.ub e, f)
    | (.throws e, f) => (.throws e, f)
    | (.ub e, f) => (.ub e, f)

end Verif.MappedFile
