import Verif.Model.Outcome
/-!
Reading FVCA6 files: `loaders/loader_fvca6.hpp:53-235` and `expect`, `loaders/loader_utils.hpp:135-148`.

Simplifications: a file is a list of lines, a line a list of tokens: integers, coordinates and other words.
Integers are read with `operator>>` into `size_t`, which takes negative ones modulo 2⁶⁴. A failing extraction
leaves a variable uninitialised or the stream broken so that the next variable is; it is `ub` here.
-/
namespace Verif.Fvca6

variable {K : Type}

/-- Tokens. -/
inductive Tok (K : Type) where
  | int (z : Int)
  | coord (c : K)
  | word (s : String)

/-- `ifs >> n` with `size_t n`. -/
def getNat : List (Tok K) → Outcome (Nat × List (Tok K))
  | .int z :: ts => .ok ((z % 18446744073709551616).toNat, ts)
  | _ => .ub "failed extraction"

/-- `ifs >> n` with `int n`, value not used. -/
def skipInt : List (Tok K) → Outcome (List (Tok K))
  | .int _ :: ts => .ok ts
  | _ => .ub "failed extraction"

/-- `ifs >> x` with a coordinate. -/
def getCoord : List (Tok K) → Outcome (K × List (Tok K))
  | .coord c :: ts => .ok (c, ts)
  | _ => .ub "failed extraction"

/-- `expect`, `loaders/loader_utils.hpp:135-148`: `none` when another word is found. -/
def expect (s : String) : List (Tok K) → Option (List (Tok K))
  | .word w :: ts => if w = s then some ts else none
  | _ => none

/-- `temp - 1` in `size_t`. -/
def pred64 (n : Nat) : Nat := (n + 18446744073709551615) % 18446744073709551616

/-- Loop of `read_fvca6_line`, `loader_fvca6.hpp:60-65`. -/
def entries : Nat → List (Tok K) → Outcome (List Nat × List (Tok K))
  | 0, ts => .ok ([], ts)
  | k + 1, ts => (getNat ts).bind fun r => (entries k r.2).bind fun rs => .ok (pred64 r.1 :: rs.1, rs.2)

/-- `read_fvca6_line`, `loader_fvca6.hpp:53-69`. -/
def line (ts : List (Tok K)) : Outcome (List Nat × List (Tok K)) :=
  (getNat ts).bind fun r => entries r.1 r.2

/-- Reading `k` lines. -/
def lines : Nat → List (Tok K) → Outcome (List (List Nat) × List (Tok K))
  | 0, ts => .ok ([], ts)
  | k + 1, ts => (line ts).bind fun r => (lines k r.2).bind fun rs => .ok (r.1 :: rs.1, rs.2)

/-- Reading the points, `loader_fvca6.hpp:122-128`. -/
def points : Nat → List (Tok K) → Outcome (List (K × K × K) × List (Tok K))
  | 0, ts => .ok ([], ts)
  | k + 1, ts => (getCoord ts).bind fun x => (getCoord x.2).bind fun y => (getCoord y.2).bind fun z =>
    (points k z.2).bind fun rs => .ok ((x.1, y.1, z.1) :: rs.1, rs.2)

/-- Skipping the control volumes, `loader_fvca6.hpp:208-213`. -/
def controls : Nat → List (Tok K) → Outcome (List (Tok K))
  | 0, ts => .ok ts
  | k + 1, ts => (skipInt ts).bind fun a => (skipInt a).bind fun b => controls k b

/-- Reading the edges, `loader_fvca6.hpp:224-237`: smaller node first, no shift. -/
def edges : Nat → List (Tok K) → Outcome (List (List Nat) × List (Tok K))
  | 0, ts => .ok ([], ts)
  | k + 1, ts => (getNat ts).bind fun v1 => (getNat v1.2).bind fun v2 => (edges k v2.2).bind fun rs =>
    .ok ((if v1.1 > v2.1 then [v2.1, v1.1] else [v1.1, v2.1]) :: rs.1, rs.2)

/-- The members filled by `fvca6_read`. -/
structure Data (K : Type) where
  points : List (K × K × K)
  v2f : List (List Nat)
  v2v : List (List Nat)
  f2e : List (List Nat)
  f2v : List (List Nat)
  edges : List (List Nat)

/-- A section: keyword, number of entries, entries. `none` when the keyword is missing. -/
def section_ {α : Type} (s : String) (body : Nat → List (Tok K) → Outcome (α × List (Tok K)))
    (ts : List (Tok K)) : Outcome (Option (α × List (Tok K))) :=
  match expect s ts with
  | none => .ok none
  | some ts => (getNat ts).bind fun n => (body n.1 n.2).bind fun r => .ok (some r)

/-- Continue unless `fvca6_read` has returned `false`. -/
def andThen {α β : Type} (o : Outcome (Option (α × List (Tok K))))
    (f : α → List (Tok K) → Outcome (Option β)) : Outcome (Option β) :=
  o.bind fun r => match r with
    | none => .ok none
    | some (a, ts) => f a ts

/-- `fvca6_read`, `loader_fvca6.hpp:91-243`, on the text after the first 16 lines; `none` is the result
`false`. -/
def readToks (ts : List (Tok K)) : Outcome (Option (Data K)) :=
  andThen (section_ "Vertices" points ts) fun ps ts =>
  andThen (section_ "Volumes->faces" lines ts) fun v2f ts =>
  andThen (section_ "Volumes->Verticess" lines ts) fun v2v ts =>
  andThen (section_ "Faces->Edgess" lines ts) fun f2e ts =>
  andThen (section_ "Faces->Vertices" lines ts) fun f2v ts =>
  match expect "Faces->Control" ts with
  | none => .ok none
  | some ts =>
  andThen (section_ "volumes" (fun k ts => (controls k ts).bind fun r => .ok ((), r)) ts) fun _ ts =>
  andThen (section_ "Edges" edges ts) fun es _ =>
  .ok (some ⟨ps, v2f, v2v, f2e, f2v, es⟩)

/-- The first 16 lines are thrown away, `loader_fvca6.hpp:104-108`. -/
def read (file : List (List (Tok K))) : Outcome (Option (Data K)) := readToks (file.drop 16).flatten

end Verif.Fvca6
