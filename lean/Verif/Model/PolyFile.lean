import Verif.Model.Outcome
/-!
Reading `poly2d` and `poly3d` files: `loaders/loader_poly.hpp:36-132,158-264,397-538`.

Simplifications: a file is a list of tokens: non-negative integers below 2⁶⁴, coordinates and other words. A
stream that has failed behaves like one at its end: all extractions fail and leave their variable unchanged,
also a string. An extraction that finds something else than a number writes 0 and breaks the stream. Using a
variable that was never written is `ub`. For coordinates both failures are `ub`. The two loaders differ in the
dimension and in the keywords only, so they are one function here; printing is left out.
-/
namespace Verif.PolyFile

variable {K : Type}

/-- Tokens. -/
inductive Tok (K : Type) where
  | int (n : Nat)
  | coord (c : K)
  | word (s : String)

/-- An entity with its number. -/
abbrev Entry := Nat × List Nat

/-- `ifs >> n` with `size_t n`, whose value before is `prev` (`none`: not initialised). -/
def num (prev : Option Nat) : List (Tok K) → Option Nat × List (Tok K)
  | .int n :: ts => (some n, ts)
  | [] => (prev, [])
  | _ :: _ => (some 0, [])

/-- `ifs >> n` of a variable that is then used. -/
def get (prev : Option Nat) (ts : List (Tok K)) : Outcome (Nat × List (Tok K)) :=
  match num prev ts with
  | (some n, ts) => .ok (n, ts)
  | (none, _) => .ub "uninitialised"

/-- The loop of `read_cell_line`, `loader_poly.hpp:48-53`. -/
def elems : Nat → List (Tok K) → Outcome (List Nat × List (Tok K))
  | 0, ts => .ok ([], ts)
  | k + 1, ts => (get none ts).bind fun x => (elems k x.2).bind fun r => .ok (x.1 :: r.1, r.2)

/-- `read_cell_line`, `loader_poly.hpp:38-56`. -/
def cellLine (ts : List (Tok K)) : Outcome (Entry × List (Tok K)) :=
  (get none ts).bind fun i => (get none i.2).bind fun n => (elems n.1 n.2).bind fun r => .ok ((i.1, r.1), r.2)

/-- `read_grp_line`, `loader_poly.hpp:95-115`: a name, then like a cell line. -/
def grpLine : List (Tok K) → Outcome (Entry × List (Tok K))
  | _ :: ts => cellLine ts
  | [] => cellLine []

/-- `read_cell_block` and `read_grp_block`, `loader_poly.hpp:58-68,117-128`. -/
def block (line : List (Tok K) → Outcome (Entry × List (Tok K))) : Nat → List (Tok K) →
    Outcome (List Entry × List (Tok K))
  | 0, ts => .ok ([], ts)
  | k + 1, ts => (line ts).bind fun x => (block line k x.2).bind fun r => .ok (x.1 :: r.1, r.2)

/-- `ifs >> coor[j]`. -/
def getCoord : List (Tok K) → Outcome (K × List (Tok K))
  | .coord c :: ts => .ok (c, ts)
  | _ => .ub "failed extraction of a coordinate"

/-- `read_nodes_block`, `loader_poly.hpp:70-93`. The variable `node_id` lives outside of the loop. -/
def nodes (prev : Option Nat) : Nat → List (Tok K) → Outcome (List (Nat × K × K × K) × List (Tok K))
  | 0, ts => .ok ([], ts)
  | k + 1, ts => (get prev ts).bind fun i => (getCoord i.2).bind fun x => (getCoord x.2).bind fun y =>
    (getCoord y.2).bind fun z => (nodes (some i.1) k z.2).bind fun r => .ok ((i.1, x.1, y.1, z.1) :: r.1, r.2)

/-- Keywords of the blocks of entities, in 2D and in 3D. -/
def cellKw (d : Nat) : List String :=
  ["*Edges->Nodes", "*Faces->Nodes", "*Faces->Edges"] ++
    if d = 3 then ["*Volumes->Nodes", "*Volumes->Edges", "*Volumes->Faces"] else []

/-- Keywords of the groups. -/
def grpKw (d : Nat) : List String :=
  ["*Nodes->Groups", "*Edges->Groups", "*Faces->Groups"] ++ if d = 3 then ["*Volumes->Groups"] else []

/-- The members filled by the reader; a member is named by its keyword. -/
structure Data (K : Type) where
  vts : List (Nat × K × K × K)
  cells : String → List Entry
  groups : String → List Entry

/-- The local variables and the stream. -/
structure St (K : Type) where
  keyword : String
  dim : Option Nat
  nb : Option Nat
  data : Data K
  ts : List (Tok K)

/-- Replace one member. -/
def upd (f : String → List Entry) (k : String) (v : List Entry) : String → List Entry :=
  fun s => if s = k then v else f s

/-- Reading the keyword: the string is left alone when the stream is at its end. A number or a coordinate is
not a keyword. -/
def nextKeyword (kw : String) : List (Tok K) → String × List (Tok K)
  | [] => (kw, [])
  | .word w :: ts => (w, ts)
  | _ :: ts => ("", ts)

/-- One turn of the loop, `loader_poly.hpp:178-261`: `inl` to go on, `inr` for `return`. -/
def step (d : Nat) (s : St K) : Outcome (St K ⊕ (Bool × Data K)) :=
  let r := nextKeyword s.keyword s.ts
  let kw := r.1
  if kw = "*Dimension" then
    let x := num s.dim r.2
    match x.1 with
    | none => .ub "uninitialised"
    | some v => if v ≠ d then .ok (.inr (false, s.data))
      else .ok (.inl { s with keyword := kw, dim := some v, ts := x.2 })
  else if kw = "*Version" then .ok (.inl { s with keyword := kw, ts := (num none r.2).2 })
  else if kw = "*Nodes" then
    (get s.nb r.2).bind fun n => (nodes none n.1 n.2).bind fun b =>
    .ok (.inl { s with keyword := kw, nb := some n.1, data := { s.data with vts := b.1 }, ts := b.2 })
  else if kw ∈ cellKw d then
    (get s.nb r.2).bind fun n => (block cellLine n.1 n.2).bind fun b =>
    .ok (.inl { s with keyword := kw, nb := some n.1, data := { s.data with cells := upd s.data.cells kw b.1 }, ts := b.2 })
  else if kw ∈ grpKw d then
    (get s.nb r.2).bind fun n => (block grpLine n.1 n.2).bind fun b =>
    .ok (.inl { s with keyword := kw, nb := some n.1, data := { s.data with groups := upd s.data.groups kw b.1 }, ts := b.2 })
  else if kw = "**EndMesh" then .ok (.inr (true, s.data))
  else .ok (.inr (false, s.data))

/-- The loop, at most `fuel` turns; `none` if it has not returned by then. -/
def loop (d : Nat) : Nat → St K → Outcome (Option (Bool × Data K))
  | 0, _ => .ok none
  | fuel + 1, s => (step d s).bind fun r => match r with
    | .inl s' => loop d fuel s'
    | .inr x => .ok (some x)

/-- `poly2d_read` and `poly3d_read` on the tokens of the file. -/
def read (d fuel : Nat) (ts : List (Tok K)) : Outcome (Option (Bool × Data K)) :=
  let r := nextKeyword "" ts
  let e : Data K := ⟨[], fun _ => [], fun _ => []⟩
  if r.1 ≠ "**BeginMesh" then .ok (some (false, e))
  else loop d fuel ⟨r.1, none, none, e, r.2⟩

/-- The points and the numbers of the nodes, `loader_poly.hpp:289-293,564-568`: in the order of the file. -/
def populateNodes (vts : List (Nat × K × K × K)) : List (K × K × K) × List Nat :=
  (vts.map Prod.snd, vts.map Prod.fst)

end Verif.PolyFile
