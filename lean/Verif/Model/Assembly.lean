import Verif.Model.Outcome
import Mathlib.Algebra.Ring.Defs
/-!
Global assembly: face numbering and Dirichlet elimination of the condensed HHO assemblers
(`methods/implementation_hho/assembler_hho.hpp`, `methods/hho_assemblers.hpp`) and the discontinuous
Galerkin assembler (`methods/implementation_dg/assembler.hpp`).

Simplifications. A face is its number in the mesh; a cell is the list of its face numbers. Scalars are a
ring. A sparse matrix is its list of triplets; `setFromTriplets` adds up duplicates (`toMat`). Dynamic
matrices carry their sizes; an access outside a vector or matrix (a failed Eigen assertion) is `ub`.
-/
namespace Verif.Assembly

/-- Dynamic matrix. -/
structure Mat (R : Type) where
  rows : Nat
  cols : Nat
  entry : Nat → Nat → R

/-- `operator()(i,j)` with Eigen's bounds assertion. -/
def Mat.get {R : Type} (A : Mat R) (i j : Nat) : Outcome R :=
  if i < A.rows ∧ j < A.cols then .ok (A.entry i j) else .ub "matrix index out of range"

/-- `operator()(i)` on a vector with Eigen's bounds assertion; also `vector::operator[]`. -/
def vget {α : Type} (v : List α) (i : Nat) : Outcome α :=
  match v[i]? with
  | some x => .ok x
  | none => .ub "vector index out of range"

/-- `v(i) += x`. -/
def vadd {R : Type} [Add R] (v : List R) (i : Nat) (x : R) : Outcome (List R) :=
  match v[i]? with
  | some y => .ok (v.set i (y + x))
  | none => .ub "vector index out of range"

/-- `v(i) -= x`. -/
def vsub {R : Type} [Sub R] (v : List R) (i : Nat) (x : R) : Outcome (List R) :=
  match v[i]? with
  | some y => .ok (v.set i (y - x))
  | none => .ub "vector index out of range"

/-- `std::vector::at`. -/
def vat {α : Type} (v : List α) (i : Nat) : Outcome α :=
  match v[i]? with
  | some x => .ok x
  | none => .throws "out_of_range"

/-- `v.segment(o, n)`. -/
def vseg {α : Type} (v : List α) (o n : Nat) : Outcome (List α) :=
  if o + n ≤ v.length then .ok ((v.drop o).take n) else .ub "segment out of range"

/-! ### Numbering of the unknown faces -/

/-- Compress and expand tables. -/
structure Tables where
  compress : List Nat
  expand : List Nat
  deriving DecidableEq, Repr

/-- Numbering loop, `assembler_hho.hpp:110-120,144-154` and `hho_assemblers.hpp:81-90,109-118`; `dir` are
the flags of the faces still to visit, `i` the current face, `off` the compressed offset. -/
def tableLoop : List Bool → Nat → Nat → Tables → Outcome Tables
  | [], _, _, t => .ok t
  | d :: ds, i, off, t =>
    if !d then
      if i < t.compress.length then
        if off < t.expand.length then
          tableLoop ds (i + 1) (off + 1) ⟨t.compress.set i off, t.expand.set off i⟩
        else .throws "out_of_range"
      else .throws "out_of_range"
    else tableLoop ds (i + 1) off t

/-- Tables for the flags `dir` (Dirichlet faces), with `nd` the number of Dirichlet faces counted
beforehand, `assembler_hho.hpp:102-120,136-154`, `hho_assemblers.hpp:74-90`. -/
def buildTables (dir : List Bool) (nd : Nat) : Outcome Tables :=
  tableLoop dir 0 0 ⟨List.replicate dir.length 0, List.replicate (dir.length - nd) 0⟩

/-- `std::count_if`. -/
def numDirichlet (dir : List Bool) : Nat := dir.count true

/-- Assembler object: face flags as seen by the mesh/boundary object, tables, triplets, right-hand side. -/
structure State (R : Type) where
  dir : List Bool
  fbs : Nat
  compress : List Nat
  expand : List Nat
  systemSize : Nat
  triplets : List (Nat × Nat × R)
  rhs : List R

/-- Constructor of `diffusion_condensed_assembler`, `assembler_hho.hpp:95-128` and `130-161`; the flags
are `msh.is_boundary(fc)` or `bnd.is_dirichlet_face(fc)`. -/
def construct {R : Type} [Zero R] (dir : List Bool) (fbs : Nat) : Outcome (State R) :=
  (buildTables dir (numDirichlet dir)).bind fun t =>
    let ss := fbs * (dir.length - numDirichlet dir)
    .ok ⟨dir, fbs, t.compress, t.expand, ss, [], List.replicate ss 0⟩

/-- `assembly_index`, `assembler_hho.hpp:45-73`. -/
structure AsmIdx where
  idx : Nat
  assem : Bool
  deriving DecidableEq, Repr

/-- `operator size_t`, `assembler_hho.hpp:53-59`. -/
def AsmIdx.toIdx (a : AsmIdx) : Outcome Nat :=
  if !a.assem then .throws "Invalid assembly_index" else .ok a.idx

/-- Face loop of `assemble`: assembly map and Dirichlet data, `assembler_hho.hpp:181-205` and `239-263`.
`proj f` is the projection of the Dirichlet function on face `f` (`fbs` coefficients); the data start as
zero and are written on Dirichlet faces. -/
def mapLoop {R : Type} [Zero R] (s : State R) (proj : Nat → Nat → R) :
    List Nat → Outcome (List AsmIdx × List R)
  | [] => .ok ([], [])
  | f :: fs => (vat s.compress f).bind fun c => (vat s.dir f).bind fun d =>
      (mapLoop s proj fs).bind fun r =>
        .ok ((List.range s.fbs).map (fun i => AsmIdx.mk (c * s.fbs + i) (!d)) ++ r.1,
          (List.range s.fbs).map (fun i => if d then proj f i else 0) ++ r.2)

/-- Inner loop over the columns, `assembler_hho.hpp:212-218`. -/
def colLoop {R : Type} [Ring R] (asm : List AsmIdx) (dd : List R) (lhs : Mat R) (i gi : Nat) :
    List Nat → State R → Outcome (State R)
  | [], s => .ok s
  | j :: js, s => (vget asm j).bind fun aj => (lhs.get i j).bind fun x =>
      if aj.assem then
        aj.toIdx.bind fun gj => colLoop asm dd lhs i gi js { s with triplets := s.triplets ++ [(gi, gj, x)] }
      else (vget dd j).bind fun y => (vsub s.rhs gi (x * y)).bind fun r =>
        colLoop asm dd lhs i gi js { s with rhs := r }

/-- Loop over the rows, `assembler_hho.hpp:207-222` and `265-280`. -/
def rowLoop {R : Type} [Ring R] (asm : List AsmIdx) (dd : List R) (lhs : Mat R) (rhs : List R) :
    List Nat → State R → Outcome (State R)
  | [], s => .ok s
  | i :: is, s => (vget asm i).bind fun ai =>
      if !ai.assem then rowLoop asm dd lhs rhs is s
      else ai.toIdx.bind fun gi => (colLoop asm dd lhs i gi (List.range lhs.cols) s).bind fun s =>
        (vget rhs i).bind fun x => (vadd s.rhs gi x).bind fun r =>
          rowLoop asm dd lhs rhs is { s with rhs := r }

/-- `diffusion_condensed_assembler::assemble`, `assembler_hho.hpp:163-223` and `225-281`. -/
def assemble {R : Type} [Ring R] (s : State R) (proj : Nat → Nat → R) (fcs : List Nat) (lhs : Mat R) (rhs : List R) :
    Outcome (State R) :=
  (mapLoop s proj fcs).bind fun m => rowLoop m.1 m.2 lhs rhs (List.range lhs.rows) s

/-- A cell with its local contributions. -/
structure Cell (R : Type) where
  fcs : List Nat
  lhs : Mat R
  rhs : List R

/-- Assembling several cells. -/
def assembleAll {R : Type} [Ring R] (proj : Nat → Nat → R) : List (Cell R) → State R → Outcome (State R)
  | [], s => .ok s
  | c :: cs, s => (assemble s proj c.fcs c.lhs c.rhs).bind fun s => assembleAll proj cs s

/-- Eigen's `setFromTriplets`: duplicates are added up. -/
def toMat {R : Type} [Ring R] (t : List (Nat × Nat × R)) (i j : Nat) : R :=
  ((t.filter (fun x => x.1 = i ∧ x.2.1 = j)).map (fun x => x.2.2)).sum

/-- `take_local_solution` / `take_local_data`, `assembler_hho.hpp:390-489`. -/
def takeLocal {R : Type} (s : State R) (proj : Nat → Nat → R) (sol : List R) : List Nat → Outcome (List R)
  | [] => .ok []
  | f :: fs => (vat s.dir f).bind fun d =>
      (if d then .ok ((List.range s.fbs).map (proj f))
       else (vat s.compress f).bind fun c => vseg sol (c * s.fbs) s.fbs).bind fun b =>
        (takeLocal s proj sol fs).bind fun r => .ok (b ++ r)

/-! ### `basic_condensed_assembler` -/

/-- Constructor taking the mesh's flags, `hho_assemblers.hpp:61-97`. -/
def basicConstruct {R : Type} [Zero R] (bnd : List Bool) (fbs : Nat) : Outcome (State R) := construct bnd fbs

/-- Constructor taking a vector of flags, `hho_assemblers.hpp:99-124`. `bnd` are the mesh's own flags,
used when the vector is empty (`is_dirichlet`, `hho_assemblers.hpp:44-53`); a vector that is too short
fails the assert. -/
def basicConstructWith {R : Type} [Zero R] (bnd : List Bool) (fbs : Nat) (dir : List Bool) : Outcome (State R) :=
  let eff := if dir.length = 0 then bnd else dir.take bnd.length
  if dir.length ≠ 0 ∧ dir.length < bnd.length then .ub "assert: fc_id < dirichlet_faces.size()"
  else (buildTables eff (numDirichlet dir)).bind fun t =>
    let ss := fbs * (bnd.length - numDirichlet dir)
    .ok ⟨dir, fbs, t.compress, t.expand, ss, [], List.replicate ss 0⟩

/-- Innermost loop of `assemble`, `hho_assemblers.hpp:166-170`. -/
def bInner {R : Type} [Ring R] (lhs : Mat R) (li gi lj0 gj0 : Nat) : List Nat → State R → Outcome (State R)
  | [], s => .ok s
  | j :: js, s => (lhs.get li (lj0 + j)).bind fun x =>
      bInner lhs li gi lj0 gj0 js { s with triplets := s.triplets ++ [(gi, gj0 + j, x)] }

/-- Block loop, `hho_assemblers.hpp:163-171`. -/
def bBlock {R : Type} [Ring R] (lhs : Mat R) (li0 gi0 lj0 gj0 b : Nat) : List Nat → State R → Outcome (State R)
  | [], s => .ok s
  | i :: is, s => (bInner lhs (li0 + i) (gi0 + i) lj0 gj0 (List.range b) s).bind fun s =>
      bBlock lhs li0 gi0 lj0 gj0 b is s

/-- Loop over the second face, `hho_assemblers.hpp:156-173`. `fcs` is the list of the cell's faces still
to visit, `lj` the local number. -/
def bCols {R : Type} [Ring R] (lhs : Mat R) (li gi : Nat) : List Nat → Nat → State R → Outcome (State R)
  | [], _, s => .ok s
  | f :: fs, lj, s => (vget s.dir f).bind fun d =>
      if d then bCols lhs li gi fs (lj + 1) s
      else (vget s.compress f).bind fun gj =>
        (bBlock lhs (li * s.fbs) (gi * s.fbs) (lj * s.fbs) (gj * s.fbs) s.fbs (List.range s.fbs) s).bind fun s =>
          bCols lhs li gi fs (lj + 1) s

/-- `RHS.segment(o, n) += seg`. -/
def vsegAdd {R : Type} [Add R] (v : List R) (o : Nat) : List R → Outcome (List R)
  | [] => .ok v
  | x :: xs => (vadd v o x).bind fun v => vsegAdd v (o + 1) xs

/-- Loop over the first face, `hho_assemblers.hpp:150-176`. -/
def bRows {R : Type} [Ring R] (lhs : Mat R) (rhs : List R) (all : List Nat) :
    List Nat → Nat → State R → Outcome (State R)
  | [], _, s => .ok s
  | f :: fs, li, s => (vget s.dir f).bind fun d =>
      if d then bRows lhs rhs all fs (li + 1) s
      else (vget s.compress f).bind fun gi => (bCols lhs li gi all 0 s).bind fun s =>
        (vseg rhs (li * s.fbs) s.fbs).bind fun seg => (vsegAdd s.rhs (gi * s.fbs) seg).bind fun r =>
          bRows lhs rhs all fs (li + 1) { s with rhs := r }

/-- `basic_condensed_assembler::assemble`, `hho_assemblers.hpp:126-177`. -/
def basicAssemble {R : Type} [Ring R] (s : State R) (fcs : List Nat) (lhs : Mat R) (rhs : List R) :
    Outcome (State R) :=
  if s.fbs * fcs.length = lhs.rows ∧ s.fbs * fcs.length = lhs.cols ∧ s.fbs * fcs.length = rhs.length then
    bRows lhs rhs fcs fcs 0 s
  else .ub "assert on the local sizes"

/-- `basic_condensed_assembler::take_local_solution`, `hho_assemblers.hpp:179-203`. -/
def basicTakeLocal {R : Type} [Zero R] (s : State R) (sol : List R) : List Nat → Outcome (List R)
  | [] => .ok []
  | f :: fs => (vget s.dir f).bind fun d =>
      (if d then .ok (List.replicate s.fbs 0)
       else (vat s.compress f).bind fun c => vseg sol (c * s.fbs) s.fbs).bind fun b =>
        (basicTakeLocal s sol fs).bind fun r => .ok (b ++ r)

/-! ### Discontinuous Galerkin -/

/-- `discontinuous_galerkin_assembler`, `implementation_dg/assembler.hpp:18-45`. -/
structure DG (R : Type) where
  cbs : Nat
  ncells : Nat
  triplets : List (Nat × Nat × R)
  rhs : List R
  lhs : Nat → Nat → R

/-- Constructor, `implementation_dg/assembler.hpp:38-45`. -/
def DG.init {R : Type} [Zero R] (cbs ncells : Nat) : DG R :=
  ⟨cbs, ncells, [], List.replicate (cbs * ncells) 0, fun _ _ => 0⟩

/-- The two nested loops, `implementation_dg/assembler.hpp:54-56,65-67`. `a`, `b` are cell offsets. -/
def dgBlock {R : Type} (cbs : Nat) (A : Mat R) (a b : Nat) : Outcome (List (Nat × Nat × R)) :=
  if cbs ≤ A.rows ∧ cbs ≤ A.cols then
    .ok ((List.range cbs).flatMap fun i => (List.range cbs).map fun j =>
      (cbs * a + i, cbs * b + j, A.entry i j))
  else if cbs = 0 then .ok [] else .ub "matrix index out of range"

/-- Calls on the assembler. -/
inductive DGCall (R : Type)
  /-- `assemble(msh, clp, clm, A)`. -/
  | couple (a b : Nat) (A : Mat R)
  /-- `assemble(msh, cl, A, rhs)`. -/
  | cell (a : Nat) (A : Mat R) (r : List R)
  /-- `finalize()`. -/
  | finalize

/-- One call, `implementation_dg/assembler.hpp:47-77`. -/
def DG.exec {R : Type} [Ring R] (s : DG R) : DGCall R → Outcome (DG R)
  | .couple a b A => (dgBlock s.cbs A a b).bind fun t => .ok { s with triplets := s.triplets ++ t }
  | .cell a A r => (dgBlock s.cbs A a a).bind fun t =>
      if r.length = s.cbs then
        (vsegAdd s.rhs (s.cbs * a) r).bind fun r => .ok { s with triplets := s.triplets ++ t, rhs := r }
      else .ub "sizes of the segment and of the vector differ"
  | .finalize => .ok { s with lhs := toMat s.triplets, triplets := [] }

/-- A history of calls. -/
def DG.run {R : Type} [Ring R] : DG R → List (DGCall R) → Outcome (DG R)
  | s, [] => .ok s
  | s, c :: cs => (s.exec c).bind fun s => DG.run s cs

end Verif.Assembly
