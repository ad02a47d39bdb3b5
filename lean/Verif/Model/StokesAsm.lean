import Verif.Model.VectorAsm
/-!
Assembly of the Stokes system: `stokes_assembler` and `stokes_assembler_alg`,
`methods/implementation_hho/assembler_hho.hpp:531-930`, `:932-1250`.

Simplifications. A cell and a face are their numbers; a face is given by the answers `is_dirichlet_face` and
`dirichlet_boundary_type`. Scalars are a commutative ring. The projection of the boundary function is a function of the
extra degree of the rule, the face and the coefficient. The weights of the mean value (`mult`) are given with the cell.
Additions to the right-hand side are collected and executed in `finish`; an index out of range is `ub`. Local matrices
that do not have the size of the unknowns of the cell (a failed assertion) are `ub`.
-/
namespace Verif.StokesAsm
open Verif.Assembly Verif.BoundaryCond Verif.VectorAsm

/-- Sizes and boundary: `cbsA` vector functions per cell, `dim * m` per face, `cbsB` pressures per cell, `nC` cells. -/
structure Cfg where
  dim : Nat
  m : Nat
  cbsA : Nat
  cbsB : Nat
  nC : Nat
  faces : List (Bool × Nat)

/-- `fbs_A`. -/
def Cfg.fbs (s : Cfg) : Nat := s.dim * s.m

/-- Flags of the faces. -/
def Cfg.dir (s : Cfg) : List Bool := s.faces.map (·.1)

/-- `num_other_faces`. -/
def Cfg.other (s : Cfg) : Nat := s.faces.length - numDirichlet s.dir

/-- First pressure, `assembler_hho.hpp:663`. -/
def Cfg.bOff (s : Cfg) (c : Nat) : Nat := s.cbsA * s.nC + s.fbs * s.other + s.cbsB * c

/-- `mult_offset`, `assembler_hho.hpp:736`. -/
def Cfg.mOff (s : Cfg) : Nat := s.cbsA * s.nC + s.fbs * s.other + s.cbsB * s.nC

/-- `system_size`, `assembler_hho.hpp:614`. -/
def Cfg.size (s : Cfg) : Nat := s.cbsA * s.nC + s.fbs * s.other + s.cbsB * s.nC + 1

/-- Sum of the loop before the assertion, `assembler_hho.hpp:621-623`. -/
def faceDofs (dim n : Nat) : List (Bool × Nat) → Outcome Nat
  | [] => .ok 0
  | f :: fs => (if f.1 then imposedVector f.2 n dim else .ok 0).bind fun k => (faceDofs dim n fs).bind fun r =>
      .ok ((n - k) + r)

/-- Constructors, `assembler_hho.hpp:582-626`, `:985-1031`: the compress table. -/
def construct (s : Cfg) : Outcome (List Nat) :=
  (buildTables s.dir (numDirichlet s.dir)).bind fun t => (faceDofs s.dim s.fbs s.faces).bind fun n =>
    if n = s.fbs * s.other then .ok t.compress else .ub "assert: face_dofs == fbs_A * num_other_faces"

variable {K : Type} [CommRing K]

/-- Faces part of `asm_map` and `dirichlet_data`, `assembler_hho.hpp:670-691`. -/
def faceLoop (s : Cfg) (compress : List Nat) (proj : Nat → Nat → K) : List Nat → Outcome (List AsmIdx × List K)
  | [] => .ok ([], [])
  | f :: fs => (vat compress f).bind fun c => (vat s.faces f).bind fun d => (faceLoop s compress proj fs).bind fun r =>
      .ok ((List.range s.fbs).map (fun i => AsmIdx.mk (s.cbsA * s.nC + c * s.fbs + i) (!d.1)) ++ r.1,
        (List.range s.fbs).map (fun i => if d.1 then proj f i else 0) ++ r.2)

/-- A cell with its local contributions; `size` is `lhs_A.rows()`. -/
structure StokesCell (K : Type) where
  fcs : List Nat
  size : Nat
  A : Nat → Nat → K
  B : Nat → Nat → K
  mult : Nat → K
  rhs : Nat → K

/-- `asm_map` and `dirichlet_data` of cell number `c`, `assembler_hho.hpp:655-691`. -/
def localMap (s : Cfg) (compress : List Nat) (proj : Nat → Nat → K) (c : Nat) (fcs : List Nat) :
    Outcome (List AsmIdx × List K) :=
  (faceLoop s compress proj fcs).bind fun r =>
    .ok ((List.range s.cbsA).map (fun i => AsmIdx.mk (c * s.cbsA + i) true) ++ r.1,
      List.replicate s.cbsA 0 ++ r.2)

/-- Entry of `asm_map`. -/
def at' (asm : List AsmIdx) (i : Nat) : AsmIdx := asm.getD i ⟨0, false⟩

/-- Right-hand side of the first loop, `assembler_hho.hpp:695-707`. -/
def aDuos (asm : List AsmIdx) (dd : List K) (A : Nat → Nat → K) (n : Nat) : List (Nat × K) :=
  (List.range n).flatMap fun i =>
    if (at' asm i).assem then
      (List.range n).flatMap fun j => if (at' asm j).assem then [] else [((at' asm i).idx, -(A i j * dd.getD j 0))]
    else []

/-- Triplets of the second loop, `assembler_hho.hpp:709-723`. -/
def bTriplets (asm : List AsmIdx) (B : Nat → Nat → K) (bOff cbsB n : Nat) : List (Nat × Nat × K) :=
  (List.range cbsB).flatMap fun i => (List.range n).flatMap fun j =>
    if (at' asm j).assem then [(bOff + i, (at' asm j).idx, B i j), ((at' asm j).idx, bOff + i, B i j)] else []

/-- Right-hand side of the second loop. -/
def bDuos (asm : List AsmIdx) (dd : List K) (B : Nat → Nat → K) (bOff cbsB n : Nat) : List (Nat × K) :=
  (List.range cbsB).flatMap fun i => (List.range n).flatMap fun j =>
    if (at' asm j).assem then [] else [(bOff + i, -(B i j * dd.getD j 0))]

/-- Triplets of the mean value, `assembler_hho.hpp:738-742`. -/
def mTriplets (mult : Nat → K) (bOff mOff cbsB : Nat) : List (Nat × Nat × K) :=
  (List.range cbsB).flatMap fun i => [(bOff + i, mOff, mult i), (mOff, bOff + i, mult i)]

/-- Load of the cell only, `assembler_hho.hpp:744`. -/
def cellLoad (s : Cfg) (c : Nat) (rhs : Nat → K) : List (Nat × K) :=
  (List.range s.cbsA).map fun i => (c * s.cbsA + i, rhs i)

/-- Load on all unknowns, `assembler_hho.hpp:795-800`, `:1153-1159`. -/
def fullLoad (asm : List AsmIdx) (n : Nat) (rhs : Nat → K) : List (Nat × K) :=
  (List.range n).flatMap fun i => if (at' asm i).assem then [((at' asm i).idx, rhs i)] else []

/-- One cell: `assemble` (`full = false`), `:648-746`, or `assemble_alg` (`full = true`), `:748-846`, or `assemble_lhs` and
`assemble_rhs` of the other class together (`full = true`). -/
def localSystem (s : Cfg) (compress : List Nat) (proj : Nat → Nat → K) (full : Bool) (c : Nat) (x : StokesCell K) :
    Outcome (List (Nat × Nat × K) × List (Nat × K)) :=
  (localMap s compress proj c x.fcs).bind fun a =>
    if a.1.length = x.size then
      .ok (localTriplets a.1 x.A x.size ++ bTriplets a.1 x.B (s.bOff c) s.cbsB x.size ++
          mTriplets x.mult (s.bOff c) s.mOff s.cbsB,
        aDuos a.1 a.2 x.A x.size ++ bDuos a.1 a.2 x.B (s.bOff c) s.cbsB x.size ++
          (if full then fullLoad a.1 x.size x.rhs else cellLoad s c x.rhs))
    else .ub "assert on the local sizes"

/-- All cells, from number `c`. -/
def assembleCells (s : Cfg) (compress : List Nat) (proj : Nat → Nat → K) (full : Bool) :
    Nat → List (StokesCell K) → Outcome (List (Nat × Nat × K) × List (Nat × K))
  | _, [] => .ok ([], [])
  | c, x :: xs => (localSystem s compress proj full c x).bind fun a =>
      (assembleCells s compress proj full (c + 1) xs).bind fun r => .ok (a.1 ++ r.1, a.2 ++ r.2)

/-- Constructor, `assemble` or `assemble_alg` on every cell, `finalize`. The projection is the one with extra degree
`face_degree` in `assemble` (`:689`) and 2 in `assemble_alg` (`:788`, `:1088`). -/
def assembleStokes (s : Cfg) (proj : Nat → Nat → K) (full : Bool) (cells : List (StokesCell K)) :
    Outcome ((Nat → Nat → K) × (Nat → K)) :=
  (construct s).bind fun t => (assembleCells s t proj full 0 cells).bind fun a => finish s.size a.1 a.2 fun _ => 0

/-- Left-hand sides of all cells in `stokes_assembler_alg::assemble_lhs`, `:1046-1127`: triplets and `RHS_DIRICHLET`. -/
def lhsCells (s : Cfg) (compress : List Nat) (proj : Nat → Nat → K) :
    Nat → List (StokesCell K) → Outcome (List (Nat × Nat × K) × List (Nat × K))
  | _, [] => .ok ([], [])
  | c, x :: xs => (localMap s compress proj c x.fcs).bind fun a =>
    if a.1.length = x.size then
      (lhsCells s compress proj (c + 1) xs).bind fun r =>
        .ok ((localTriplets a.1 x.A x.size ++ bTriplets a.1 x.B (s.bOff c) s.cbsB x.size ++
            mTriplets x.mult (s.bOff c) s.mOff s.cbsB) ++ r.1,
          (aDuos a.1 a.2 x.A x.size ++ bDuos a.1 a.2 x.B (s.bOff c) s.cbsB x.size) ++ r.2)
    else .ub "assert on the local sizes"

/-- Loads of all cells in `assemble_rhs`, `:1128-1160`. -/
def rhsCells (s : Cfg) (compress : List Nat) (proj : Nat → Nat → K) :
    Nat → List (StokesCell K) → Outcome (List (Nat × K))
  | _, [] => .ok []
  | c, x :: xs => (localMap s compress proj c x.fcs).bind fun a =>
    if a.1.length = x.size then
      (rhsCells s compress proj (c + 1) xs).bind fun r => .ok (fullLoad a.1 x.size x.rhs ++ r)
    else .ub "assert on the local sizes"

/-- `initialize_lhs`, `assemble_lhs`, `finalize_lhs`, then `initialize_rhs`, `assemble_rhs`, `finalize_rhs` of
`stokes_assembler_alg`. -/
def assembleStokesAlg (s : Cfg) (proj : Nat → Nat → K) (cells : List (StokesCell K)) :
    Outcome ((Nat → Nat → K) × (Nat → K)) :=
  (construct s).bind fun t => (lhsCells s t proj 0 cells).bind fun a => (finish s.size a.1 a.2 fun _ => 0).bind fun l =>
    (rhsCells s t proj 0 cells).bind fun r => (applyDuos s.size r fun _ => 0).bind fun b =>
      .ok (l.1, fun i => b i + l.2 i)

/-- Faces part of `take_velocity`, `assembler_hho.hpp:877-895`. -/
def takeFaces (s : Cfg) (compress : List Nat) (proj : Nat → Nat → K) (sol : List K) : List Nat → Outcome (List K)
  | [] => .ok []
  | f :: fs => (vat s.faces f).bind fun d =>
      (if d.1 then .ok ((List.range s.fbs).map (proj f))
       else (vat compress f).bind fun c => vseg sol (s.cbsA * s.nC + c * s.fbs) s.fbs).bind fun a =>
        (takeFaces s compress proj sol fs).bind fun r => .ok (a ++ r)

/-- `take_velocity`, `assembler_hho.hpp:866-898`, `:1187-1219`; the projection has extra degree 2. -/
def takeVelocity (s : Cfg) (compress : List Nat) (proj : Nat → Nat → K) (sol : List K) (c : Nat) (fcs : List Nat) :
    Outcome (List K) :=
  (vseg sol (c * s.cbsA) s.cbsA).bind fun a => (takeFaces s compress proj sol fcs).bind fun r => .ok (a ++ r)

/-- `take_pressure`, `assembler_hho.hpp:900-908`. -/
def takePressure (s : Cfg) (sol : List K) (c : Nat) : Outcome (List K) := vseg sol (s.bOff c) s.cbsB

end Verif.StokesAsm
