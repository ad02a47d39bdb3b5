import Verif.Model.VectorAsm
/-!
`scalar_primal_hho_assembler` (`methods/implementation_hho/assembler_hho.hpp:2370-2705`) and the Neumann and Robin conditions
of `diffusion_condensed_assembler` (`:283-386`).

Simplifications. Faces and boundary conditions are given by the answers of `scalar_boundary_conditions`; cells by the numbers
of their faces and the local system. Scalars are a commutative ring. Projections, right-hand sides and mass matrices of
faces are functions of the face. Additions to the right-hand side, which `diffusion_condensed_assembler` executes at once,
are collected as in the other class; an index out of range is `ub`. Numbers of faces are below 2^64.
-/
namespace Verif.ScalarAsm
open Verif.Assembly Verif.BoundaryCond Verif.VectorAsm

/-- Answers of the boundary object for one face. -/
structure ScalarFace where
  dir : Bool
  dtype : Nat
  neu : Bool
  ntype : Nat
  rob : Bool
  deriving DecidableEq

/-- Faces, counters `nb_faces_*`, boundary faces in the order of the mesh, `fbs`. -/
structure Bnd where
  faces : List ScalarFace
  nbDir : Nat
  nbNeu : Nat
  nbRob : Nat
  bfaces : List Nat
  fbs : Nat

/-- Tuple of a face in the storage of one kind. -/
def entryOf {K Fn : Type} (st : BoundaryCond.State K Fn) (k : Kind) (i : Nat) : Entry := (st.st k).faces.getD i (initEntry k)

/-- What the assemblers read from a boundary object on a mesh. -/
def bndOf {C F K Fn : Type} (m : MeshTopo.Mesh C F) (st : BoundaryCond.State K Fn) (fbs : Nat) : Bnd where
  faces := (List.range m.faces.length).map fun i => ⟨(entryOf st .dirichlet i).flag, (entryOf st .dirichlet i).btype,
    (entryOf st .neumann i).flag, (entryOf st .neumann i).btype, (entryOf st .robin i).flag⟩
  nbDir := nbFaces st .dirichlet
  nbNeu := nbFaces st .neumann
  nbRob := nbFaces st .robin
  bfaces := (List.range m.faces.length).filter fun i => (m.binfo[i]?).elim false (·.isB)
  fbs := fbs

/-- Dirichlet flags. -/
def Bnd.dir (s : Bnd) : List Bool := s.faces.map (·.dir)

/-- Numbering loop, `assembler_hho.hpp:2406-2414`: every entry is written. -/
def compressLoop : List Bool → Nat → List Nat
  | [], _ => []
  | d :: ds, off => off :: compressLoop ds (if d then off else off + 1)

/-- Constructor of `scalar_primal_hho_assembler`, `assembler_hho.hpp:2398-2426`: compress table and `system_size`. -/
def constructPrimal (s : Bnd) : Outcome (List Nat × Nat) :=
  if s.dir.count false + s.nbDir = s.faces.length then .ok (compressLoop s.dir 0, s.fbs * (s.faces.length - s.nbDir))
  else .ub "assert: compressed_offset == num_other_faces"

/-- Constructor of `diffusion_condensed_assembler` with boundary conditions, `assembler_hho.hpp:130-161`. -/
def constructDiffusion (s : Bnd) : Outcome (List Nat × Nat) :=
  (buildTables s.dir (numDirichlet s.dir)).bind fun t => .ok (t.compress, s.fbs * (s.faces.length - numDirichlet s.dir))

/-- The two classes. -/
def construct (primal : Bool) (s : Bnd) : Outcome (List Nat × Nat) :=
  if primal then constructPrimal s else constructDiffusion s

variable {K : Type} [CommRing K]

/-- `asm_map` and `dirichlet_data`, `assembler_hho.hpp:2465-2488`, `:239-263`. -/
def faceLoop (s : Bnd) (compress : List Nat) (proj : Nat → Nat → K) : List Nat → Outcome (List AsmIdx × List K)
  | [] => .ok ([], [])
  | f :: fs => (vat compress f).bind fun c => (vat s.faces f).bind fun d => (faceLoop s compress proj fs).bind fun r =>
      .ok ((List.range s.fbs).map (fun i => AsmIdx.mk (c * s.fbs + i) (!d.dir)) ++ r.1,
        (List.range s.fbs).map (fun i => if d.dir then proj f i else 0) ++ r.2)

/-- Pairs for the right-hand side, `assembler_hho.hpp:2490-2504`, `:265-280`. -/
def rowDuos (asm : List AsmIdx) (dd : List K) (lhs : Nat → Nat → K) (rhs : Nat → K) (n : Nat) : List (Nat × K) :=
  (List.range n).flatMap fun i =>
    if (asm.getD i ⟨0, false⟩).assem then
      ((List.range n).flatMap fun j => if (asm.getD j ⟨0, false⟩).assem then []
        else [((asm.getD i ⟨0, false⟩).idx, -lhs i j * dd.getD j 0)]) ++ [((asm.getD i ⟨0, false⟩).idx, rhs i)]
    else []

/-- A cell with its local system. -/
structure ScalarCell (K : Type) where
  fcs : List Nat
  size : Nat
  lhs : Nat → Nat → K
  rhs : Nat → K

/-- `assemble`, `assembler_hho.hpp:2449-2505`, `:225-281`. -/
def assemble (s : Bnd) (compress : List Nat) (proj : Nat → Nat → K) (c : ScalarCell K) :
    Outcome (List (Nat × Nat × K) × List (Nat × K)) :=
  (faceLoop s compress proj c.fcs).bind fun a =>
    if c.size ≤ a.1.length then .ok (localTriplets a.1 c.lhs c.size, rowDuos a.1 a.2 c.lhs c.rhs c.size)
    else .ub "asm_map out of range"

/-- All cells. -/
def assembleCells (s : Bnd) (compress : List Nat) (proj : Nat → Nat → K) :
    List (ScalarCell K) → Outcome (List (Nat × Nat × K) × List (Nat × K))
  | [] => .ok ([], [])
  | c :: cs => (assemble s compress proj c).bind fun a => (assembleCells s compress proj cs).bind fun r =>
      .ok (a.1 ++ r.1, a.2 ++ r.2)

/-- Loop of `impose_neumann_boundary_conditions` over the boundary faces, `assembler_hho.hpp:291-332`, `:2591-2633`;
`neu f i` is `make_rhs`. -/
def neumannLoop (s : Bnd) (compress : List Nat) (neu : Nat → Nat → K) : List Nat → Outcome (List (Nat × K))
  | [] => .ok []
  | f :: fs => (vat s.faces f).bind fun x =>
      (if x.neu then
        if x.dir then .throws "invalid_argument: Dirichlet and Neumann"
        else if x.rob then .throws "invalid_argument: Robin and Neumann"
        else (vat compress f).bind fun c => .ok ((List.range s.fbs).map fun i => (c * s.fbs + i, neu f i))
      else .ok []).bind fun a => (neumannLoop s compress neu fs).bind fun r => .ok (a ++ r)

/-- `impose_neumann_boundary_conditions`, `assembler_hho.hpp:283-336`, `:2586-2635`. -/
def imposeNeumann (primal : Bool) (s : Bnd) (compress : List Nat) (neu : Nat → Nat → K) : Outcome (List (Nat × K)) :=
  if 0 < s.nbNeu then neumannLoop s compress neu s.bfaces
  else if primal then .ok [] else .throws "invalid_argument: There are no Neumann faces"

/-- One Robin face, `assembler_hho.hpp:371-388`, `:2679-2694`. -/
def robinFace (s : Bnd) (c : Nat) (rob : Nat → K) (mass : Nat → Nat → K) : List (Nat × Nat × K) × List (Nat × K) :=
  ((List.range s.fbs).flatMap fun i => (List.range s.fbs).map fun j => (c * s.fbs + i, c * s.fbs + j, mass i j),
    (List.range s.fbs).map fun i => (c * s.fbs + i, rob i))

/-- Loop of `impose_robin_boundary_conditions`, `assembler_hho.hpp:345-392`, `:2642-2697`. -/
def robinLoop (s : Bnd) (compress : List Nat) (rob : Nat → Nat → K) (mass : Nat → Nat → Nat → K) :
    List Nat → Outcome (List (Nat × Nat × K) × List (Nat × K))
  | [] => .ok ([], [])
  | f :: fs => (vat s.faces f).bind fun x =>
      (if x.rob then
        if x.neu then
          if x.ntype = NEUMANN then .throws "invalid_argument: Neumann and Robin" else .throws "logic_error: Unknown Neumann"
        else if x.dir then
          if x.dtype = DIRICHLET then .throws "invalid_argument: Dirichlet and Robin"
          else .throws "logic_error: Unknown Dirichlet"
        else (vat compress f).bind fun c => .ok (robinFace s c (rob f) (mass f))
      else .ok ([], [])).bind fun a => (robinLoop s compress rob mass fs).bind fun r => .ok (a.1 ++ r.1, a.2 ++ r.2)

/-- `impose_robin_boundary_conditions`, `assembler_hho.hpp:338-394`, `:2637-2700`. -/
def imposeRobin (s : Bnd) (compress : List Nat) (rob : Nat → Nat → K) (mass : Nat → Nat → Nat → K) :
    Outcome (List (Nat × Nat × K) × List (Nat × K)) :=
  if 0 < s.nbRob then robinLoop s compress rob mass s.bfaces else .ok ([], [])

/-- Data of the boundary. -/
structure ScalarData (K : Type) where
  proj : Nat → Nat → K
  neu : Nat → Nat → K
  rob : Nat → Nat → K
  mass : Nat → Nat → Nat → K

/-- Constructor, `assemble` on every cell, the Neumann conditions if `withNeu`, the Robin conditions, `finalize`. -/
def system (primal withNeu : Bool) (s : Bnd) (D : ScalarData K) (cells : List (ScalarCell K)) :
    Outcome (Nat × (Nat → Nat → K) × (Nat → K)) :=
  (construct primal s).bind fun t => (assembleCells s t.1 D.proj cells).bind fun a =>
    (if withNeu then imposeNeumann primal s t.1 D.neu else .ok []).bind fun n =>
      (imposeRobin s t.1 D.rob D.mass).bind fun r =>
        (finish t.2 (a.1 ++ r.1) (a.2 ++ n ++ r.2) fun _ => 0).bind fun m => .ok (t.2, m)

/-- Loop over faces of `take_local_solution` (`assembler_hho.hpp:2556-2583`), and of `expand_solution` (`:2521-2553`) for all
faces in order. -/
def takeFaces (s : Bnd) (compress : List Nat) (proj : Nat → Nat → K) (sol : List K) : List Nat → Outcome (List K)
  | [] => .ok []
  | f :: fs => (vat s.faces f).bind fun d =>
      (if d.dir then .ok ((List.range s.fbs).map (proj f))
       else (vat compress f).bind fun c => vseg sol (c * s.fbs) s.fbs).bind fun a =>
        (takeFaces s compress proj sol fs).bind fun r => .ok (a ++ r)

/-- `expand_solution`. -/
def expand (s : Bnd) (compress : List Nat) (size : Nat) (proj : Nat → Nat → K) (sol : List K) : Outcome (List K) :=
  if sol.length = size then takeFaces s compress proj sol (List.range s.faces.length)
  else .ub "assert: solution.size() == system_size"

end Verif.ScalarAsm
