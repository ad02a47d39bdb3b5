import Verif.Model.HhoSolver
import Verif.Model.Neighbours
/-!
The interior penalty discontinuous Galerkin solver `run_diffusion_solver`, `apps/diffusion/src/diffusion_dg.cpp:133-263`:
cell and face matrices, assembly through the face neighbours, global solve, error against the projected solution.

Simplifications. Cells and faces are given by number; the neighbours are computed by the modelled
`neighbour_connectivity` on these numbers. The load and the solution are functions of the point. Scalars are elements
of a field; the final square root and the console and Silo output are not modelled. `mumps_lu` and `llt` are
assumptions (`LU`, `Solver`). The calls to the assembler are collected before they are executed.
-/
namespace Verif.DgSolver
open Finset Verif.Hho Verif.HhoSolver LocalMatrix Neighbours

variable {K P : Type}

/-- A mesh: cells and faces by number. -/
structure Mesh (P K : Type) where
  ncells : Nat
  cell : Nat → DCell P K
  nfaces : Nat
  face : Nat → Elem P K

/-- The mesh as `neighbour_connectivity` sees it. -/
def Mesh.topo (m : Mesh P K) : MeshTopo.Mesh Nat Nat where
  cells := List.range m.ncells
  faces := List.range m.nfaces
  facesOf := fun c => (m.cell c).fcs.map Prod.fst
  binfo := List.replicate m.nfaces .default

variable [Field K]

/-- `M += s * a * b.transpose()` -/
def addOuter (s : K) (a b : Nat → K) (M : Mat K) : Mat K := fun i j => M i j + s * a i * b j

/-- `K`, `diffusion_dg.cpp:151,159`. -/
def cellMat (d k : Nat) (e : Elem P K) : Mat K := accumDot d (e.integrate (2 * k)) (e.basis k).grad (e.basis k).grad

/-- `loc_rhs`, `diffusion_dg.cpp:152,160`. -/
def cellRhs (k : Nat) (e : Elem P K) (f : P → K) : Nat → K :=
  (e.integrate (2 * k)).foldl (fun v q => fun i => v i + q.w * (e.basis k).fn q.pt i * f q.pt) fun _ => 0

/-- `tdphi * n` -/
def dn (d : Nat) (b : Basis P K) (n : Nat → K) (x : P) : Nat → K := fun i => dot d (b.grad x i) n

/-- `Att`, `diffusion_dg.cpp:166,178-199`; `nb = nv.second`. -/
def att (d : Nat) (eta : K) (nb : Bool) (tb : Basis P K) (n : Nat → K) (qs : List (QP P K)) : Mat K :=
  qs.foldl (fun M q =>
    let phi := tb.fn q.pt
    let g := dn d tb n q.pt
    if nb then addOuter (-(q.w * (1 / 2))) g phi (addOuter (-(q.w * (1 / 2))) phi g (addOuter (q.w * eta) phi phi M))
    else addOuter (-q.w) g phi (addOuter (-q.w) phi g (addOuter (q.w * eta) phi phi M))) zero

/-- `Atn`, `diffusion_dg.cpp:167,201-206`, filled only for faces with a neighbour. -/
def atn (d : Nat) (eta : K) (tb nb : Basis P K) (n : Nat → K) (qs : List (QP P K)) : Mat K :=
  qs.foldl (fun M q =>
    let tphi := tb.fn q.pt
    let nphi := nb.fn q.pt
    addOuter (q.w * (1 / 2)) (dn d tb n q.pt) nphi
      (addOuter (-(q.w * (1 / 2))) tphi (dn d nb n q.pt) (addOuter (-(q.w * eta)) tphi nphi M))) zero

/-- The face loop of a cell, `diffusion_dg.cpp:163-212`: the calls to the assembler. -/
def faceCalls (d k : Nat) (eta : K) (m : Mesh P K) (o : List Owner) (a : Nat) :
    List (Nat × (Nat → K)) → Outcome (List (Assembly.DGCall K))
  | [] => .ok []
  | q :: qs => (neighbourVia m.topo o a q.1).bind fun nv =>
      let tb := (m.cell a).elem.basis k
      let nb := (m.cell nv.1).elem.basis k
      if tb.size = nb.size then
        let etal := eta / (m.face q.1).diam
        let fqs := (m.face q.1).integrate (2 * k)
        (faceCalls d k eta m o a qs).bind fun r =>
          .ok (.couple a a ⟨tb.size, tb.size, att d etal nv.2 tb q.2 fqs⟩ ::
            ((if nv.2 then [.couple a nv.1 ⟨tb.size, tb.size, atn d etal tb nb q.2 fqs⟩] else []) ++ r))
      else .ub "assert: tbasis.size() == nbasis.size()"

/-- The cell loop, `diffusion_dg.cpp:146-215`. -/
def cellCalls (d k : Nat) (eta : K) (m : Mesh P K) (f : P → K) (o : List Owner) :
    List Nat → Outcome (List (Assembly.DGCall K))
  | [] => .ok []
  | a :: as =>
    let e := (m.cell a).elem
    let cbs := (e.basis k).size
    (faceCalls d k eta m o a (m.cell a).fcs).bind fun r =>
      (cellCalls d k eta m f o as).bind fun rs =>
        .ok (r ++ .cell a ⟨cbs, cbs, cellMat d k e⟩ ((List.range cbs).map (cellRhs k e f)) :: rs)

/-- The assembled system, `diffusion_dg.cpp:136-217`; `cbs = scalar_basis_size(degree, DIM)`. -/
def assemble (d k cbs : Nat) (eta : K) (m : Mesh P K) (f : P → K) : Outcome (Assembly.DG K) :=
  (connectivity m.topo).bind fun o =>
    (cellCalls d k eta m f o (List.range m.ncells)).bind fun cs =>
      Assembly.DG.run (Assembly.DG.init cbs m.ncells) (cs ++ [.finalize])

/-- `sol` and `err`, before the square root. -/
structure Result (K : Type) where
  sol : Nat → K
  err : K

/-- `run_diffusion_solver`, `diffusion_dg.cpp:133-263`: `u = sol_fun`. -/
def run (S : Solver K) (lu : LU K) (d k cbs : Nat) (eta : K) (m : Mesh P K) (f u : P → K) : Outcome (Result K) :=
  (assemble d k cbs eta m f).bind fun s =>
    let sol := lu.solve (cbs * m.ncells) s.lhs fun i => s.rhs.getD i 0
    .ok ⟨sol, (List.range m.ncells).foldl (fun err a =>
      let e := (m.cell a).elem
      let cb := e.basis k
      let asol := S.solve cb.size (mass e k cb) (rhsOf e k 0 cb u)
      err + quadForm cb.size (mass e k cb) fun i => sol (a * cb.size + i) - asol i) 0⟩

end Verif.DgSolver
