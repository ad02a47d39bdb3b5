import Verif.Model.VemDofs
import Verif.Model.Condensation
/-!
The global system of the virtual element method, `apps/diffusion/src/diffusion_vem.cpp:30-150`: marks of the Dirichlet
unknowns, numbers of the remaining ones, assembly of the condensed local systems and nodal values of the solution.

Simplifications: the local matrix and load of a cell, computed by `compute_local`, are given (`Sys`); scalars are
elements of a commutative ring; the sparse matrix is the list of its triplets, `setFromTriplets` adds those with the
same position; the right-hand side is a function; output is left out.
-/
namespace Verif.VemSystem
open Verif.Lookup Verif.MeshTopo Verif.VemDofs Verif.Condensation

variable {K : Type} [CommRing K]

/-- `is_dirichlet.at(d) = true` for all `d`, `diffusion_vem.cpp:64-65`. -/
def setAll : List Nat → List Bool → Outcome (List Bool)
  | [], l => .ok l
  | d :: ds, l => if d < l.length then setAll ds (l.set d true) else .throws "out_of_range"

/-- The loop over the faces, `diffusion_vem.cpp:59-67`: the marks and `nbndfcs`. -/
def markLoop (m : Mesh) (M : Mapper) : List (List Nat) → List Bool × Nat → Outcome (List Bool × Nat)
  | [], st => .ok st
  | f :: fs, st => (boundaryInfo m f).bind fun bi =>
    if bi.isB then (offset m.faces f).bind fun i => (setAll (bndToGlobal M i) st.1).bind fun l =>
      markLoop m M fs (l, st.2 + 1)
    else markLoop m M fs st

/-- `totdofs`, `diffusion_vem.cpp:50-52`. -/
def totdofs (m : Mesh) (k : Nat) : Nat := m.npts + (k - 1) * m.faces.length

/-- The marks, `diffusion_vem.cpp:54-73`, with the assertion on their number. -/
def marks (m : Mesh) (k : Nat) (M : Mapper) : Outcome (List Bool) :=
  (markLoop m M m.faces (List.replicate (totdofs m k) false, 0)).bind fun r =>
    if r.1.count true = k * r.2 then .ok r.1 else .ub "assert(dirdofs == dirdofs_chk)"

/-- `compress_map`, `diffusion_vem.cpp:79-86`; the second argument is `cnum`. -/
def compressMap : List Bool → Nat → List (Option Nat)
  | [], _ => []
  | true :: bs, c => none :: compressMap bs c
  | false :: bs, c => some c :: compressMap bs (c + 1)

/-- `compress`, `diffusion_vem.cpp:30-41`. -/
def compress (cm : List (Option Nat)) : List Nat → Outcome (List (Option Nat))
  | [] => .ok []
  | g :: gs => match cm[g]? with
    | none => .ub "assert(l2g[i] < compress_map.size())"
    | some x => (compress cm gs).bind fun r => .ok (x :: r)

/-- What `compute_local` returns for a cell: `nt` is the number of unknowns inside. -/
structure Sys (K : Type) where
  nt : Nat
  L : Nat → Nat → K
  R : Nat → K

/-- `points(msh, cl).size()` -/
def numPoints : Cell → Nat
  | .tri _ _ _ => 3
  | .quad _ _ _ _ => 4
  | .poly pts _ => pts.length

/-- The contributions of a cell to row `i`, `diffusion_vem.cpp:118-127`. -/
def rowTrips {n : Nat} (Lc : Matrix (Fin n) (Fin n) K) (l2g : List (Option Nat)) (i : Fin n) (gi : Nat) :
    List (Nat × Nat × K) :=
  (List.finRange n).filterMap fun (j : Fin n) => (l2g.getD j.val none).map fun gj => (gi, gj, Lc i j)

/-- The loop over the rows, `diffusion_vem.cpp:118-130`. -/
def rows {n : Nat} (Lc : Matrix (Fin n) (Fin n) K) (Rc : Fin n → K) (l2g : List (Option Nat)) :
    List (Fin n) → List (Nat × Nat × K) × (Nat → K) → List (Nat × Nat × K) × (Nat → K)
  | [], st => st
  | i :: is, st => match l2g.getD i.val none with
    | none => rows Lc Rc l2g is st
    | some gi => rows Lc Rc l2g is
        (st.1 ++ rowTrips Lc l2g i gi, fun n => if n = gi then st.2 n + Rc i else st.2 n)

/-- One cell, `diffusion_vem.cpp:102-130`. -/
def cellStep (F : LDLT K) (k : Nat) (cm : List (Option Nat)) (c : Cell) (s : Sys K) (g : List Nat)
    (st : List (Nat × Nat × K) × (Nat → K)) : Outcome (List (Nat × Nat × K) × (Nat → K)) :=
  (vemSchur F (numPoints c * k) s.nt (fun i j => s.L i j) (fun i => s.R i)).bind fun r =>
    (compress cm g).bind fun l2g =>
      if numPoints c * k = l2g.length then .ok (rows r.1 r.2 l2g (List.finRange (numPoints c * k)) st)
      else .ub "assert(Lc.cols() == l2g.size())"

/-- The loop over the cells, `diffusion_vem.cpp:97-131`. -/
def assemble (F : LDLT K) (k : Nat) (cm : List (Option Nat)) (M : Mapper) (sys : Nat → Sys K) :
    List Cell → Nat → List (Nat × Nat × K) × (Nat → K) → Outcome (List (Nat × Nat × K) × (Nat → K))
  | [], _, st => .ok st
  | c :: cs, i, st => (cellToGlobal M i).bind fun g => (cellStep F k cm c (sys i) g st).bind fun st =>
    assemble F k cm M sys cs (i + 1) st

/-- The linear system: `compress_map`, its size, triplets and right-hand side, `diffusion_vem.cpp:44-134`. -/
structure System (K : Type) where
  cm : List (Option Nat)
  size : Nat
  trips : List (Nat × Nat × K)
  rhs : Nat → K

/-- `test_vem_diffusion` up to the linear solver. -/
def system (F : LDLT K) (m : Mesh) (k : Nat) (sys : Nat → Sys K) : Outcome (System K) :=
  (construct m k).bind fun M => (marks m k M).bind fun dir =>
    (assemble F k (compressMap dir 0) M sys m.cells 0 ([], fun _ => 0)).bind fun r =>
      .ok ⟨compressMap dir 0, totdofs m k - dir.count true, r.1, r.2⟩

/-- `LHS.setFromTriplets(...)` -/
def entry (ts : List (Nat × Nat × K)) (a b : Nat) : K :=
  (ts.map fun t => if t.1 = a ∧ t.2.1 = b then t.2.2 else 0).sum

/-- The value of unknown `i` in the solution; for points these are the nodal values, `diffusion_vem.cpp:141-147`. -/
def expand (cm : List (Option Nat)) (csol : Nat → K) (i : Nat) : K :=
  match cm.getD i none with
  | none => 0
  | some c => csol c

end Verif.VemSystem
