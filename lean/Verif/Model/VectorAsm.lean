import Verif.Model.Assembly
import Verif.Model.BoundaryCond
import Mathlib.Algebra.BigOperators.Group.Finset.Basic
/-!
Assemblers for vector-valued problems with conditions on single components: `assembler_mechanics`,
`vector_primal_hho_assembler` and `vector_mechanics_hho_assembler`,
`methods/implementation_hho/assembler_hho.hpp:1254-2355`, `:2710-3948`, `:3966-4786`.

Simplifications. A face is its number; `FaceBc` holds what the boundary object and the table of degrees answer for it.
The dimension is 2 or 3 and a face carries `dim * m` unknowns (`vector_basis_size`). Scalars are a commutative ring.
The projection of the boundary function is a function of the face and of the coefficient. A loop
`for (i = 0; i < n; i += dim)` runs over `i = dim * k` with `k < m`. The index stored for an eliminated unknown is never
read (the marks are tested first), it is modelled as in the linear assembler. Local matrices that do not have the
size of the unknowns of the cell (a failed assertion) are `ub`. The memory layout option `FILL_COLMAJOR` is off.
-/
namespace Verif.VectorAsm
open Finset Verif.BoundaryCond Verif.Assembly

/-- Answers about one face: `is_dirichlet_face`, `dirichlet_boundary_type`, `is_contact_face`, `contact_boundary_type`,
`is_neumann_face`, and the number of scalar unknowns (0 if the face has none). -/
structure FaceBc where
  dir : Bool
  dtype : Nat
  contact : Bool
  ctype : Nat
  neu : Bool
  m : Nat
  deriving DecidableEq, Repr

/-- `dirichlet_imposed_dofs(face_id, degree)`, `boundary_conditions.hpp:766-780`. -/
def imposed (dim : Nat) (f : FaceBc) : Outcome Nat := if f.dir then imposedVector f.dtype (dim * f.m) dim else .ok 0

/-! ### Numbering -/

/-- Loop of the constructor of `assembler_mechanics`, `assembler_hho.hpp:1287-1294`: first unknown of every face and
number of unknowns. -/
def mechTable (dim : Nat) : List FaceBc → Nat → Outcome (List Nat × Nat)
  | [], total => .ok ([], total)
  | f :: fs, total => (imposed dim f).bind fun k => (mechTable dim fs (total + (dim * f.m - k))).bind fun r =>
      .ok (total :: r.1, r.2)

/-- Loop of the constructors of the other two, `assembler_hho.hpp:2824-2844`, `:2871-2893`, `:4313-4333`, `:4360-4382`. -/
def table (dim : Nat) : List FaceBc → Nat → Outcome (List Nat × Nat)
  | [], total => .ok ([], total)
  | f :: fs, total =>
    (if f.m = 0 then .ok 0
     else if !f.contact then (imposed dim f).bind fun k => .ok (dim * f.m - k)
     else if f.ctype = SIGNORINI_FACE then .ok (dim * f.m)
     else .ok 0).bind fun k => (table dim fs (total + k)).bind fun r => .ok (total :: r.1, r.2)

/-- One pass of the loop filling the local numbering for a condition on some components, e.g. `assembler_hho.hpp:2993-3012`
for `DX`: the entries pushed and the new value of `ind_sol`. -/
def mapGroup (dim t off i ind : Nat) : List AsmIdx × Nat :=
  if t = DX then
    (⟨off + i, false⟩ :: ⟨off + ind, true⟩ :: (if dim = 3 then [⟨off + (ind + 1), true⟩] else []),
      if dim = 3 then ind + 2 else ind + 1)
  else if t = DY then
    (⟨off + ind, true⟩ :: ⟨off + i + 1, false⟩ :: (if dim = 3 then [⟨off + (ind + 1), true⟩] else []),
      if dim = 3 then ind + 2 else ind + 1)
  else if t = DZ then ([⟨off + ind, true⟩, ⟨off + (ind + 1), true⟩, ⟨off + i + 2, false⟩], ind + 2)
  else if t = DXDY then
    (⟨off + i, false⟩ :: ⟨off + i + 1, false⟩ :: (if dim = 3 then [⟨off + ind, true⟩] else []),
      if dim = 3 then ind + 1 else ind)
  else if t = DXDZ then ([⟨off + i, false⟩, ⟨off + ind, true⟩, ⟨off + i + 2, false⟩], ind + 1)
  else ([⟨off + ind, true⟩, ⟨off + i + 1, false⟩, ⟨off + i + 2, false⟩], ind + 1)

/-- The loop over `i = dim * k`. -/
def mapLoop (dim t off : Nat) : List Nat → Nat → List AsmIdx
  | [], _ => []
  | k :: ks, ind => (mapGroup dim t off (dim * k) ind).1 ++ mapLoop dim t off ks (mapGroup dim t off (dim * k) ind).2

/-- Types that are rejected in 2D. -/
def needs3 (t : Nat) : Bool := t = DZ ∨ t = DXDZ ∨ t = DYDZ

/-- Types handled by the switches: the others end in `default: throw`. -/
def known (t : Nat) : Bool := t ≤ DYDZ

/-- The switch as far as the local numbering is concerned, `assembler_hho.hpp:1348-1508`, `:2974-3133`, `:3412-3577`,
`:4119-4268`. -/
def switchMap (dim t off m : Nat) : Outcome (List AsmIdx) :=
  if !known t then .throws "Unknown Dirichlet Conditions"
  else if t = DIRICHLET ∨ t = CLAMPED then .ok ((List.range (dim * m)).map fun i => ⟨off + i, false⟩)
  else if needs3 t ∧ dim ≠ 3 then .throws "You are not in 3D"
  else .ok (mapLoop dim t off (List.range m) 0)

/-- Local numbering of one face, `assembler_hho.hpp:1320-1330`, `:2957-2963`. -/
def faceMap (dim : Nat) (f : FaceBc) (off : Nat) : Outcome (List AsmIdx) :=
  if !f.dir then .ok ((List.range (dim * f.m)).map fun i => ⟨off + i, true⟩) else switchMap dim f.dtype off f.m

/-- Local numbering of a cell; `offs` is the table of the constructor. -/
def cellMap (dim : Nat) (fs : List FaceBc) (offs : List Nat) : List Nat → Outcome (List AsmIdx)
  | [] => .ok []
  | i :: is => (vat fs i).bind fun f => (vat offs i).bind fun o => (faceMap dim f o).bind fun a =>
      (cellMap dim fs offs is).bind fun r => .ok (a ++ r)

/-! ### Boundary values -/

variable {K : Type} [CommRing K]

/-- Boundary values entering the switches: of the function, and for `CLAMPED`. -/
structure BcData (K : Type) where
  val : Nat → Nat → K
  clamp : Nat → Nat → K

/-- Linear problems: `proj_bcf`, set to zero for `CLAMPED`. -/
def linData (proj : Nat → Nat → K) : BcData K := ⟨proj, fun _ _ => 0⟩

/-- Nonlinear problems: `incr = proj_bcf - sol_F[face_id]`, and `-sol_F[face_id]` for `CLAMPED`. -/
def nlData (proj solF : Nat → Nat → K) : BcData K := ⟨fun f c => proj f c - solF f c, fun f c => -solF f c⟩

/-- Columns of `mat_Fj` and entries of `proj_bcf` (or `incr`) set to zero, by component. -/
def zeroed (dim t c : Nat) : Bool :=
  if t = DX then c = 1 ∨ (dim = 3 ∧ c = 2)
  else if t = DY then c = 0 ∨ (dim = 3 ∧ c = 2)
  else if t = DZ then c = 0 ∨ c = 1
  else if t = DXDY then dim = 3 ∧ c = 2
  else if t = DXDZ then c = 1
  else if t = DYDZ then c = 0
  else false

/-- `proj_bcf` or `incr` after the switch. -/
def bcVec (dim : Nat) (D : BcData K) (i : Nat) (f : FaceBc) (c : Nat) : K :=
  if f.dtype = CLAMPED then D.clamp i c else if zeroed dim f.dtype (c % dim) then 0 else D.val i c

/-- `mat_Fj` after the switch; `pj`, `pi` are the local positions of the two faces. -/
def bcMat (dim : Nat) (f : FaceBc) (lhs : Nat → Nat → K) (pj pi r c : Nat) : K :=
  if zeroed dim f.dtype (c % dim) then 0 else lhs (pj + r) (pi + c)

/-- `v.segment(o, n) += x`. -/
def addSeg (v : Nat → K) (o n : Nat) (x : Nat → K) (i : Nat) : K := if o ≤ i ∧ i < o + n then v i + x (i - o) else v i

/-- Loop over `face_j`; `js` are the remaining faces with their positions. -/
def bcInner (dim : Nat) (D : BcData K) (lhs : Nat → Nat → K) (i pi : Nat) (f : FaceBc) :
    List FaceBc → Nat → (Nat → K) → Nat → K
  | [], _, v => v
  | g :: gs, pj, v =>
    bcInner dim D lhs i pi f gs (pj + dim * g.m)
      (addSeg v pj (dim * g.m) fun r => ∑ c ∈ range (dim * f.m), bcMat dim f lhs pj pi r c * bcVec dim D i f c)

/-- Loop over `face_i`: `rhs_bc`. `all` are the faces of the cell, the argument lists the remaining ones with their numbers. -/
def bcOuter (dim : Nat) (D : BcData K) (lhs : Nat → Nat → K) (all : List FaceBc) :
    List (Nat × FaceBc) → Nat → (Nat → K) → Nat → K
  | [], _, v => v
  | (i, f) :: fs, pi, v =>
    bcOuter dim D lhs all fs (pi + dim * f.m) (if f.dir then bcInner dim D lhs i pi f all 0 v else v)

/-! ### Assembly -/

/-- A cell with its local contributions. -/
structure LocalSys (K : Type) where
  fcs : List Nat
  size : Nat
  lhs : Nat → Nat → K
  rhs : Nat → K

/-- `faces_id(msh, cl)` with the answers about the faces. -/
def cellFaces (fs : List FaceBc) : List Nat → Outcome (List (Nat × FaceBc))
  | [] => .ok []
  | i :: is => (vat fs i).bind fun f => (cellFaces fs is).bind fun r => .ok ((i, f) :: r)

/-- Triplets pushed by the last loop, `assembler_hho.hpp:1545-1558`, `:3155-3169`. -/
def localTriplets (asm : List AsmIdx) (lhs : Nat → Nat → K) (n : Nat) : List (Nat × Nat × K) :=
  (List.range n).flatMap fun i =>
    if (asm.getD i ⟨0, false⟩).assem then
      (List.range n).flatMap fun j =>
        if (asm.getD j ⟨0, false⟩).assem then [((asm.getD i ⟨0, false⟩).idx, (asm.getD j ⟨0, false⟩).idx, lhs i j)] else []
    else []

/-- Additions to the right-hand side made by the last loop. -/
def localDuos (asm : List AsmIdx) (rhs bc : Nat → K) (n : Nat) : List (Nat × K) :=
  (List.range n).flatMap fun i =>
    if (asm.getD i ⟨0, false⟩).assem then [((asm.getD i ⟨0, false⟩).idx, rhs i - bc i)] else []

/-- Number of unknowns of a list of faces. -/
def totalDofs (dim : Nat) (fs : List FaceBc) : Nat := (fs.map fun f => dim * f.m).sum

/-- `assemble` / `assemble_nl` / `assemble_nonlinear` for one cell: what is pushed. -/
def localSystem (dim : Nat) (fs : List FaceBc) (offs : List Nat) (D : BcData K) (c : LocalSys K) :
    Outcome (List (Nat × Nat × K) × List (Nat × K)) :=
  (cellFaces fs c.fcs).bind fun l => (cellMap dim fs offs c.fcs).bind fun asm =>
    if c.size = totalDofs dim (l.map (·.2)) then
      .ok (localTriplets asm c.lhs c.size,
        localDuos asm c.rhs (bcOuter dim D c.lhs (l.map (·.2)) l 0 fun _ => 0) c.size)
    else .ub "assert on the local sizes"

/-- `RHS(id) += val` for a list of pairs; `N` is the size of the system. -/
def applyDuos (N : Nat) : List (Nat × K) → (Nat → K) → Outcome (Nat → K)
  | [], v => .ok v
  | (i, x) :: ds, v =>
    if i < N then applyDuos N ds fun j => if j = i then v j + x else v j else .ub "vector index out of range"

/-- All cells. -/
def assembleCells (dim : Nat) (fs : List FaceBc) (offs : List Nat) (D : BcData K) :
    List (LocalSys K) → Outcome (List (Nat × Nat × K) × List (Nat × K))
  | [] => .ok ([], [])
  | c :: cs => (localSystem dim fs offs D c).bind fun a => (assembleCells dim fs offs D cs).bind fun r =>
      .ok (a.1 ++ r.1, a.2 ++ r.2)

/-- `finalize`, `assembler_hho.hpp:2349-2354`, `:3931-3941`: the matrix and the right-hand side, starting from `v`. -/
def finish (N : Nat) (t : List (Nat × Nat × K)) (d : List (Nat × K)) (v : Nat → K) :
    Outcome ((Nat → Nat → K) × (Nat → K)) :=
  if ∀ x ∈ t, x.1 < N ∧ x.2.1 < N then (applyDuos N d v).bind fun b => .ok (toMat t, b)
  else .ub "triplet out of range"

/-- Constructor, assembly of every cell and `finalize` for `vector_primal_hho_assembler` and
`vector_mechanics_hho_assembler`. -/
def assemblePrimal (dim : Nat) (fs : List FaceBc) (D : BcData K) (cells : List (LocalSys K)) :
    Outcome (Nat × (Nat → Nat → K) × (Nat → K)) :=
  (table dim fs 0).bind fun s => (assembleCells dim fs s.1 D cells).bind fun a =>
    (finish s.2 a.1 a.2 fun _ => 0).bind fun r => .ok (s.2, r)

/-- The same for `assembler_mechanics`; its right-hand side is updated at once, in the same order. -/
def assembleMech (dim : Nat) (fs : List FaceBc) (D : BcData K) (cells : List (LocalSys K)) :
    Outcome (Nat × (Nat → Nat → K) × (Nat → K)) :=
  (mechTable dim fs 0).bind fun s => (assembleCells dim fs s.1 D cells).bind fun a =>
    (finish s.2 a.1 a.2 fun _ => 0).bind fun r => .ok (s.2, r)

/-! ### Local values of a solution -/

/-- Source of an entry: coefficient of the boundary values or unknown. -/
inductive Src
  | imp (c : Nat)
  | unk (j : Nat)
  deriving DecidableEq, Repr

/-- One pass of the loops of `take_local_data`, `expand_solution`, `take_local_solution_nonlinear`, e.g.
`assembler_hho.hpp:1618-1629`. -/
def takeGroup (dim t off i ind : Nat) : List Src × Nat :=
  if t = DX then
    (.imp i :: .unk (off + ind) :: (if dim = 3 then [.unk (off + (ind + 1))] else []), if dim = 3 then ind + 2 else ind + 1)
  else if t = DY then
    (.unk (off + ind) :: .imp (i + 1) :: (if dim = 3 then [.unk (off + (ind + 1))] else []),
      if dim = 3 then ind + 2 else ind + 1)
  else if t = DZ then ([.unk (off + ind), .unk (off + (ind + 1)), .imp (i + 2)], ind + 2)
  else if t = DXDY then
    (.imp i :: .imp (i + 1) :: (if dim = 3 then [.unk (off + ind)] else []), if dim = 3 then ind + 1 else ind)
  else if t = DXDZ then ([.imp i, .unk (off + ind), .imp (i + 2)], ind + 1)
  else ([.unk (off + ind), .imp (i + 1), .imp (i + 2)], ind + 1)

/-- The loop over `i = dim * k`. -/
def takeLoop (dim t off : Nat) : List Nat → Nat → List Src
  | [], _ => []
  | k :: ks, ind => (takeGroup dim t off (dim * k) ind).1 ++ takeLoop dim t off ks (takeGroup dim t off (dim * k) ind).2

/-- Reading the entries; an unknown outside the solution is `ub`. -/
def readSrc (val : Nat → K) (sol : List K) : List Src → Outcome (List K)
  | [] => .ok []
  | .imp c :: s => (readSrc val sol s).bind fun r => .ok (val c :: r)
  | .unk j :: s => (vget sol j).bind fun x => (readSrc val sol s).bind fun r => .ok (x :: r)

/-- Values on one face, `assembler_hho.hpp:1576-1694`, `:1705-1822`, `:2100-2225`, `:3646-3777`. -/
def takeFace (dim : Nat) (D : BcData K) (sol : List K) (i : Nat) (f : FaceBc) (off : Nat) : Outcome (List K) :=
  if !f.dir then vseg sol off (dim * f.m)
  else if !known f.dtype then .throws "Unknown Dirichlet Conditions"
  else if f.dtype = DIRICHLET then .ok ((List.range (dim * f.m)).map (D.val i))
  else if f.dtype = CLAMPED then .ok ((List.range (dim * f.m)).map (D.clamp i))
  else if needs3 f.dtype ∧ dim ≠ 3 then .throws "You are not in 3D"
  else readSrc (D.val i) sol (takeLoop dim f.dtype off (List.range f.m) 0)

/-- Values on a list of faces: of a cell (`take_local_data`, `take_local_solution_nonlinear`), or of the whole mesh
(`expand_solution`, `expand_solution_nl`, `expand_solution_nonlinear`). -/
def takeFaces (dim : Nat) (fs : List FaceBc) (offs : List Nat) (D : BcData K) (sol : List K) :
    List Nat → Outcome (List K)
  | [] => .ok []
  | i :: is => (vat fs i).bind fun f => (vat offs i).bind fun o => (takeFace dim D sol i f o).bind fun a =>
      (takeFaces dim fs offs D sol is).bind fun r => .ok (a ++ r)

/-- `expand_solution` and its nonlinear versions; the assertion on the size of the solution. -/
def expand (dim : Nat) (fs : List FaceBc) (offs : List Nat) (N : Nat) (D : BcData K) (sol : List K) : Outcome (List K) :=
  if sol.length = N then takeFaces dim fs offs D sol (List.range fs.length) else .ub "assert: solution.size()"

/-! ### Neumann conditions -/

/-- `duos` pushed for a Neumann face by the two later classes, `assembler_hho.hpp:3836-3922`, `:4674-4760`. -/
def neuDuos (dim : Nat) (f : FaceBc) (off : Nat) (g : Nat → K) : Outcome (List (Nat × K)) :=
  let loop (h : Nat → List (Nat × K)) := .ok ((List.range f.m).flatMap fun k => h (dim * k))
  if !f.dir then .ok ((List.range (dim * f.m)).map fun i => (off + i, g i))
  else if f.dtype = DIRICHLET ∨ f.dtype = CLAMPED then .throws "both Dirichlet and Neumann conditions"
  else if f.dtype = DX then
    loop fun i => (off + i + 1, g (i + 1)) :: (if dim = 3 then [(off + i + 2, g (i + 2))] else [])
  else if f.dtype = DY then loop fun i => (off + i, g i) :: (if dim = 3 then [(off + i, g (i + 2))] else [])
  else if needs3 f.dtype ∧ dim ≠ 3 then .throws "You are not in 3D"
  else if f.dtype = DZ then loop fun i => [(off + i, g i), (off + i + 1, g (i + 1))]
  else if f.dtype = DXDY then loop fun i => if dim = 3 then [(off + i + 2, g (i + 2))] else []
  else if f.dtype = DXDZ then loop fun i => [(off + i + 1, g (i + 1))]
  else if f.dtype = DYDZ then loop fun i => [(off + i, g i)]
  else .throws "Unknown Neumann Conditions"

/-- `impose_neumann_boundary_conditions` of the two later classes: the pairs pushed, over the boundary faces `bs`. The
guard on the number of Neumann faces changes nothing. -/
def neuAll (dim : Nat) (fs : List FaceBc) (offs : List Nat) (g : Nat → Nat → K) : List Nat → Outcome (List (Nat × K))
  | [] => .ok []
  | i :: is => (vat fs i).bind fun f => (vat offs i).bind fun o =>
      (if f.neu then neuDuos dim f o (g i) else .ok []).bind fun a => (neuAll dim fs offs g is).bind fun r => .ok (a ++ r)

/-- The same for `assembler_mechanics`, `assembler_hho.hpp:2229-2347`: the flag marks `RHS(k) = x` instead of `+=`. -/
def mechNeu (dim : Nat) (f : FaceBc) (off : Nat) (g : Nat → K) : Outcome (List (Bool × Nat × K)) :=
  let loop (h : Nat → List (Bool × Nat × K)) := .ok ((List.range f.m).flatMap fun k => h (dim * k))
  if !f.dir then .ok ((List.range (dim * f.m)).map fun i => (false, off + i, g i))
  else if f.dtype = DIRICHLET ∨ f.dtype = CLAMPED then .throws "both Dirichlet and Neumann conditions"
  else if f.dtype = DX then
    loop fun i => (false, off + i + 1, g (i + 1)) :: (if dim = 3 then [(false, off + i + 2, g (i + 2))] else [])
  else if f.dtype = DY then
    loop fun i => (true, off + i, g i) :: (if dim = 3 then [(false, off + i + 2, g (i + 2))] else [])
  else if needs3 f.dtype ∧ dim ≠ 3 then .throws "You are not in 3D"
  else if f.dtype = DZ then loop fun i => [(false, off + i, g i), (false, off + i + 1, g (i + 1))]
  else if f.dtype = DXDY then loop fun i => if dim = 3 then [(false, off + i + 2, g (i + 2))] else []
  else if f.dtype = DXDZ then loop fun i => [(false, off + i + 1, g (i + 1))]
  else if f.dtype = DYDZ then loop fun i => [(false, off + i, g i)]
  else .throws "Unknown Dirichlet Conditions"

/-- Executing the assignments and additions. -/
def applyOps (N : Nat) : List (Bool × Nat × K) → (Nat → K) → Outcome (Nat → K)
  | [], v => .ok v
  | (a, i, x) :: ds, v =>
    if i < N then applyOps N ds fun j => if j = i then (if a then x else v j + x) else v j
    else .ub "vector index out of range"

/-- `impose_neumann_boundary_conditions` of `assembler_mechanics` over the boundary faces. -/
def mechNeuAll (dim : Nat) (fs : List FaceBc) (offs : List Nat) (N : Nat) (g : Nat → Nat → K) :
    List Nat → (Nat → K) → Outcome (Nat → K)
  | [], v => .ok v
  | i :: is, v => (vat fs i).bind fun f => (vat offs i).bind fun o =>
      (if f.neu then (mechNeu dim f o (g i)).bind fun l => applyOps N l v else .ok v).bind fun v =>
        mechNeuAll dim fs offs N g is v

end Verif.VectorAsm
