import Verif.Model.Bases
import Verif.Model.HhoLocal
/-!
Local matrices of the two-dimensional virtual element method, `methods/implementation_vem/methods_vem_2d.hpp:248-671`.

Matrices are functions of two natural numbers, as in `Model/HhoLocal`. A cell is given by the data of its basis (centre,
axes and box lengths, `bases/bases_all.hpp:133-149`), its quadrature rules, `measure(msh, cl)` and its sides in the
order of `faces_ccw`; a side by its normal and by the rule `gauss_lobatto(degree, a, b)` from its first to its second
end in the direction of the walk (`flip` has been applied). Scalars are elements of a field. `G.lu().solve` is the
assumption `LU`, `H.ldlt().solve` the assumption `Hho.Solver`. `gauss_lobatto` throws for degrees above 37 (C41), so
that the matrices exist for `degree` up to 19.
-/
namespace Verif.Vem
open Finset Verif.Bases Verif.Util Verif.Hho LocalMatrix

/-- Points of the plane. -/
abbrev Pt (K : Type) := Fin 2 → K

variable {K : Type} [Field K]

/-- The values of an evaluation that has succeeded. -/
def valuesOf {α : Type} : Outcome (List α) → List α
  | .ok l => l
  | _ => []

/-- `make_scalar_monomial_basis(msh, cl, n)`: `size()`, `eval_functions`, `eval_gradients`,
`bases/bases_scalar.hpp:195-300`. -/
def monoBasis (P : Matrix (Fin 2) (Fin 2) K) (bar : Pt K) (n : Nat) : Basis (Pt K) K where
  size := scalarBasisSize n 2
  fn x i := (valuesOf (eval2 n P bar x)).getD i 0
  grad x i c := if h : c < 2 then (valuesOf (grad2 n P bar x)).getD i 0 ⟨c, h⟩ else 0

/-- A side of the cell. -/
structure VSide (K : Type) where
  normal : Nat → K
  lobatto : Nat → List (QP (Pt K) K)

/-- A cell. -/
structure VCell (K : Type) where
  axes : Matrix (Fin 2) (Fin 2) K
  len : Fin 2 → K
  bar : Pt K
  integrate : Nat → List (QP (Pt K) K)
  area : K
  sides : List (VSide K)

/-- The basis of the cell. -/
def VCell.basis (c : VCell K) (n : Nat) : Basis (Pt K) K := monoBasis (passageMatrix c.axes c.len) c.bar n

/-- `scaling_factor()`, `bases/bases_all.hpp:74-81,151-155`. -/
def VCell.factor (c : VCell K) (i : Fin 2) : K := 2 / c.len i

/-- The cell as an argument of `make_mass_matrix` and `make_stiffness_matrix`; the diameter is not used. -/
def VCell.elem (c : VCell K) : Elem (Pt K) K := ⟨c.basis, c.integrate, 0⟩

/-- `cbs` -/
def cbs (k : Nat) : Nat := scalarBasisSize k 2
/-- `lbs` -/
def lbs (k : Nat) : Nat := if k = 1 then 0 else scalarBasisSize (k - 2) 2
/-- `num_faces * degree` -/
def VCell.nb (c : VCell K) (k : Nat) : Nat := c.sides.length * k
/-- `num_dofs` -/
def VCell.ndof (c : VCell K) (k : Nat) : Nat := c.nb k + lbs k

/-- What is assumed of Eigen's `PartialPivLU`. -/
structure LU (K : Type) [Field K] where
  solve : Nat → Mat K → (Nat → K) → Nat → K
  solves : ∀ (n : Nat) (A : Mat K) (b : Nat → K), Nonsing n A → ∀ i < n, ∑ j ∈ range n, A i j * solve n A b j = b i

/-- `matrix_G`, `methods_vem_2d.hpp:276-300`. -/
def matrixG (c : VCell K) (k : Nat) : Mat K :=
  let cb := c.basis k
  let M := (c.integrate (2 * (k - 1))).foldl
    (fun M q => addBlock M 0 0 1 (cbs k) fun _ j => q.w * cb.fn q.pt j) (stiffness 2 c.elem k cb)
  fun i j => if i = 0 then M i j / c.area else M i j

/-- The inner loop of `matrix_BF`, `methods_vem_2d.hpp:334-345`: `qcount` is the counter. -/
def bfSide (n nb : Nat) (g : Pt K → Nat → K) : List (QP (Pt K) K) → Nat → Mat K → Mat K
  | [], _, M => M
  | q :: qs, qcount, M => bfSide n nb g qs (qcount + 1) (addBlock M 0 (qcount % nb) n 1 fun i _ => q.w * g q.pt i)

/-- The loop over the faces, `methods_vem_2d.hpp:322-347`. -/
def bfSides (b : Basis (Pt K) K) (k nb : Nat) : List (VSide K) → Nat → Mat K → Mat K
  | [], _, M => M
  | s :: ss, iface, M =>
    bfSides b k nb ss (iface + 1)
      (bfSide b.size nb (fun x i => dot 2 (b.grad x i) s.normal) (s.lobatto (2 * k - 1)) (iface * k) M)

/-- `matrix_BF`, `methods_vem_2d.hpp:304-350`. -/
def matrixBF (c : VCell K) (k : Nat) : Mat K := bfSides (c.basis k) k (c.nb k) c.sides 0 zero

/-- `M(i, j) = v` -/
def setEntry (M : Mat K) (i j : Nat) (v : K) : Mat K := fun a b => if a = i ∧ b = j then v else M a b

/-- The body of the loops of `matrix_BT`, `methods_vem_2d.hpp:383-407`, with the counter `ipol`. -/
def btStep (fx2 fy2 : K) (st : Mat K × Nat) (e : Nat × Nat) : Mat K × Nat :=
  let ipol := st.2 + 1
  let powx := e.1 - e.2
  let powy := e.2
  let coeffXX := powx * (powx - 1)
  let coeffYY := powy * (powy - 1)
  let row := e.1 - 2
  let M := if coeffXX > 0 then setEntry st.1 ipol ((row + 1) * row / 2 + e.2) (-(coeffXX : K) * fx2) else st.1
  let M := if coeffYY > 0 then setEntry M ipol ((row + 1) * row / 2 + (e.2 - 2)) (-(coeffYY : K) * fy2) else M
  (M, ipol)

/-- The pairs `(k, i)` visited, `methods_vem_2d.hpp:379-381`. -/
def btPairs (degree : Nat) : List (Nat × Nat) :=
  (List.range (degree - 1)).flatMap fun t => (List.range (t + 3)).map fun i => (t + 2, i)

/-- `matrix_BT`, `methods_vem_2d.hpp:353-414`. -/
def matrixBT (c : VCell K) (k : Nat) : Mat K :=
  let M := ((btPairs k).foldl (btStep (c.factor 0 * c.factor 0) (c.factor 1 * c.factor 1)) (zero, 2)).1
  fun i j => M i j * c.area

/-- `matrix_B`, `methods_vem_2d.hpp:417-450`. -/
def matrixB (c : VCell K) (k : Nat) : Mat K :=
  let B := setBlock zero 0 0 (cbs k) (c.nb k) (matrixBF c k)
  if k = 1 then setBlock B 0 0 1 (c.ndof k) fun _ _ => 1 / (c.sides.length : K)
  else setEntry (setBlock B 0 (c.nb k) (cbs k) (lbs k) (matrixBT c k)) 0 (c.nb k) 1

/-- The loop over the nodes of a face, `methods_vem_2d.hpp:485-492`: the matrix and `count`. -/
def dSide (b : Basis (Pt K) K) : List (QP (Pt K) K) → Mat K × Nat → Mat K × Nat
  | [], st => st
  | q :: qs, st => dSide b qs (setBlock st.1 st.2 0 1 b.size (fun _ j => b.fn q.pt j), st.2 + 1)

/-- `matrix_D`, `methods_vem_2d.hpp:453-515`. -/
def matrixD (c : VCell K) (k : Nat) : Mat K :=
  let cb := c.basis k
  let D := (c.sides.foldl (fun st s => dSide cb (s.lobatto (2 * k - 1)).dropLast st) (zero, 0)).1
  if k = 1 then D
  else
    let lb := c.basis (k - 2)
    let D := (c.integrate (2 * k - 2)).foldl
      (fun M q => addBlock M (c.nb k) 0 (lbs k) (cbs k) fun i j => q.w * lb.fn q.pt i * cb.fn q.pt j) D
    setBlock D (c.nb k) 0 (lbs k) (cbs k) fun i j => D (c.nb k + i) j / c.area

/-- `projector_nabla`, `methods_vem_2d.hpp:518-526`. -/
def projectorNabla (F : LU K) (c : VCell K) (k : Nat) (G : Mat K) : Mat K :=
  fun i j => F.solve (cbs k) G (fun r => matrixB c k r j) i

/-- `projector_zero`, `methods_vem_2d.hpp:529-571`, for `proj_degree = degree - 1` as in `compute_local`. -/
def projectorZero (S : Solver K) (c : VCell K) (k : Nat) (PIN : Mat K) : Mat K :=
  let pbs := scalarBasisSize (k - 1) 2
  let H := mass c.elem (k - 1) (c.basis (k - 1))
  let C := if k = 1 then mul pbs H PIN
    else
      let C := setBlock zero 0 (c.nb k) (lbs k) (lbs k) fun i j => ident i j * c.area
      setBlock C (lbs k) 0 (pbs - lbs k) (c.ndof k) (mul pbs (block H (lbs k) 0) PIN)
  S.solveMat pbs H C

/-- `local_stiffness_matrix`, `methods_vem_2d.hpp:574-605`. -/
def localStiffness (c : VCell K) (k : Nat) (G D PI : Mat K) : Mat K :=
  let stab := mul (cbs k) D PI
  let GPI := mul (cbs k) G PI
  let GPI := fun i j => if i = 0 then 0 else GPI i j
  let A := mul (cbs k) (tpose PI) GPI
  let R := fun i j => ident i j - stab i j
  let S := mul (c.ndof k) (tpose R) R
  fun i j => A i j + S i j

/-- `local_rhs`, `methods_vem_2d.hpp:608-641`, for `proj_degree = degree - 1`. -/
def localRhs (c : VCell K) (k : Nat) (PI0 : Mat K) (f : Pt K → K) : Nat → K :=
  let b := c.basis (k - 1)
  (c.integrate (2 * k)).foldl (fun v q => fun r =>
    v r + (∑ i ∈ range (scalarBasisSize (k - 1) 2), PI0 i r * b.fn q.pt i) * (q.w * f q.pt)) fun _ => 0

/-- `compute_local`, `methods_vem_2d.hpp:644-669`. -/
def computeLocal (F : LU K) (S : Solver K) (c : VCell K) (k : Nat) (f : Pt K → K) : Outcome (Mat K × (Nat → K)) :=
  if k = 0 then .ub "assert(degree > 0)"
  else
    let G := matrixG c k
    let D := matrixD c k
    let PIN := projectorNabla F c k G
    let PI0 := projectorZero S c k PIN
    .ok (localStiffness c k G D PIN, localRhs c k PI0 f)

end Verif.Vem
