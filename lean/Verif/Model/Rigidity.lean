import Verif.Model.Tensor
import Verif.Model.Mech
/-!
Local contributions of the nonlinear solver of mechanics: `mechanics/NewtonSolver/NewtonSolverComput.hpp`,
`NewtonIteration.hpp:237-336`, and the matrix valued bases of `bases/bases_matrix.hpp`.

Scalars are exact reals. Vectors and matrices of unknowns are functions of natural numbers with the sizes of the code
as bounds of the loops. The scalar basis is given by its values at each quadrature point. A behavior is a function of
the strain (or deformation gradient) at each quadrature point; laws that throw are not considered here. Contact is
left out.
-/
noncomputable section
namespace Verif.Rigidity
open Tensor Finset

variable {D : Nat}

/-- `Zero()`. -/
def zeroM : Mat ℝ D := fun _ _ => 0

/-- `eval_functions` of the matrix basis, `bases_matrix.hpp:110-136` and `187-213`. -/
def fullBasis (D : Nat) (phi : List ℝ) : List (Mat ℝ D) :=
  phi.flatMap fun p => (List.finRange D).flatMap fun j => (List.finRange D).map fun i => setM zeroM i j p

/-- `eval_functions` of the symmetric matrix basis, `bases_matrix.hpp:309-339` and `391-421`. -/
def symBasis (D : Nat) (phi : List ℝ) : List (Mat ℝ D) :=
  phi.flatMap fun p => (List.finRange D).flatMap fun j =>
    (((List.finRange D).filter (· < j)).map fun i =>
      setM (setM zeroM i j (p * (1 / Real.sqrt 2))) j i (p * (1 / Real.sqrt 2))) ++ [setM zeroM j j p]

/-- `gphi[n]`. -/
def fn (g : List (Mat ℝ D)) (n : Nat) : Mat ℝ D := g.getD n zeroM

/-- `eval(tab_coeff, basis)`, `bases_utils.hpp:450-465`. -/
def evalG (a : Nat → ℝ) (g : List (Mat ℝ D)) : Mat ℝ D := fun i j => ∑ n ∈ range g.length, a n * fn g n i j

/-- A sequence of statements `A(r, c) += v`. -/
def addWrites (W : List (Nat × Nat × ℝ)) (A : Nat → Nat → ℝ) : Nat → Nat → ℝ :=
  W.foldl (fun A w => fun r c => if r = w.1 ∧ c = w.2.1 then A r c + w.2.2 else A r c) A

/-- A sequence of statements `a(r) += v`. -/
def addWrites1 (W : List (Nat × ℝ)) (a : Nat → ℝ) : Nat → ℝ :=
  W.foldl (fun a w => fun r => if r = w.1 then a r + w.2 else a r) a

/-- The lines of the branches on `two_dim`, `NewtonSolverComput.hpp:155-169`, `242-256`: line `o` uses the entry
`(k, l)` of the matrices with a factor. -/
structure Lines (D : Nat) where
  num : Nat
  line : Nat → Fin D × Fin D × ℝ

/-- Lines for `two_dim`. -/
def lines2 : Lines 2 := ⟨3, fun o => if o = 0 then (0, 0, 1) else if o = 1 then (0, 1, 2) else (1, 1, 1)⟩

/-- Lines for three dimensions. -/
def lines3 : Lines 3 := ⟨6, fun o => if o = 0 then (0, 0, 1) else if o = 1 then (0, 1, 2) else if o = 2 then (1, 1, 1)
  else if o = 3 then (0, 2, 2) else if o = 4 then (1, 2, 2) else (2, 2, 1)⟩

/-- `compute_rigidity` in small deformations, `NewtonSolverComput.hpp:140-172`: the upper part. -/
def smallWrites (L : Lines D) (w : ℝ) (C : Tens ℝ D) (g : List (Mat ℝ D)) : List (Nat × Nat × ℝ) :=
  (List.range g.length).flatMap fun j => (List.range (j / L.num + 1)).flatMap fun b =>
    (List.range L.num).map fun o =>
      (b * L.num + o, j, (L.line o).2.2 * (w * tmProd C (fn g j) (L.line o).1 (L.line o).2.1) *
        fn g (b * L.num + o) (L.line o).1 (L.line o).2.1)

/-- `compute_A_gphi`, `NewtonSolverComput.hpp:76-99`. -/
def aGphi (A : Tens ℝ D) (g : List (Mat ℝ D)) : List (Mat ℝ D) :=
  (List.range (g.length / (D * D))).flatMap fun b => (List.finRange D).flatMap fun k : Fin D => (List.finRange D).map fun l : Fin D =>
    tmProdAt A (fn g (b * (D * D) + (k * D + l))) l k

/-- `compute_rigidity` in finite deformations, `NewtonSolverComput.hpp:174-194`: the lower part. -/
def fullWrites (w : ℝ) (C : Tens ℝ D) (g : List (Mat ℝ D)) : List (Nat × Nat × ℝ) :=
  (List.range (g.length / (D * D))).flatMap fun b => (List.finRange D).flatMap fun k : Fin D =>
    (List.finRange D).flatMap fun l : Fin D =>
      let col := b * (D * D) + (k * D + l)
      (List.range (g.length - col)).map fun i =>
        (col + i, col, fn (aGphi (fun r c => w * C r c) g) (col + i) l k * fn g col l k)

/-- `compute_internal_forces` in small deformations, `NewtonSolverComput.hpp:237-258`. -/
def smallForces (L : Lines D) (w : ℝ) (s : Mat ℝ D) (g : List (Mat ℝ D)) : List (Nat × ℝ) :=
  (List.range (g.length / L.num)).flatMap fun b => (List.range L.num).map fun o =>
    (b * L.num + o, (L.line o).2.2 * (w * s (L.line o).1 (L.line o).2.1) *
      fn g (b * L.num + o) (L.line o).1 (L.line o).2.1)

/-- `compute_internal_forces` in finite deformations, `NewtonSolverComput.hpp:259-276`. -/
def fullForces (w : ℝ) (s : Mat ℝ D) (g : List (Mat ℝ D)) : List (Nat × ℝ) :=
  (List.range (g.length / (D * D))).flatMap fun b => (List.finRange D).flatMap fun k : Fin D => (List.finRange D).map fun l : Fin D =>
    (b * (D * D) + (k * D + l), w * s l k * fn g (b * (D * D) + (k * D + l)) l k)

/-- A quadrature point: weight, values of the scalar basis, behavior (stress and tangent). -/
structure Point (D : Nat) where
  w : ℝ
  phi : List ℝ
  law : Mat ℝ D → Mat ℝ D × Tens ℝ D

/-- The basis at a point, `NewtonSolverComput.hpp:416-423`. -/
def Point.gphi (small : Bool) (q : Point D) : List (Mat ℝ D) :=
  if small then symBasis D q.phi else fullBasis D q.phi

/-- `compute_behavior`, `NewtonSolverComput.hpp:115-132`. -/
def Point.behavior (small : Bool) (q : Point D) (G : Mat ℝ D) : Mat ℝ D × Tens ℝ D :=
  if small then q.law G else q.law (Mech.gToF G)

/-- `RkT * uTF` for `n` unknowns. -/
def mulVec (n : Nat) (R : Nat → Nat → ℝ) (u : Nat → ℝ) : Nat → ℝ := fun i => ∑ j ∈ range n, R i j * u j

/-- `AT` after the loop over the points, `NewtonSolverComput.hpp:409-446`. -/
def loopAT (small : Bool) (L : Lines D) (qs : List (Point D)) (a : Nat → ℝ) : Nat → Nat → ℝ :=
  qs.foldl (fun A q =>
    let g := q.gphi small
    let C := (q.behavior small (evalG a g)).2
    addWrites (if small then smallWrites L q.w C g else fullWrites q.w C g) A) fun _ _ => 0

/-- `aT` after the loop. -/
def loopaT (small : Bool) (L : Lines D) (qs : List (Point D)) (a : Nat → ℝ) : Nat → ℝ :=
  qs.foldl (fun A q =>
    let g := q.gphi small
    let s := (q.behavior small (evalG a g)).1
    addWrites1 (if small then smallForces L q.w s g else fullForces q.w s g) A) fun _ => 0

/-- `symmetrized_rigidity_matrix`, `NewtonSolverComput.hpp:197-215`; the loops read entries they do not change. -/
def symmetrized (small : Bool) (N : Nat) (A : Nat → Nat → ℝ) : Nat → Nat → ℝ := fun i j =>
  if i < N ∧ j < N ∧ (if small then j ≤ i else i ≤ j) then A j i else A i j

/-- `RkT^T * AT * RkT` with `N` rows of `RkT`. -/
def sandwich (N : Nat) (R A : Nat → Nat → ℝ) : Nat → Nat → ℝ := fun i j =>
  ∑ r ∈ range N, ∑ c ∈ range N, R r i * A r c * R c j

/-- What is fixed while the displacement varies: gradient reconstruction with `N` rows and `n` columns, load,
stabilization with its coefficient, and for unsteady problems the mass matrix of the `m` cell unknowns, `beta dt^2` and
the predictor. -/
structure Data (D : Nat) where
  small : Bool
  lines : Lines D
  pts : List (Point D)
  R : Nat → Nat → ℝ
  N : Nat
  n : Nat
  load : Nat → ℝ
  stab : Option (ℝ × (Nat → Nat → ℝ))
  dyna : Option (ℝ × (Nat → Nat → ℝ) × (Nat → ℝ))
  m : Nat

variable (d : Data D)

/-- `K_int`, `NewtonSolverComput.hpp:496-507`, before the inertia. -/
def Data.kInt (u : Nat → ℝ) : Nat → Nat → ℝ :=
  sandwich d.N d.R (symmetrized d.small d.N (loopAT d.small d.lines d.pts (mulVec d.n d.R u)))

/-- `F_int`, `NewtonSolverComput.hpp:508`, before the inertia. -/
def Data.fInt (u : Nat → ℝ) : Nat → ℝ := fun i =>
  ∑ r ∈ range d.N, d.R r i * loopaT d.small d.lines d.pts (mulVec d.n d.R u) r

/-- The mass term of the local matrix, `NewtonSolverComput.hpp:540-542`. -/
def Data.inertia (i j : Nat) : ℝ :=
  match d.dyna with
  | none => 0
  | some (bdt, M, _) => if i < d.m ∧ j < d.m then M i j / bdt else 0

/-- The inertia of the local right-hand side, `NewtonSolverComput.hpp:544-549`. -/
def Data.inertiaRhs (u : Nat → ℝ) (i : Nat) : ℝ :=
  match d.dyna with
  | none => 0
  | some (bdt, M, pred) => if i < d.m then
      -(∑ j ∈ range d.m, M i j / bdt * u j) + ∑ j ∈ range d.m, M i j * pred j else 0

/-- `beta_s * stab`, `NewtonIteration.hpp:326-331`. -/
def Data.stabil (i j : Nat) : ℝ :=
  match d.stab with
  | none => 0
  | some (beta, S) => beta * S i j

/-- The local matrix, `NewtonIteration.hpp:259-331`. -/
def Data.lhs (u : Nat → ℝ) : Nat → Nat → ℝ := fun i j => d.kInt u i j + d.inertia i j + d.stabil i j

/-- The local right-hand side, `NewtonSolverComput.hpp:218-225`, `509` and `NewtonIteration.hpp:260-332`. -/
def Data.rhs (u : Nat → ℝ) : Nat → ℝ := fun i =>
  d.load i - d.fInt u i + d.inertiaRhs u i - ∑ j ∈ range d.n, d.stabil i j * u j

/-- `beta_s` of the adaptive stabilization, `NewtonSolverComput.hpp:447-490`, from the weight, the norm of the
deviatoric stress and of the deviatoric strain at each point. `none`: a division by zero. -/
def adaptive (beta : ℝ) (qs : List (ℝ × ℝ × ℝ)) : Option ℝ :=
  let total := (qs.map fun q => q.1).sum
  let comp := (qs.map fun q => if q.2.2 < 1 / 10 ^ 12 then q.1 * beta else q.1 * q.2.1 / q.2.2).sum
  if total = 0 then none else some (min (1000 * beta) (max (beta / 10000) (comp / total)))

/-- `StabCoeffManager`, `StabilizationManager.hpp:83-132`; cells are given by their number. -/
structure Manager where
  cur : Nat → ℝ
  next : Nat → ℝ

/-- The operations of the manager. -/
inductive Op where
  | setValue (c : Nat) (v : ℝ)
  | setNext (c : Nat) (v : ℝ)
  | update

/-- Constructor, lines 91-104. -/
def Manager.init (v : ℝ) : Manager := ⟨fun _ => v, fun _ => v⟩

/-- One operation, lines 113-131. -/
def Manager.step (m : Manager) : Op → Manager
  | .setValue c v => ⟨Function.update m.cur c v, m.next⟩
  | .setNext c v => ⟨m.cur, Function.update m.next c v⟩
  | .update => ⟨m.next, m.next⟩

/-- A sequence of operations. -/
def Manager.run (m : Manager) (ops : List Op) : Manager := ops.foldl Manager.step m

end Verif.Rigidity
