import Verif.Model.Hyper
import Verif.Model.LogStrain
/-!
The stored state of the material laws: `mechanics/behaviors/laws/behaviorlaws.hpp`, `behaviorlaws_names.hpp`,
`law_bones.hpp`, `law_cell_bones.hpp`, `law_qp_bones.hpp`, `logarithmic_strain/LogarithmicStrain.hpp`,
`LogarithmicStrain_qp.hpp`, and the way `NewtonSolver/NewtonStep.hpp`, `NewtonIteration.hpp` and `NewtonSolver.hpp` drive
it. Built without `HAVE_MGIS`: the law `MFRONT` is refused.

`whole` returns the outcome of `compute_whole` together with the members as they are left, also when it throws.
-/
noncomputable section
namespace Verif.Behavior
open Verif.Tensor Verif.TensorConv Verif.Mech Verif.Plastic Verif.Hyper Verif.LogStrain

/-! ### Laws at a quadrature point -/

/-- The operations of a law at a quadrature point for given material data: `compute_whole` of a strain (and the flag
`tangentmodulus`), `update`, `compute_stress3D`, `is_plastic`, `getEquivalentPlasticStrain`. -/
structure PointLaw (σ E R S : Type) where
  fresh : σ
  whole : σ → E → Outcome R × σ
  update : σ → σ
  stress : σ → Outcome S
  isPlastic : σ → Bool
  eqPlastic : σ → ℝ

/-- The members of `law_qp_bones`, `law_qp_bones.hpp:52-61`. -/
structure Bones where
  prev : Mat ℝ 3
  curr : Mat ℝ 3

/-- `law_qp_bones` of a law without internal variables: `compute_whole3D` stores the strain and evaluates. -/
def bonesLaw {R : Type} (respond : Mat ℝ 3 → Outcome R) (stress : Mat ℝ 3 → Outcome (Mat ℝ 3)) :
    PointLaw Bones (Mat ℝ 3 × Bool) R (Mat ℝ 3) where
  fresh := ⟨0, 0⟩
  whole := fun s e => (respond e.1, { s with curr := e.1 })
  update := fun s => { s with prev := s.curr }
  stress := fun s => stress s.curr
  isPlastic := fun _ => false
  eqPlastic := fun _ => 0

/-- `LinearElasticity_qp`, `LinearElasticityLaw.hpp:59-108`. -/
def elasticLaw (d : Data) : PointLaw Bones (Mat ℝ 3 × Bool) (Mat ℝ 3 × Tens ℝ 3) (Mat ℝ 3) :=
  bonesLaw (fun e => .ok (elasticStress d e, elasticModulus3D d)) (fun e => .ok (elasticStress d e))

/-- `Neohookean_qp`, `Neohookean_qp.hpp:158-225`. -/
def neoLaw (d : Data) : PointLaw Bones (Mat ℝ 3 × Bool) (Mat ℝ 3 × Tens ℝ 3) (Mat ℝ 3) :=
  bonesLaw (fun F => neo3D F d) (neoStress d)

/-- `Cavitation_qp`, `Cavitation_qp.hpp:165-240`. -/
def cavLaw (d : Data) : PointLaw Bones (Mat ℝ 3 × Bool) (Mat ℝ 3 × Tens ℝ 3) (Mat ℝ 3) :=
  bonesLaw (fun F => cav3D F d) (cavStress d)

/-- `HenckyMises_qp` in 3D, `HenckyMises_qp.hpp:99-134`. -/
def henckyLaw3 (d : Data) : PointLaw Bones (Mat ℝ 3 × Bool) (Mat ℝ 3 × Tens ℝ 3) (Mat ℝ 3) :=
  bonesLaw (fun e => .ok (hencky3D e d)) (fun e => .ok (henckyStress d e))

/-- `HenckyMises_qp` in 2D: `compute_whole` evaluates the 2x2 block, `compute_stress3D` the 3x3 matrix. -/
def henckyLaw2 (d : Data) : PointLaw Bones (Mat ℝ 2 × Bool) (Mat ℝ 2 × Tens ℝ 2) (Mat ℝ 3) where
  fresh := ⟨0, 0⟩
  whole := fun s e => (.ok (hencky2D e.1 d), { s with curr := matrix3D e.1 })
  update := fun s => { s with prev := s.curr }
  stress := fun s => .ok (henckyStress d s.curr)
  isPlastic := fun _ => false
  eqPlastic := fun _ => 0

/-- The outcome of a plastic law and the members it leaves; `left` are the members left by a throw. -/
def keepState {R : Type} (o : Outcome (R × Qp)) (left : Qp) : Outcome R × Qp :=
  match o with
  | .ok r => (.ok r.1, r.2)
  | .throws m => (.throws m, left)
  | .ub w => (.ub w, left)

open Classical in
/-- The members left by a throw of `LinearIsotropicAndKinematicHardening_qp::compute_whole3D`: unchanged at `:167-177`,
the new current values at `:225-229`. -/
def linHardLeft (plane : Bool) (q : Qp) (strain : Mat ℝ 3) (d : Data) : Qp :=
  let etrial := trialStrain plane q strain
  let se := trialStress plane q strain d
  let Phi := trialYield plane q strain d
  if traceBad (backStress q d) ∨ traceBad se then q else
  let normal : Mat ℝ 3 := (3 / (2 * sigmaeq se)) • se
  let dp := Phi / (3 * d.mu + d.H + 3 * d.K / 2)
  if Phi < 0 then
    { q with isPlastic := false, estrainCurr := etrial, pstrainCurr := q.pstrainPrev, pCurr := q.pPrev }
  else
    { q with isPlastic := true, pCurr := q.pPrev + dp, estrainCurr := etrial - dp • normal,
             pstrainCurr := q.pstrainPrev + dp • normal }

/-- The accessors of the two plastic laws, `LinearIsotropicAndKinematicHardening_qp.hpp:77-124`. -/
def plasticLaw {E R : Type} (whole : Qp → E → Outcome R × Qp) (d : Data) : PointLaw Qp E R (Mat ℝ 3) where
  fresh := Qp.fresh
  whole := whole
  update := Qp.update
  stress := fun q => .ok (elasticStress d q.estrainCurr)
  isPlastic := fun q => q.isPlastic
  eqPlastic := fun q => q.pCurr

/-- `LinearIsotropicAndKinematicHardening_qp`, `:154-252`. -/
def linHardLaw (plane : Bool) (d : Data) : PointLaw Qp (Mat ℝ 3 × Bool) (Mat ℝ 3 × Tens ℝ 3) (Mat ℝ 3) :=
  plasticLaw (fun q e => keepState (linHard3D plane q e.1 d e.2) (linHardLeft plane q e.1 d)) d

open Classical in
/-- The members left by a throw of `IsotropicHardeningVMis_qp::compute_whole3D`: unchanged at `:205-211`, the new current
values at `:279-283`. -/
def vmisLeft (plane : Bool) (q : Qp) (strain : Mat ℝ 3) (d : Data) : Qp :=
  let etrial := trialStrain plane q strain
  let elastic : Qp :=
    { q with isPlastic := false, estrainCurr := etrial, pstrainCurr := q.pstrainPrev, pCurr := q.pPrev }
  if d.curve.length = 0 then elastic else
  let i0 := findI0 d.curve q.pPrev
  match readSeg d.curve i0 with
  | .ok s0 =>
    let se : Mat ℝ 3 := (2 * d.mu) • deviator etrial
    let seEq := sigmaeq se
    if traceBad se then q else
    if seEq - s0.R - s0.H * (q.pPrev - s0.p) < 0 then elastic else
    match readSeg d.curve (findI1 d.curve d.mu q.pPrev seEq i0) with
    | .ok s1 =>
      let dp := (seEq - s1.R - s1.H * (q.pPrev - s1.p)) / (3 * d.mu + s1.H)
      let normal : Mat ℝ 3 := (3 / (2 * seEq)) • se
      { q with isPlastic := true, pCurr := q.pPrev + dp, estrainCurr := etrial - dp • normal,
               pstrainCurr := q.pstrainPrev + dp • normal }
    | _ => q
  | _ => q

/-- `IsotropicHardeningVMis_qp`, `:156-298`. -/
def vmisLaw (plane : Bool) (d : Data) : PointLaw Qp (Mat ℝ 3 × Bool) (Mat ℝ 3 × Tens ℝ 3) (Mat ℝ 3) :=
  plasticLaw (fun q e => keepState (vmis3D plane q e.1 d e.2) (vmisLeft plane q e.1 d)) d

/-- The eigenvalue solver and the tolerances of the logarithmic strain framework. -/
structure Numerics where
  eps : ℝ
  tiny : ℝ
  solver : Mat ℝ 3 → Vec3 × Mat ℝ 3

/-- `LogarithmicStrain_qp`, `LogarithmicStrain_qp.hpp:68-149, 212-258`: the state of the small strain law and the
projector `Pn`, which is stored when the small strain law has returned. -/
def logLaw {σ : Type} (nm : Numerics) (hpp : PointLaw σ (Mat ℝ 3 × Bool) (Mat ℝ 3 × Tens ℝ 3) (Mat ℝ 3)) :
    PointLaw (σ × Tens ℝ 3) (Mat ℝ 3 × Bool) (Mat ℝ 3 × Tens ℝ 3) (Mat ℝ 3) where
  fresh := (hpp.fresh, 0)
  whole := fun s e =>
    (whole3D nm.eps nm.tiny nm.solver (fun E => (hpp.whole s.1 (E, e.2)).1) e.2 e.1,
      if det e.1 ≤ 1 / 100 then s else
      let ev := nm.solver (cauchyGreenRight e.1)
      let r := hpp.whole s.1 (elog ev.1 ev.2, e.2)
      (r.2, match r.1 with
        | .ok _ => projector nm.eps nm.tiny e.1 ev.1 ev.2
        | _ => s.2))
  update := fun s => (hpp.update s.1, s.2)
  stress := fun s => (hpp.stress s.1).bind fun T => .ok (mtProd T s.2)
  isPlastic := fun s => hpp.isPlastic s.1
  eqPlastic := fun s => hpp.eqPlastic s.1

/-- `compute_whole` in 2D on top of `compute_whole3D`; `lift` is `convertMatrix3D` or `convertMatrix3DwithOne`. -/
def planeLaw {σ : Type} (lift : Mat ℝ 2 → Mat ℝ 3)
    (L : PointLaw σ (Mat ℝ 3 × Bool) (Mat ℝ 3 × Tens ℝ 3) (Mat ℝ 3)) :
    PointLaw σ (Mat ℝ 2 × Bool) (Mat ℝ 2 × Tens ℝ 2) (Mat ℝ 3) where
  fresh := L.fresh
  whole := fun s e =>
    let r := L.whole s (lift e.1, e.2)
    (r.1.bind fun x => .ok (matrix2 x.1, tensor2 x.2), r.2)
  update := L.update
  stress := L.stress
  isPlastic := L.isPlastic
  eqPlastic := L.eqPlastic

/-! ### Choice of the law -/

/-- The values of `m_id`: 100, 101, 102, 103, 200, 201, 300, 301, 302. -/
inductive LawId
  | elastic | linHard | vmis | hencky | neo | cav | logElastic | logLinHard | logVmis
  deriving DecidableEq, Repr

/-- The members of a quadrature point of each law. -/
def St : LawId → Type
  | .elastic | .hencky | .neo | .cav => Bones
  | .linHard | .vmis => Qp
  | .logElastic => Bones × Tens ℝ 3
  | .logLinHard | .logVmis => Qp × Tens ℝ 3

/-- The laws in 3D. -/
def law3 (nm : Numerics) (d : Data) :
    (i : LawId) → PointLaw (St i) (Mat ℝ 3 × Bool) (Mat ℝ 3 × Tens ℝ 3) (Mat ℝ 3)
  | .elastic => elasticLaw d
  | .linHard => linHardLaw false d
  | .vmis => vmisLaw false d
  | .hencky => henckyLaw3 d
  | .neo => neoLaw d
  | .cav => cavLaw d
  | .logElastic => logLaw nm (elasticLaw d)
  | .logLinHard => logLaw nm (linHardLaw false d)
  | .logVmis => logLaw nm (vmisLaw false d)

/-- The laws in 2D. -/
def law2 (nm : Numerics) (d : Data) :
    (i : LawId) → PointLaw (St i) (Mat ℝ 2 × Bool) (Mat ℝ 2 × Tens ℝ 2) (Mat ℝ 3)
  | .elastic => planeLaw matrix3D (elasticLaw d)
  | .linHard => planeLaw matrix3D (linHardLaw true d)
  | .vmis => planeLaw matrix3D (vmisLaw true d)
  | .hencky => henckyLaw2 d
  | .neo => planeLaw matrix3DOne (neoLaw d)
  | .cav => planeLaw matrix3DOne (cavLaw d)
  | .logElastic => planeLaw matrix3DOne (logLaw nm (elasticLaw d))
  | .logLinHard => planeLaw matrix3DOne (logLaw nm (linHardLaw true d))
  | .logVmis => planeLaw matrix3DOne (logLaw nm (vmisLaw true d))

/-- `select_law`, `behaviorlaws.hpp:121-166`, with the values of the enumerations, `behaviorlaws_names.hpp:35-51`. -/
def selectLaw (deformation law : Nat) : Outcome LawId :=
  match deformation with
  | 0 =>
    match law with
    | 0 => .ok .elastic
    | 1 => .ok .linHard
    | 2 => .ok .vmis
    | 3 => .ok .hencky
    | _ => .throws "Incompatible law with SMALL_DEF"
  | 2 =>
    match law with
    | 4 => .ok .neo
    | 5 => .ok .cav
    | _ => .throws "Incompatible law with F_DEF"
  | 1 =>
    match law with
    | 0 => .ok .logElastic
    | 1 => .ok .logLinHard
    | 2 => .ok .logVmis
    | _ => .throws "Incompatible law with LOGARITHMIC_DEF"
  | _ => .throws "Unknown deformation"

/-- `DeformationMeasureName`, `behaviorlaws_names.hpp:62-74`. -/
def deformationName : Nat → Outcome String
  | 0 => .ok "SMALL_DEF"
  | 1 => .ok "LOGARITHMIC_DEF"
  | 2 => .ok "F_DEF"
  | _ => .throws "Unknown deformation"

/-- `LawTypeName`, `behaviorlaws_names.hpp:76-91`. -/
def lawName : Nat → Outcome String
  | 0 => .ok "ELASTIC"
  | 1 => .ok "LINEAR_HARDENING"
  | 2 => .ok "NONLINEAR_HARDENING"
  | 3 => .ok "HENCKY_MISES"
  | 4 => .ok "NEOHOKEAN"
  | 5 => .ok "CAVITATION"
  | 6 => .ok "MFRONT"
  | _ => .throws "Not known law"

/-! ### The store of quadrature points -/

/-- The quadrature points of the cells with their states, `m_list_cell_qp`; `Q` is a point with its weight. -/
abbrev Store (Q σ : Type) := List (List (Q × σ))

/-- A `size_t` passed as an `int` and used as a `size_t` again. -/
def narrow (n : Nat) : Nat := if n % 2 ^ 32 < 2 ^ 31 then n % 2 ^ 32 else n % 2 ^ 32 + (2 ^ 64 - 2 ^ 32)

variable {Q σ E R S : Type}

/-- The constructor with a mesh, `law_bones.hpp:61-74` and `law_cell_bones.hpp:64-75`, of the quadrature rules of the
cells. -/
def build (L : PointLaw σ E R S) (rules : List (List Q)) : Store Q σ :=
  rules.map fun r => r.map fun q => (q, L.fresh)

/-- `getNumberOfQP`, `law_bones.hpp:88-92`, of `m_nb_qp` as accumulated by the constructor. -/
def totalQP (s : Store Q σ) : Nat := narrow (s.foldl (fun n c => (n + narrow c.length) % 2 ^ 64) 0)

/-- `getCellQPs`, `law_bones.hpp:103-113`: the index passes through an `int`. -/
def cellAt (s : Store Q σ) (cell : Nat) : Outcome (List (Q × σ)) :=
  match s[narrow cell]? with
  | some c => .ok c
  | none => .throws "vector::at"

/-- `numberOfQP(cell_id)`, `behaviorlaws.hpp:331-351`. -/
def cellQP (s : Store Q σ) (cell : Nat) : Outcome Nat := (cellAt s cell).bind fun c => .ok (narrow c.length)

/-- `getCellQPs(cell_id).getQP(qp_id)`, `law_cell_bones.hpp:104-114`. -/
def pointAt (s : Store Q σ) (cell qp : Nat) : Outcome (Q × σ) :=
  (cellAt s cell).bind fun c =>
    match c[qp]? with
    | some p => .ok p
    | none => .ub "m_list_qp[qp_id]"

/-- `compute_whole(cell_id, qp_id, ...)`, `behaviorlaws.hpp:383-419`. -/
def wholeAt (L : PointLaw σ E R S) (s : Store Q σ) (cell qp : Nat) (e : E) : Outcome R × Store Q σ :=
  match pointAt s cell qp with
  | .ok p =>
    let r := L.whole p.2 e
    (r.1, s.modify (narrow cell) fun c => c.modify qp fun p => (p.1, r.2))
  | .throws m => (.throws m, s)
  | .ub w => (.ub w, s)

/-- `update`, `law_bones.hpp:94-101` and `law_cell_bones.hpp:83-90`. -/
def updateAll (L : PointLaw σ E R S) (s : Store Q σ) : Store Q σ :=
  s.map fun c => c.map fun p => (p.1, L.update p.2)

/-- A call on a stored law: `compute_whole` or `update`. -/
inductive Call (E : Type)
  | whole (cell qp : Nat) (e : E)
  | update

/-- The store after a call. -/
def exec (L : PointLaw σ E R S) (s : Store Q σ) : Call E → Store Q σ
  | .whole cell qp e => (wholeAt L s cell qp e).2
  | .update => updateAll L s

/-- A `Behavior` in 2D: the parameters, the chosen law, the material data and the stores of the laws. -/
structure Obj (Q : Type) where
  deformation : Nat
  law : Nat
  id : LawId
  data : Data
  stores : (i : LawId) → Store Q (St i)

/-- The constructors without a mesh, `behaviorlaws.hpp:169-171`: every store is empty. -/
def make (Q : Type) (d0 : Data) (deformation law : Nat) : Outcome (Obj Q) :=
  (selectLaw deformation law).bind fun i => .ok ⟨deformation, law, i, d0, fun _ => []⟩

/-- The constructor with a mesh, `behaviorlaws.hpp:173-199`: the store of the chosen law is filled. -/
def makeMesh (nm : Numerics) (d0 : Data) (rules : List (List Q)) (deformation law : Nat) : Outcome (Obj Q) :=
  (selectLaw deformation law).bind fun i =>
    .ok ⟨deformation, law, i, d0, fun j => if j = i then build (law2 nm d0 j) rules else []⟩

/-! ### The Newton solver driving the law -/

/-- The quadrature point loop of one cell, `NewtonSolverComput.hpp:411-443`: the results in order, or the first throw
with the points before it already changed. -/
def evalCell (L : PointLaw σ E R S) : List σ → (Nat → E) → Outcome (List R) × List σ
  | [], _ => (.ok [], [])
  | s :: l, e =>
    let r := L.whole s (e 0)
    match r.1 with
    | .ok x =>
      let t := evalCell L l fun q => e (q + 1)
      (t.1.bind fun xs => .ok (x :: xs), r.2 :: t.2)
    | .throws m => (.throws m, r.2 :: l)
    | .ub w => (.ub w, r.2 :: l)

/-- The cell loop of `NewtonIteration::assemble`, `NewtonIteration.hpp:213-261`. -/
def evalCells (L : PointLaw σ E R S) : List (List σ) → (Nat → Nat → E) → Outcome (List (List R)) × List (List σ)
  | [], _ => (.ok [], [])
  | c :: l, e =>
    let r := evalCell L c (e 0)
    match r.1 with
    | .ok x =>
      let t := evalCells L l fun k => e (k + 1)
      (t.1.bind fun xs => .ok (x :: xs), r.2 :: t.2)
    | .throws m => (.throws m, r.2 :: l)
    | .ub w => (.ub w, r.2 :: l)

/-- What the Newton solver does around the law, for displacements `X` and time steps `T`: the strain at a quadrature point
of a displacement, the convergence test and the next iterate (assembly, solution and update). The stabilization manager
and the boundary conditions are inside these functions. -/
structure Problem (X T E R : Type) where
  strain : X → Nat → Nat → E
  converged : T → Nat → X → List (List R) → Outcome Bool
  next : T → X → List (List R) → X

variable {X T : Type}

/-- The loop of `NewtonStep::compute`, `NewtonStep.hpp:167-222`, from iteration `iter` with `n` iterations left: whether it
converged, the displacement `m_displ` (`x0` unless it converged) and the state of the law. An exception of the law or of the
convergence test ends the step without convergence (`:178-200`). -/
def newtonLoop (L : PointLaw σ E R S) (P : Problem X T E R) (t : T) (x0 : X) :
    Nat → Nat → X → List (List σ) → Outcome (Bool × X × List (List σ))
  | _, 0, _, s => .ok (false, x0, s)
  | iter, n + 1, x, s =>
    let r := evalCells L s (P.strain x)
    match r.1 with
    | .throws _ => .ok (false, x0, r.2)
    | .ub w => .ub w
    | .ok rs =>
      match P.converged t iter x rs with
      | .throws _ => .ok (false, x0, r.2)
      | .ub w => .ub w
      | .ok true => .ok (true, x, r.2)
      | .ok false => newtonLoop L P t x0 (iter + 1) n (P.next t x rs) r.2

/-- `NewtonStep::compute`. -/
def newtonStep (L : PointLaw σ E R S) (P : Problem X T E R) (iterMax : Nat) (t : T) (x : X) (s : List (List σ)) :
    Outcome (Bool × X × List (List σ)) := newtonLoop L P t x 0 iterMax x s

/-- The time loop, `NewtonSolver.hpp:549-640`, of the list of time steps with their levels; `split` are the two halves of a
time step, `fuel` bounds the number of Newton steps (`none`: not finished). The result is the flag `m_convergence`, the
displacement and the state of the law. -/
def timeLoop (L : PointLaw σ E R S) (P : Problem X T E R) (iterMax sublevel : Nat) (split : T → T × T) :
    Nat → Bool → List (T × Nat) → X → List (List σ) → Outcome (Option (Bool × X × List (List σ)))
  | _, conv, [], x, s => .ok (some (conv, x, s))
  | 0, _, _ :: _, _, _ => .ok none
  | fuel + 1, _, (t, lev) :: rest, x, s =>
    (newtonStep L P iterMax t x s).bind fun r =>
      if r.1 then timeLoop L P iterMax sublevel split fuel true rest r.2.1 (r.2.2.map fun c => c.map L.update)
      else if lev + 1 > sublevel then .ok (some (false, r.2.1, r.2.2))
      else timeLoop L P iterMax sublevel split fuel false
        (((split t).1, lev + 1) :: ((split t).2, lev + 1) :: rest) r.2.1 r.2.2

end Verif.Behavior
