import Verif.Model.Cfem
import Verif.Model.HhoSolver
import Mathlib.Analysis.SpecialFunctions.Trigonometric.Basic
/-!
The program solving a diffusion problem with first-order conforming elements on triangles,
`apps/cfem/src/cfem.cpp:30-176`.

Simplifications. Coordinates are exact reals; the coefficient and the load are functions of the point. A division by
zero in an element matrix (degenerate triangle) is the outcome `.ub`. The sparse matrix is the sum of its triplets.
`PardisoLU` is an assumption (`LU`). Console, text and Silo output are not modelled, except for the values written.
-/
namespace Verif.CfemSolver
open Verif.Spec Verif.Hho

/-- The mesh: points, point ids of the cells and of the boundary faces. -/
structure Mesh where
  points : List (P2 ℝ)
  cells : List (Fin 3 → Nat)
  bfaces : List (Nat × Nat)

/-- `v.at(i) = x` -/
def setAt {α : Type} (l : List α) (i : Nat) (x : α) : Outcome (List α) :=
  if i < l.length then .ok (l.set i x) else .throws "std::out_of_range"

/-- `dirichlet_nodes`, `cfem.cpp:42-49`. -/
def mark : List (Nat × Nat) → List Bool → Outcome (List Bool)
  | [], D => .ok D
  | f :: fs, D => (setAt D f.1 true).bind fun D => (setAt D f.2 true).bind fun D => mark fs D

/-- `expand_map` and `compress_map`, `cfem.cpp:51-64`: `r` points are left, `i` is the next one and `k = nnum`. -/
def fill (D : List Bool) : (r i k : Nat) → (e c : List Nat) → Outcome (List Nat × List Nat)
  | 0, _, _, e, c => .ok (e, c)
  | r + 1, i, k, e, c =>
    if D.getD i false then fill D r (i + 1) k e c
    else (setAt e k i).bind fun e => (setAt c i k).bind fun c => fill D r (i + 1) (k + 1) e c

/-- A triplet. -/
def addAt (r c : Nat) (v : ℝ) (A : Mat ℝ) : Mat ℝ := fun i j => A i j + if i = r ∧ j = c then v else 0

/-- The loops over the local unknowns, `cfem.cpp:92-108`. -/
def cellStep (D : List Bool) (cm : List Nat) (ids : Fin 3 → Nat) (A : Matrix (Fin 3) (Fin 3) ℝ) (b : Fin 3 → ℝ)
    (s : Mat ℝ × (Nat → ℝ)) : Mat ℝ × (Nat → ℝ) :=
  (List.finRange 3).foldl (fun s i =>
    if D.getD (ids i) false then s
    else ((List.finRange 3).foldl (fun M j =>
        if D.getD (ids j) false then M else addAt (cm.getD (ids i) 0) (cm.getD (ids j) 0) (A i j) M) s.1,
      fun r => s.2 r + if r = cm.getD (ids i) 0 then b i else 0)) s

/-- The cell loop, `cfem.cpp:76-109`; the tensor is `eps` times the identity at the barycenter. -/
noncomputable def cellLoop (pts : List (P2 ℝ)) (eps f : P2 ℝ → ℝ) (D : List Bool) (cm : List Nat) :
    List (Fin 3 → Nat) → Mat ℝ × (Nat → ℝ) → Outcome (Mat ℝ × (Nat → ℝ))
  | [], s => .ok s
  | ids :: cs, s =>
    match pts[ids 0]?, pts[ids 1]?, pts[ids 2]? with
    | some p0, some p1, some p2 =>
      let e := eps (Simplex.bary2 p0 p1 p2)
      match Cfem.stiffnessK p0 p1 p2 !![e, 0; 0, e], Cfem.rhs p0 p1 p2 f with
      | some A, some b => cellLoop pts eps f D cm cs (cellStep D cm ids A b s)
      | _, _ => .ub "division by zero"
    | _, _, _ => .ub "point id out of range"

/-- What is assembled: the maps, the matrix and the right-hand side. -/
structure System where
  size : Nat
  expand : List Nat
  compress : List Nat
  gA : Mat ℝ
  gb : Nat → ℝ

/-- `cfem.cpp:42-111`. -/
noncomputable def assemble (eps f : P2 ℝ → ℝ) (m : Mesh) : Outcome System :=
  (mark m.bfaces (List.replicate m.points.length false)).bind fun D =>
    let N := D.count false
    (fill D m.points.length 0 0 (List.replicate N 0) (List.replicate m.points.length 0)).bind fun ec =>
      (cellLoop m.points eps f D ec.2 m.cells (fun _ _ => 0, fun _ => 0)).bind fun s => .ok ⟨N, ec.1, ec.2, s.1, s.2⟩

/-- `e_gx`, `cfem.cpp:131-135`. -/
def expandSol (N : Nat) (e : List Nat) (gx : Nat → ℝ) : Nat → ℝ :=
  (List.range N).foldl (fun v i => fun j => if j = e.getD i 0 then gx i else v j) fun _ => 0

/-- `solution_vals`, `cfem.cpp:144-157`. -/
noncomputable def cellVals (pts : List (P2 ℝ)) (u : Nat → ℝ) : List (Fin 3 → Nat) → Outcome (List ℝ)
  | [] => .ok []
  | ids :: cs =>
    match pts[ids 0]?, pts[ids 1]?, pts[ids 2]? with
    | some p0, some p1, some p2 =>
      match Cfem.basis p0 p1 p2 (Simplex.bary2 p0 p1 p2) with
      | some phi => (cellVals pts u cs).bind fun r =>
          .ok ((List.finRange 3).foldl (fun v i => v + u (ids i) * phi i) 0 :: r)
      | none => .ub "division by zero"
    | _, _, _ => .ub "point id out of range"

/-- The values at the points and the values at the barycenters. -/
structure Result where
  sol : Nat → ℝ
  vals : List ℝ

/-- `cfem_solver`, `cfem.cpp:30-176`. -/
noncomputable def run (lu : HhoSolver.LU ℝ) (eps f : P2 ℝ → ℝ) (m : Mesh) : Outcome Result :=
  (assemble eps f m).bind fun s =>
    let u := expandSol s.size s.expand (lu.solve s.size s.gA s.gb)
    (cellVals m.points u m.cells).bind fun v => .ok ⟨u, v⟩

/-- The load of the program, `cfem.cpp:34-36`. -/
noncomputable def load (p : P2 ℝ) : ℝ := Real.sin p.x * Real.sin p.y

/-- The coefficient of the program, `cfem.cpp:81-83`. -/
noncomputable def coeff (p : P2 ℝ) : ℝ :=
  let c := Real.cos (Real.pi * p.x / 0.02)
  let s := Real.sin (Real.pi * p.y / 0.02)
  1 + 100 * c * c * s * s

end Verif.CfemSolver
