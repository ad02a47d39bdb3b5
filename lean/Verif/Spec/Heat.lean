import Verif.Spec.Nitsche
import Verif.Model.Heat
/-!
Specification vocabulary for the heat equation: the unknowns of a cell, the L² product, the discrete operator.
-/
namespace Verif.Spec.Heat
open Finset Verif.Hho Verif.Spec.Hho Verif.Nitsche Verif.Spec.Nitsche Verif.Heat LocalMatrix

variable {K P : Type} [Field K] (S : Solver K) (c : Cfg P K)

/-- The unknowns of a cell: its own, then those of its faces in their order. -/
def onCell (ci : Nat) (v : Nat → K) : Nat → K := fun i =>
  if i < c.cbs then v (c.cbs * ci + i)
  else v (c.cbs * c.nc + c.fbs * (c.cell ci).ids.getD ((i - c.cbs) / c.fbs) 0 + (i - c.cbs) % c.fbs)

/-- The L² product of the cell unknowns. -/
def l2 (v u : Nat → K) : K :=
  ∑ ci ∈ range c.nc, quad ((c.cell ci).elem.integrate (2 * c.k)) fun x =>
    evalFn ((c.cell ci).elem.basis c.k) (seg (c.cbs * ci) v) x * evalFn ((c.cell ci).elem.basis c.k) (seg (c.cbs * ci) u) x

/-- The discrete operator: the sum of the local forms with weak boundary conditions. -/
def stiff (v u : Nat → K) : K :=
  ∑ ci ∈ range c.nc, form (localSize c (c.cell ci)) (weak S c (c.cell ci)).1 (onCell c ci v) (onCell c ci u)

/-- The discrete load. -/
def source (v : Nat → K) : K :=
  ∑ ci ∈ range c.nc, load (localSize c (c.cell ci)) (weak S c (c.cell ci)).2 (onCell c ci v)

/-- The squared norm of the gradient of the difference of the cell unknowns `u` and `w`. -/
def gradDist (u : Nat → K) (w : Nat → Nat → K) : K :=
  ∑ ci ∈ range c.nc, quad ((c.cell ci).elem.integrate (2 * c.k)) fun x =>
    dot c.d (evalGrad ((c.cell ci).elem.basis c.k) (fun i => u (c.cbs * ci + i) - w ci i) x)
      (evalGrad ((c.cell ci).elem.basis c.k) (fun i => u (c.cbs * ci + i) - w ci i) x)

/-- The bases have the sizes `cbs` and `fbs`, every face has a number of the mesh. -/
structure WellFormed : Prop where
  cell : ∀ ci < c.nc, ((c.cell ci).elem.basis c.k).size = c.cbs
  face : ∀ ci < c.nc, ∀ f ∈ (c.cell ci).faces, (f.basis c.k).size = c.fbs
  len : ∀ ci < c.nc, (c.cell ci).ids.length = (c.cell ci).faces.length
  ids : ∀ ci < c.nc, ∀ i ∈ (c.cell ci).ids, i < c.nf

/-- `mu` is the mass matrix applied to the cell unknowns of `w`. -/
def Carries (mu w : Nat → K) : Prop := ∀ v : Nat → K, ∑ r ∈ range (c.cbs * c.nc), mu r * v r = l2 c v w

/-- Sum over the faces of a cell inside the domain; `h` gets the face and its position. -/
def innerSum (h : BFace P K → Nat → K) : List (BFace P K) → Nat → K
  | [], _ => 0
  | f :: fs, j => (if f.boundary = true then 0 else h f j) + innerSum h fs (j + 1)

/-- A cell on which `g` is a polynomial of degree `k + 1` with gradient `gu` and `-div gu = f`, the latter in weak form
against the cell unknowns, `f` being a polynomial of degree `k`; `u` holds its interpolate. The cell is regular and the
quadratures are exact. -/
def SteadyCell (N : Nat) (gu : P → Nat → K) (u : Nat → K) (ci : Nat) : Prop :=
  let T := c.cell ci
  let fs := T.faces.map BFace.toFace
  ∃ C : PolyCell c.d T.elem fs N, 2 * (c.k + 1) ≤ N ∧ Green C none (c.k + 1) c.k ∧
    Nonsing ((T.elem.basis (c.k + 1)).size - 1) (lapLhs c.d none (T.elem.basis (c.k + 1)) (c.k + 1) T.elem) ∧
    Nonsing (T.elem.basis c.k).size (mass T.elem c.k (T.elem.basis c.k)) ∧
    (∀ f ∈ fs, Nonsing (f.basis c.k).size (mass f.toElem c.k (f.basis c.k))) ∧
    (∃ a, (∀ x, c.g x = evalFn (T.elem.basis (c.k + 1)) a x) ∧
      ∀ x, ∀ e < c.d, gu x e = evalGrad (T.elem.basis (c.k + 1)) a x e) ∧
    c.f ∈ C.V c.k ∧
    (∀ w, C.IT (fun x => dot c.d (gu x) (evalGrad (T.elem.basis c.k) w x)) =
      C.IT (fun x => c.f x * evalFn (T.elem.basis c.k) w x) +
      (fs.map fun f => C.IF f fun x => dot c.d (gu x) f.normal * evalFn (T.elem.basis c.k) w x).sum) ∧
    IsInterp C c.k (uniform c.k fs) c.g (onCell c ci u)

/-- Faces with the same number are the same up to their normals, and the normals of a face inside the domain cancel. -/
def Matching : Prop := ∃ (F : Nat → Elem P K) (bd : Nat → Bool),
  (∀ ci < c.nc, ∀ j, ∀ hj : j < (c.cell ci).faces.length,
    (c.cell ci).faces[j].toElem = F ((c.cell ci).ids.getD j 0) ∧ (c.cell ci).faces[j].boundary = bd ((c.cell ci).ids.getD j 0)) ∧
  ∀ i < c.nf, bd i = false → ∀ e < c.d, ∑ ci ∈ range c.nc,
    ∑ j : Fin (c.cell ci).faces.length, (if (c.cell ci).ids.getD j 0 = i then (c.cell ci).faces[j].normal e else 0) = 0

end Verif.Spec.Heat
