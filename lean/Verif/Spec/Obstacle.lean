import Verif.Model.Obstacle
import Mathlib.Algebra.BigOperators.Group.Finset.Basic
/-!
The discrete obstacle problem. Data types (`Mesh`, `Dofs`, `Loc`) are those of the model.
-/
namespace Verif.Spec.Obstacle
open Verif.Obstacle

variable {K : Type} [CommRing K]

/-- Values are prescribed on face `f`. -/
def Fixed (mode : Mode) (m : Mesh) (f : Nat) : Prop := mode = .strong ∧ m.bnd[f]? = some true

/-- Faces of cells are faces of the mesh. -/
def FacesOk (m : Mesh) : Prop := ∀ c ∈ m.cells, ∀ f ∈ c, f < m.bnd.length

/-- The unknowns of cell `T` with faces `fcs`, `fbs` on each face. -/
def locals (fbs : Nat) (u : Dofs K) (T : Nat) (fcs : List Nat) : List K :=
  u.cell T :: fcs.flatMap fun f => (List.range fbs).map (u.face f)

/-- `v · (A u)` -/
def locForm (A : Nat → Nat → K) (u v : List K) : K :=
  (v.zipIdx.map fun y => (u.zipIdx.map fun x => A y.2 x.2 * x.1 * y.1).sum).sum

/-- The bilinear form. -/
def form (m : Mesh) (fbs : Nat) (loc : Nat → Loc K) (u v : Dofs K) : K :=
  (m.cells.zipIdx.map fun c => locForm (loc c.2).lhs (locals fbs u c.2 c.1) (locals fbs v c.2 c.1)).sum

/-- The load of a cell: in strong mode it has no entries on faces. -/
def cellLoad (mode : Mode) (b : Nat → K) (i : Nat) : K := if mode = .strong ∧ i ≠ 0 then 0 else b i

/-- The load. -/
def load (mode : Mode) (m : Mesh) (fbs : Nat) (loc : Nat → Loc K) (v : Dofs K) : K :=
  (m.cells.zipIdx.map fun c => ((locals fbs v c.2 c.1).zipIdx.map fun y => cellLoad mode (loc c.2).rhs y.2 * y.1).sum).sum

/-- Pairing of cell values. -/
def cellPair (m : Mesh) (b : Nat → K) (v : Dofs K) : K := ((List.range m.cells.length).map fun T => b T * v.cell T).sum

/-- `v` vanishes where values are prescribed. -/
def TestFn (mode : Mode) (m : Mesh) (v : Dofs K) : Prop := ∀ f, Fixed mode m f → ∀ i, v.face f i = 0

/-- Equilibrium with the contact force `-b`. -/
def Equilibrium (mode : Mode) (m : Mesh) (fbs : Nat) (loc : Nat → Loc K) (u : Dofs K) (b : Nat → K) : Prop :=
  ∀ v, TestFn mode m v → form m fbs loc u v + cellPair m b v = load mode m fbs loc v

/-- Prescribed values. -/
def Dirichlet (mode : Mode) (m : Mesh) (proj : Nat → Nat → K) (u : Dofs K) : Prop :=
  ∀ f, Fixed mode m f → ∀ i, u.face f i = proj f i

/-- Contact on the cells of `inA`, no force on the others. -/
def OnSet (inA : List Bool) (gamma : Nat → K) (u : Dofs K) (b : Nat → K) : Prop :=
  ∀ T : Nat, (inA[T]? = some true → u.cell T = gamma T) ∧ (inA[T]? = some false → b T = 0)

/-- Equal unknowns on the mesh. -/
def SameDofs (m : Mesh) (fbs : Nat) (u v : Dofs K) : Prop :=
  (∀ T < m.cells.length, u.cell T = v.cell T) ∧ ∀ f < m.bnd.length, ∀ i < fbs, u.face f i = v.face f i

/-- `u` lies above the obstacle, forces push upwards and act only in contact. -/
def Complementary (m : Mesh) (gamma : Nat → ℝ) (u : Dofs ℝ) (b : Nat → ℝ) : Prop :=
  ∀ T < m.cells.length, gamma T ≤ u.cell T ∧ b T ≤ 0 ∧ b T * (u.cell T - gamma T) = 0

/-- `mkl_pardiso` solves the systems it is given. -/
def Solved (P : Problem) : Prop :=
  ∀ inA t S, construct P.mode P.mesh inA = .ok t → system P.mode P.mesh t 1 P.fbs P.gamma P.proj P.loc = .ok S →
    ∀ r < S.size, ∑ b ∈ Finset.range S.size, S.lhs r b * P.solve S b = S.rhs r

/-- Sum of the moduli of the first row of a local matrix. -/
def rowNorm (P : Problem) (T : Nat) : ℝ :=
  ((List.range (1 + (P.mesh.cells.getD T []).length * P.fbs)).map fun j => |(P.loc T).lhs 0 j|).sum

/-- Complementarity up to `d`. -/
def NearlyCompl (P : Problem) (d : ℝ) (s : Dofs ℝ × (Nat → ℝ)) : Prop :=
  ∀ T < P.mesh.cells.length, P.gamma T - d ≤ s.1.cell T ∧ s.2 T ≤ rowNorm P T * d ∧ s.2 T * (s.1.cell T - P.gamma T) = 0

end Verif.Spec.Obstacle
