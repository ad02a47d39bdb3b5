import Verif.Spec.VemDofs
import Verif.Model.VemSystem
import Mathlib.Algebra.BigOperators.Group.Finset.Basic
import Mathlib.Algebra.Order.Ring.Defs
/-!
The discrete problem of the virtual element method before condensation, in terms of the numbers of the unknowns.
-/
namespace Verif.Spec.VemSystem
open Finset Verif.Condensation Verif.VemDofs Verif.Spec.VemDofs Verif.VemSystem
open Verif.MeshTopo (BDesc)

variable {K : Type} [CommRing K]

/-- The face belongs to a cell. -/
def OfCell (m : Mesh) (f : List Nat) : Prop := ∃ c ∈ m.cells, ∃ s ∈ walkSides (walk c), faceOf m.faces s.1 s.2 = f

/-- Face `i` is marked as boundary, is not an interface between subdomains, and belongs to a cell. -/
def Outer (m : Mesh) (i : Nat) : Prop :=
  ∃ f, ∃ d : BDesc, m.faces[i]? = some f ∧ m.binfo[i]? = some d ∧ d.isB = true ∧ d.isInt = false ∧ OfCell m f

/-- Unknown `n` lies on such a face. -/
def OnBoundary (m : Mesh) (k n : Nat) : Prop :=
  ∃ i a b, Outer m i ∧ m.faces[i]? = some [a, b] ∧ ∃ q ≤ k, n = dofAt m.npts k m.faces a b q

/-- All faces marked as boundary are of that kind. -/
def Proper (m : Mesh) : Prop := ∀ i (d : BDesc), m.binfo[i]? = some d → d.isB = true → Outer m i

/-- Point `v` is an end of a face marked as boundary. -/
def BoundaryPoint (m : Mesh) (v : Nat) : Prop :=
  ∃ (i a b : Nat) (d : BDesc), m.faces[i]? = some [a, b] ∧ m.binfo[i]? = some d ∧ d.isB = true ∧ (v = a ∨ v = b)

/-- Number of faces marked as boundary. -/
def boundaryFaces (m : Mesh) : Nat := m.binfo.countP fun d => d.isB

open Classical in
/-- Number of their ends. -/
noncomputable def boundaryPoints (m : Mesh) : Nat := #{v ∈ range m.npts | BoundaryPoint m v}

/-- Number of unknown `i` on the boundary of a cell. -/
def numberAt (m : Mesh) (k : Nat) (c : Cell) (i : Nat) : Nat :=
  dofAt m.npts k m.faces ((walk c).getD (i / k) 0) ((walk c).getD ((i / k + 1) % (walk c).length) 0) (i % k)

/-- Number of unknowns on the boundary of a cell. -/
def cellSize (k : Nat) (c : Cell) : Nat := (walk c).length * k

/-- The unknowns of a cell: those on its boundary from `u`, those inside from `w`. -/
def localVec (m : Mesh) (k : Nat) (c : Cell) (u w : Nat → K) (i : Nat) : K :=
  if i < cellSize k c then u (numberAt m k c i) else w (i - cellSize k c)

/-- Row `i` of the local system of a cell. -/
def resid (m : Mesh) (k : Nat) (c : Cell) (s : Sys K) (u w : Nat → K) (i : Nat) : K :=
  (∑ j ∈ range (cellSize k c + s.nt), s.L i j * localVec m k c u w j) - s.R i

/-- The block of the unknowns inside the cell. -/
def innerBlock (nb : Nat) (s : Sys K) : Matrix (Fin s.nt) (Fin s.nt) K := fun i j => s.L (nb + i) (nb + j)

/-- What is assumed of the local systems: the block of the inner unknowns is symmetric, non-singular and factored. -/
structure Inner (F : LDLT K) (nb : Nat) (s : Sys K) : Prop where
  symm : ∀ i j, innerBlock nb s i j = innerBlock nb s j i
  unit : IsUnit (innerBlock nb s).det
  success : F.success (innerBlock nb s) = true

/-- `u` and `w` (the latter by cells) solve the discrete problem: `u` vanishes on the boundary, the sum of the local
equations of every other unknown holds, and so do the equations of the unknowns inside the cells. -/
structure Solves (m : Mesh) (k : Nat) (sys : Nat → Sys K) (u : Nat → K) (w : Nat → Nat → K) : Prop where
  dirichlet : ∀ n < totdofs m k, OnBoundary m k n → u n = 0
  outer : ∀ n < totdofs m k, ¬ OnBoundary m k n → (m.cells.zipIdx.map fun ce =>
    ∑ i ∈ range (cellSize k ce.1), if numberAt m k ce.1 i = n then resid m k ce.1 (sys ce.2) u (w ce.2) i else 0).sum = 0
  inner : ∀ ce ∈ m.cells.zipIdx, ∀ i < (sys ce.2).nt, resid m k ce.1 (sys ce.2) u (w ce.2) (cellSize k ce.1 + i) = 0

/-- The local matrix is symmetric and positive semidefinite; the vectors without energy are the multiples of one that
is one on the boundary. -/
structure Energy [LinearOrder K] (nb : Nat) (s : Sys K) : Prop where
  symm : ∀ i < nb + s.nt, ∀ j < nb + s.nt, s.L i j = s.L j i
  nonneg : ∀ x : Nat → K, 0 ≤ ∑ i ∈ range (nb + s.nt), x i * ∑ j ∈ range (nb + s.nt), s.L i j * x j
  kernel : ∃ e : Nat → K, (∀ i < nb, e i = 1) ∧ ∀ x : Nat → K,
    ∑ i ∈ range (nb + s.nt), x i * ∑ j ∈ range (nb + s.nt), s.L i j * x j = 0 → ∃ a, ∀ i < nb + s.nt, x i = a * e i

/-- The unknown is connected to the boundary through cells. -/
inductive Reached (m : Mesh) (k : Nat) : Nat → Prop
  | boundary {n : Nat} : OnBoundary m k n → Reached m k n
  | cell {c : Cell} {i j : Nat} : c ∈ m.cells → i < cellSize k c → j < cellSize k c → Reached m k (numberAt m k c i) →
      Reached m k (numberAt m k c j)

end Verif.Spec.VemSystem
