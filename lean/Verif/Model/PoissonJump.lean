import Verif.Model.PoissonApp
/-!
The program with a jump condition: `apps/poisson_solver/src/poisson_jump.cpp:92-200`, with
`basic_condensed_assembler` (`methods/hho_assemblers.hpp:22-213`) and `schur`/`deschur`
(`methods/hho_assemblers.hpp:215-275`).

Scalars are exact; the local operator `A+S`, the loads and the projections are data; the unknowns of the
system are addressed by their face (the tables of the assembler are the subject of `Model/Assembly`).
-/
namespace Verif.PoissonJump
open Matrix Verif.PoissonApp

/-- The problem as the program sees it. -/
structure JProb (K : Type) (nT nF cb fbs : Nat) where
  /-- the cells; `A` is `A+S` of `local_operator` and `local_stabilization` -/
  elem : Fin nT → Elem K nF cb fbs
  /-- `msh.domain_info(cl).tag()` -/
  dom : Fin nT → Nat
  /-- `msh.boundary_info(fc).tag()` -/
  tag : Fin nF → Nat
  /-- `bi.is_boundary()` -/
  isB : Fin nF → Bool
  /-- `bi.is_internal()` -/
  isInt : Fin nF → Bool
  /-- `L2_project(msh, fc, gD, phiF)` -/
  gD : Fin nF → Fin fbs → K
  /-- `integrate(msh, fc, gN, phiF)` -/
  gN : Fin nF → Fin fbs → K

variable {K : Type} [Field K] {nT nF cb fbs : Nat}

/-- `dc`, `poisson_jump.cpp:130-133`. -/
def coeff (P : JProb K nT nF cb fbs) (T : Fin nT) : K := if P.dom T = 2 then 10 else 1

/-- `lhs`, `poisson_jump.cpp:135`. -/
def jlhs (P : JProb K nT nF cb fbs) (T : Fin nT) : Matrix (Idx (P.elem T)) (Idx (P.elem T)) K :=
  coeff P T • (P.elem T).A

/-- `gD_rhs`, `poisson_jump.cpp:146-157`. -/
def jgD (P : JProb K nT nF cb fbs) (T : Fin nT) : Idx (P.elem T) → K
  | .inl _ => 0
  | .inr (fi, i) =>
    if P.dom T = 2 ∧ P.tag ((P.elem T).face fi) = 8 then P.gD ((P.elem T).face fi) i else 0

/-- `gN_rhs`, `poisson_jump.cpp:147-158`. -/
def jgN (P : JProb K nT nF cb fbs) (T : Fin nT) : Idx (P.elem T) → K
  | .inl _ => 0
  | .inr (fi, i) =>
    if P.dom T = 2 ∧ P.tag ((P.elem T).face fi) = 8 then P.gN ((P.elem T).face fi) i else 0

/-- `rhs`, `poisson_jump.cpp:143-144,161`. -/
def jrhs (P : JProb K nT nF cb fbs) (T : Fin nT) : Idx (P.elem T) → K :=
  loadVec (P.elem T) + (-(jlhs P T *ᵥ jgD P T) + jgN P T)

/-- Entry of `dirichlet_faces`, `hho_assemblers.hpp:69-76`. -/
def outer (P : JProb K nT nF cb fbs) (F : Fin nF) : Bool := P.isB F && !P.isInt F

/-- Matrix of `schur`. -/
noncomputable def jlhsC (P : JProb K nT nF cb fbs) (T : Fin nT) :
    Matrix (Fin (P.elem T).nfc × Fin fbs) (Fin (P.elem T).nfc × Fin fbs) K :=
  (jlhs P T).toBlocks₂₂ - (jlhs P T).toBlocks₂₁ * ((jlhs P T).toBlocks₁₁⁻¹ * (jlhs P T).toBlocks₁₂)

/-- Right-hand side of `schur`. -/
noncomputable def jrhsC (P : JProb K nT nF cb fbs) (T : Fin nT) : Fin (P.elem T).nfc × Fin fbs → K :=
  jrhs P T ∘ Sum.inr - (jlhs P T).toBlocks₂₁ *ᵥ ((jlhs P T).toBlocks₁₁⁻¹ *ᵥ (jrhs P T ∘ Sum.inl))

/-- What the cell adds to `LHS*x - RHS` in the row of its face unknown `p`:
`assemble`, `hho_assemblers.hpp:126-177`; the columns of the Dirichlet faces are skipped. -/
noncomputable def jrow (P : JProb K nT nF cb fbs) (T : Fin nT) (x : Fin nF → Fin fbs → K)
    (p : Fin (P.elem T).nfc × Fin fbs) : K :=
  (∑ q : Fin (P.elem T).nfc × Fin fbs,
    if outer P ((P.elem T).face q.1) then 0 else jlhsC P T p q * x ((P.elem T).face q.1) q.2) - jrhsC P T p

/-- `LHS*x = RHS`. -/
def JSolved (P : JProb K nT nF cb fbs) (x : Fin nF → Fin fbs → K) : Prop :=
  ∀ F : Fin nF, outer P F = false → ∀ i : Fin fbs,
    ∑ T : Fin nT, ∑ fi : Fin (P.elem T).nfc,
      (if (P.elem T).face fi = F then jrow P T x (fi, i) else 0) = 0

/-- `take_local_solution`, `hho_assemblers.hpp:179-203`. -/
def jtake (P : JProb K nT nF cb fbs) (T : Fin nT) (x : Fin nF → Fin fbs → K) :
    Fin (P.elem T).nfc × Fin fbs → K :=
  fun q => if outer P ((P.elem T).face q.1) then 0 else x ((P.elem T).face q.1) q.2

/-- Cell part of `deschur`. -/
noncomputable def jcell (P : JProb K nT nF cb fbs) (T : Fin nT) (x : Fin nF → Fin fbs → K) :
    Fin cb → K :=
  (jlhs P T).toBlocks₁₁⁻¹ *ᵥ (jrhs P T ∘ Sum.inl - (jlhs P T).toBlocks₁₂ *ᵥ jtake P T x)

end Verif.PoissonJump
