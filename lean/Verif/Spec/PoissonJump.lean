import Verif.Model.PoissonJump
import Verif.Spec.PoissonApp
/-! The discrete problem with a jump across the faces with tag 8, seen from the domain 2. -/
namespace Verif.Spec
open Verif.PoissonApp Verif.PoissonJump Matrix

variable {K : Type} [Field K] {nT nF cb fbs : Nat}

/-- The jump, on the faces with tag 8. -/
def pjJump (P : JProb K nT nF cb fbs) (F : Fin nF) (i : Fin fbs) : K := if P.tag F = 8 then P.gD F i else 0

/-- The unknowns as the cell sees them: the cells of the domain 2 see the trace plus the jump. -/
def pjSeen (P : JProb K nT nF cb fbs) (T : Fin nT) (uT : Fin cb → K) (uF : Fin nF → Fin fbs → K) :
    Fin cb ⊕ Fin (P.elem T).nfc × Fin fbs → K :=
  paSeen (P.elem T) (P.dom T = 2) (pjJump P) uT uF

/-- The diffusion coefficient: 10 in the domain 2 and 1 elsewhere. -/
def pjCoeff (P : JProb K nT nF cb fbs) (T : Fin nT) : K := if P.dom T = 2 then 10 else 1

/-- Zero trace on the outside; cell equations; balance of the fluxes with the given jump of the flux. -/
structure JumpSol (P : JProb K nT nF cb fbs) (uT : Fin nT → Fin cb → K) (uF : Fin nF → Fin fbs → K) :
    Prop where
  strong : ∀ F, P.isB F = true → P.isInt F = false → ∀ i, uF F i = 0
  cell : ∀ T i, pjCoeff P T * ((P.elem T).A *ᵥ pjSeen P T (uT T) uF) (.inl i) = (P.elem T).load i
  face : ∀ F, (P.isB F = true → P.isInt F = true) → ∀ i,
    ∑ T, ∑ fi : Fin (P.elem T).nfc, (if (P.elem T).face fi = F then
      pjCoeff P T * ((P.elem T).A *ᵥ pjSeen P T (uT T) uF) (.inr (fi, i))
        - (if P.dom T = 2 ∧ P.tag F = 8 then P.gN F i else 0) else 0) = 0

end Verif.Spec
