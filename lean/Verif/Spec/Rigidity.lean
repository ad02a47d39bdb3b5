import Verif.Spec.Mech
import Verif.Model.Rigidity
/-!
What is assumed of the data of the local contributions of mechanics.
-/
namespace Verif.Spec
open Verif.Rigidity Verif.Tensor Finset

variable {D : Nat}

/-- What is used of the symmetric basis: its length and the entries on each line. -/
structure Fits (L : Lines D) : Prop where
  pos : 0 < L.num
  len : ∀ phi, (symBasis D phi).length = phi.length * L.num
  entry : ∀ phi b o, o < L.num → ∀ S : Mat ℝ D, (∀ i j, S i j = S j i) →
    Tensor.inner S (fn (symBasis D phi) (b * L.num + o)) =
      (L.line o).2.2 * S (L.line o).1 (L.line o).2.1 * fn (symBasis D phi) (b * L.num + o) (L.line o).1 (L.line o).2.1
  symm : ∀ phi n i j, fn (symBasis D phi) n i j = fn (symBasis D phi) n j i

/-- The tensor has the major symmetry. -/
def MajorSymmetric (C : Tens ℝ D) : Prop := ∀ i j k l, Tensor.get C ⟨i, j, k, l⟩ = Tensor.get C ⟨k, l, i, j⟩

/-- What is assumed of the behavior at a point: symmetric tangent and, in small deformations, symmetric stresses. -/
structure LawSymmetric (small : Bool) (q : Point D) : Prop where
  major : ∀ G, MajorSymmetric (q.law G).2
  stress : small = true → ∀ G, (∀ i j, G i j = G j i) → ∀ i j, (q.law G).1 i j = (q.law G).1 j i
  minor : small = true → ∀ G A i j, tmProd (q.law G).2 A i j = tmProd (q.law G).2 A j i

/-- The data fit together: two or three dimensions, and bases of the size of the reconstruction. -/
structure Fitting (d : Data D) : Prop where
  dim : 0 < D
  lines : Fits d.lines
  len : ∀ q ∈ d.pts, (q.gphi d.small).length = d.N
  adm : ∀ q ∈ d.pts, LawSymmetric d.small q

/-- The dofStrain (or displacement gradient) of `v` at a point. -/
noncomputable def dofStrain (d : Data D) (q : Point D) (v : Nat → ℝ) : Mat ℝ D :=
  evalG (mulVec d.n d.R v) (q.gphi d.small)

end Verif.Spec
