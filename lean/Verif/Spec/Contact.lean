import Verif.Model.Contact
import Mathlib.Analysis.Calculus.Deriv.Basic
/-!
Contact and friction: displacements, strains and stresses of a vector of unknowns, the laws of Signorini and Tresca, and
what is assumed of the data.
-/
noncomputable section
namespace Verif.Spec.Contact
open Verif.Contact Verif.Tensor Finset
open Verif.Rigidity (fn evalG mulVec)

variable {D : Nat}

/-- The strain of the unknowns `v` at a point. -/
def strain (d : Data D) (v : Nat → ℝ) (p : Vec D) : Mat ℝ D := fun i j =>
  ∑ r ∈ range d.N, (∑ c ∈ range d.n, d.ET r c * v c) * fn (d.gb p) r i j

/-- Hooke's law. -/
def hooke (mu lambda : ℝ) (E : Mat ℝ D) : Mat ℝ D := fun i j => 2 * mu * E i j + if i = j then lambda * ∑ l, E l l else 0

/-- The traction on the face: the stress times the normal. -/
def traction (d : Data D) (fc : Face D) (v : Nat → ℝ) (p : Vec D) : Vec D := fun i =>
  ∑ j, hooke d.mu d.lambda (strain d v p) i j * fc.n j

/-- The component of a vector along the normal. -/
def along (n x : Vec D) : ℝ := ∑ k, x k * n k

/-- The rest of the vector. -/
def rest (n x : Vec D) : Vec D := fun k => x k - along n x * n k

/-- The displacement on the face: the one of the cell for `SIGNORINI_CELL`, the one of the face otherwise. -/
def disp (d : Data D) (fc : Face D) (off : Nat) (v : Nat → ℝ) (p : Vec D) : Vec D := fun k =>
  if fc.ctype = .signoriniCell then ∑ i ∈ range d.cbs, v i * d.cb p i k
  else ∑ i ∈ range fc.fbs, v (off + i) * fc.fb p i k

/-- The gap left after the displacement `u`: positive without contact. -/
def gap (d : Data D) (fc : Face D) (off : Nat) (u : Nat → ℝ) (p : Vec D) : ℝ :=
  if fc.ctype = .signoriniCell then computeG0 d.geo p fc.n - along fc.n (disp d fc off u p)
  else computeGap d.geo fc (fun i => u (off + i)) p

/-- `theta sigma_nn(v) - gamma v_n`. -/
def phiNV (d : Data D) (th : ℝ) (fc : Face D) (off : Nat) (v : Nat → ℝ) (p : Vec D) : ℝ :=
  th * along fc.n (traction d fc v p) - d.gamma0 / fc.hF * along fc.n (disp d fc off v p)

/-- `theta sigma_nt(v) - gamma v_t`. -/
def phiTV (d : Data D) (th : ℝ) (fc : Face D) (off : Nat) (v : Nat → ℝ) (p : Vec D) : Vec D := fun k =>
  th * rest fc.n (traction d fc v p) k - d.gamma0 / fc.hF * rest fc.n (disp d fc off v p) k

/-- `sigma_nn(u) + gamma gap(u)`: the trial pressure. -/
def trial (d : Data D) (fc : Face D) (off : Nat) (u : Nat → ℝ) (p : Vec D) : ℝ :=
  along fc.n (traction d fc u p) + d.gamma0 / fc.hF * gap d fc off u p

/-- The bound of the tangential stress: given for Tresca, proportional to the trial pressure for Coulomb. -/
def limit (d : Data D) (fc : Face D) (off : Nat) (u : Nat → ℝ) (p : Vec D) : ℝ :=
  match fc.s with
  | none => 0
  | some s => if d.frot = .coulomb then s p * max 0 (-trial d fc off u p) else s p

/-- Work of the contact and friction forces of `u` in the displacement `v` at a quadrature point. -/
def pointWork (d : Data D) (u v : Nat → ℝ) (off : Nat) (fc : Face D) (q : ℝ × Vec D) : ℝ :=
  q.1 / (d.gamma0 / fc.hF) * (min 0 (trial d fc off u q.2) * phiNV d d.theta fc off v q.2 +
    if d.frot = .none then 0 else
      ∑ k, proj (phiTV d 1 fc off u q.2) (limit d fc off u q.2) k * phiTV d d.theta fc off v q.2 k)

/-- The form of the linearized contact and friction at a quadrature point. -/
def pointForm (d : Data D) (u v w : Nat → ℝ) (off : Nat) (fc : Face D) (q : ℝ × Vec D) : ℝ :=
  q.1 / (d.gamma0 / fc.hF) * ((if trial d fc off u q.2 ≤ 0 then
      phiNV d d.theta fc off v q.2 * phiNV d 1 fc off w q.2 else 0) +
    if d.frot = .none then 0 else
      ∑ k, phiTV d d.theta fc off v q.2 k *
        ∑ l, dProj (phiTV d 1 fc off u q.2) (limit d fc off u q.2) k l * phiTV d 1 fc off w q.2 l)

/-- The products of tractions over the faces with a type of contact. -/
def tractionForm (d : Data D) (v w : Nat → ℝ) : ℝ :=
  ((d.faces.filter fun fc => fc.ctype ≠ .noContact).map fun fc =>
    (fc.nqps.map fun q => q.1 / (d.gamma0 / fc.hF) * ∑ k, traction d fc v q.2 k * traction d fc w q.2 k).sum).sum

/-- Friction needs a function at each face with contact. -/
def Limited (d : Data D) : Prop := d.frot ≠ .none → ∀ fc ∈ d.faces, fc.isContact = true → fc.s ≠ none

/-- The faces with contact (according to `is_contact_face`) and the positions of their unknowns. -/
def contactFaces : Nat → List (Face D) → List (Nat × Face D)
  | _, [] => []
  | off, fc :: fs => (if fc.isContact then [(off, fc)] else []) ++ contactFaces (off + fc.fbs) fs

/-- The unknowns are those of the cell followed by those of the faces, and the strain basis has as many functions as the
reconstruction has rows. -/
structure WellSized (d : Data D) : Prop where
  dofs : d.n = d.cbs + (d.faces.map Face.fbs).sum
  qps : ∀ fc ∈ d.faces, ∀ q ∈ fc.qps, (d.gb q.2).length = d.N
  nqps : ∀ fc ∈ d.faces, ∀ q ∈ fc.nqps, (d.gb q.2).length = d.N

/-- The boundary conditions agree on which faces are in contact. -/
def Consistent (d : Data D) : Prop := ∀ fc ∈ d.faces, (fc.isContact = true ↔ fc.ctype ≠ .noContact)

/-- Both quadratures integrate products of tractions alike. -/
def SameQuadrature (d : Data D) : Prop := ∀ fc ∈ d.faces, fc.isContact = true → ∀ u v : Nat → ℝ,
  (fc.nqps.map fun q => q.1 * ∑ k, traction d fc u q.2 k * traction d fc v q.2 k).sum =
    (fc.qps.map fun q => q.1 * ∑ k, traction d fc u q.2 k * traction d fc v q.2 k).sum

/-- Usual geometry and parameters at the faces with contact: unit normals, positive diameters and penalty, nonnegative
weights. -/
structure Usual (d : Data D) : Prop where
  gamma0 : 0 < d.gamma0
  hF : ∀ fc ∈ d.faces, fc.isContact = true → 0 < fc.hF
  unit : ∀ fc ∈ d.faces, fc.isContact = true → ∑ k, fc.n k * fc.n k = 1
  weight : ∀ fc ∈ d.faces, fc.isContact = true → ∀ q ∈ fc.qps, 0 ≤ q.1

/-- Signorini's law between normal stress and gap. -/
def Signorini (sigma g : ℝ) : Prop := 0 ≤ g ∧ sigma ≤ 0 ∧ sigma * g = 0

/-- Tresca's law between tangential stress and displacement: no slip below the bound, slip against the stress at the
bound. -/
def Tresca (s : ℝ) (sigma u : Vec D) : Prop :=
  ∑ k, sigma k * sigma k ≤ s ^ 2 ∧ (∑ k, sigma k * sigma k < s ^ 2 → ∀ k, u k = 0) ∧
    (∑ k, sigma k * sigma k = s ^ 2 → ∃ c : ℝ, 0 ≤ c ∧ ∀ k, u k = -c * sigma k)

/-- No quadrature point is at the limit between contact and no contact, or between stick and slip. -/
structure OffKinks (d : Data D) (u : Nat → ℝ) : Prop where
  normal : ∀ x ∈ contactFaces d.cbs d.faces, ∀ q ∈ x.2.qps, trial d x.2 x.1 u q.2 ≠ 0
  tangent : d.frot ≠ .none → ∀ x ∈ contactFaces d.cbs d.faces, ∀ q ∈ x.2.qps, 0 ≤ limit d x.2 x.1 u q.2 ∧
    ∑ k, phiTV d 1 x.2 x.1 u q.2 k * phiTV d 1 x.2 x.1 u q.2 k ≠ limit d x.2 x.1 u q.2 ^ 2

/-- At each point of the face unknowns, the gap changes with the normal displacement only. -/
def LinearGap (d : Data D) (u v : Nat → ℝ) : Prop :=
  ∀ x ∈ contactFaces d.cbs d.faces, x.2.ctype ≠ .signoriniCell → ∀ q ∈ x.2.qps,
    HasDerivAt (fun t : ℝ => gap d x.2 x.1 (fun i => u i + t * v i) q.2)
      (-along x.2.n (disp d x.2 x.1 v q.2)) 0

/-- A vertex of a face after the displacement of the face unknowns. -/
def moved (fc : Face D) (off : Nat) (u : Nat → ℝ) (i : Nat) : Vec D := newPt fc.fbs fc.fb (fun j => u (off + j)) (fc.pts i)

/-- The displaced edge is horizontal and not a point. -/
def Level2 (fc : Face 2) (off : Nat) (u : Nat → ℝ) : Prop :=
  moved fc off u 0 1 = moved fc off u 1 1 ∧ moved fc off u 0 0 ≠ moved fc off u 1 0

/-- The first three displaced vertices are at the same height and not aligned. -/
def Level3 (fc : Face 3) (off : Nat) (u : Nat → ℝ) : Prop :=
  moved fc off u 0 2 = moved fc off u 1 2 ∧ moved fc off u 0 2 = moved fc off u 2 2 ∧
    (moved fc off u 1 0 - moved fc off u 0 0) * (moved fc off u 2 1 - moved fc off u 0 1) ≠
      (moved fc off u 1 1 - moved fc off u 0 1) * (moved fc off u 2 0 - moved fc off u 0 0)

end Verif.Spec.Contact
