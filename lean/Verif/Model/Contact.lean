import Verif.Model.Rigidity
/-!
Contact and friction in the nonlinear solver of mechanics: `mechanics/NewtonSolver/NewtonSolverContact.hpp` and
`compute_contact_terms` of `NewtonSolverComput.hpp:280-302`.

Scalars are exact reals; a division by zero gives zero here, so that normals of collapsed faces are not meaningful.
Dynamic vectors and matrices are functions of natural numbers with the sizes of the code as bounds of the loops; static
vectors are functions of `Fin D`. Bases are given by their values at each point, faces by what the mesh and the boundary
conditions return for them. `eval_proj_phi_n_uF` (lines 1094-1112) is never used and could not be: it calls
`eval_phi_n_uF` without the face.
-/
noncomputable section
namespace Verif.Contact
open Tensor Rigidity Finset

variable {D : Nat}

/-- `static_vector<T, D>`. -/
abbrev Vec (D : Nat) := Fin D → ℝ

/-- `a.dot(b)`. -/
def dot (a b : Vec D) : ℝ := ∑ k, a k * b k

/-- `a.norm()`. -/
def norm (a : Vec D) : ℝ := Real.sqrt (dot a a)

/-- What depends on the dimension: the coordinate that vanishes on the obstacle and `compute_normal`. -/
structure Geo (D : Nat) where
  last : Fin D
  normal : (Nat → Vec D) → Vec D

/-- `compute_normal` of two points, lines 96-106. -/
def normal2 (p : Nat → Vec 2) : Vec 2 :=
  let t1 : Vec 2 := fun k => p 1 k - p 0 k
  let nor : Vec 2 := ![-t1 1, t1 0]
  fun k => nor k / norm nor

/-- The cross product of Eigen. -/
def cross (a b : Vec 3) : Vec 3 :=
  ![a 1 * b 2 - a 2 * b 1, a 2 * b 0 - a 0 * b 2, a 0 * b 1 - a 1 * b 0]

/-- `compute_normal` of three points, lines 108-121. -/
def normal3 (p : Nat → Vec 3) : Vec 3 :=
  let t1 : Vec 3 := fun k => p 1 k - p 0 k
  let t2 : Vec 3 := fun k => p 2 k - p 0 k
  let nor := cross (fun k => t1 k / norm t1) (fun k => t2 k / norm t2)
  fun k => nor k / norm nor

/-- Two dimensions. -/
def geo2 : Geo 2 := ⟨1, normal2⟩

/-- Three dimensions. -/
def geo3 : Geo 3 := ⟨2, normal3⟩

/-- `compute_g0`, lines 48-83: the obstacle is the plane where the last coordinate vanishes. -/
def computeG0 (g : Geo D) (pt n : Vec D) : ℝ :=
  if |n g.last| < 1 / 10 ^ 12 then 10 * 10 ^ 12
  else
    let dist := |pt g.last / n g.last|
    if pt g.last < 0 then -dist else dist

/-- The types of contact, `boundary_conditions.hpp:62-68`; `SIGNORINI` is treated as `SIGNORINI_FACE` here. -/
inductive CType where
  | signoriniFace
  | signoriniCell
  | noContact
deriving DecidableEq

/-- The types of friction, `NewtonSolverParameters.hpp`; other integers behave as no friction. -/
inductive Friction where
  | none
  | tresca
  | coulomb
deriving DecidableEq

/-- A face of the cell: answers of the boundary conditions (`is_contact_face`, `contact_boundary_type` and the function
if there is one), normal, diameter, size and values of the face basis, vertices, quadrature with weights of degree
`2 max(k_T, k_G) + 2` and `2 k_G + 2`. -/
structure Face (D : Nat) where
  isContact : Bool
  ctype : CType
  s : Option (Vec D → ℝ)
  n : Vec D
  hF : ℝ
  fbs : Nat
  fb : Vec D → Nat → Vec D
  pts : Nat → Vec D
  qps : List (ℝ × Vec D)
  nqps : List (ℝ × Vec D)

/-- What is fixed while the displacement varies: material, parameters, strain reconstruction with `N` rows and `n`
columns, bases of the cell and its faces. -/
structure Data (D : Nat) where
  geo : Geo D
  mu : ℝ
  lambda : ℝ
  theta : ℝ
  gamma0 : ℝ
  frot : Friction
  ET : Nat → Nat → ℝ
  N : Nat
  n : Nat
  cbs : Nat
  cb : Vec D → Nat → Vec D
  gb : Vec D → List (Mat ℝ D)
  faces : List (Face D)

/-- `new_pt` at each vertex and at a point, lines 85-94. -/
def newPt (fbs : Nat) (fb : Vec D → Nat → Vec D) (uF : Nat → ℝ) (pt : Vec D) : Vec D :=
  fun k => pt k + ∑ i ∈ range fbs, fb pt i k * uF i

/-- `std::copysign(1, x)`; the sign of a zero is not modelled. -/
def copysign1 (x : ℝ) : ℝ := if x < 0 then -1 else 1

/-- `compute_gap_fb`, lines 123-181. -/
def computeGap (g : Geo D) (fc : Face D) (uF : Nat → ℝ) (pt : Vec D) : ℝ :=
  let ptDef := newPt fc.fbs fc.fb uF pt
  let nRef := g.normal fc.pts
  let sign := copysign1 (dot fc.n nRef)
  let nDef := g.normal fun i => newPt fc.fbs fc.fb uF (fc.pts i)
  computeG0 g ptDef fun k => sign * nDef k

/-- `make_hho_u_n`, lines 221-231. -/
def uN (n : Vec D) (phi : Nat → Vec D) : Nat → ℝ := fun i => dot (phi i) n

/-- `make_hho_u_t`, lines 233-243. -/
def uT (n : Vec D) (phi : Nat → Vec D) : Nat → Vec D := fun i k => phi i k - uN n phi i * n k

/-- `make_hho_sigma_n`, lines 245-263. -/
def sigmaN (d : Data D) (n pt : Vec D) : Nat → Vec D := fun i k =>
  (2 * d.mu * ∑ r ∈ range d.N, d.ET r i * ∑ l, fn (d.gb pt) r k l * n l) +
    d.lambda * ∑ r ∈ range d.N, d.ET r i * ((∑ l, fn (d.gb pt) r l l) * n k)

/-- `make_hho_sigma_nn`, lines 265-280. -/
def sigmaNN (d : Data D) (n pt : Vec D) : Nat → ℝ := fun i => dot (sigmaN d n pt i) n

/-- `make_hho_sigma_nt`, lines 282-291. -/
def sigmaNT (d : Data D) (n pt : Vec D) : Nat → Vec D := fun i k => sigmaN d n pt i k - sigmaNN d n pt i * n k

/-- `make_hho_phi_n_uT` and `make_hho_phi_n_uF`, lines 293-304 and 319-334: the unknowns of the trace are the `len`
unknowns from `off`. -/
def phiN (sigma : Nat → ℝ) (u : Nat → ℝ) (theta gamma : ℝ) (off len : Nat) : Nat → ℝ := fun i =>
  if off ≤ i ∧ i < off + len then theta * sigma i - gamma * u (i - off) else theta * sigma i

/-- `make_hho_phi_t_uT` and `make_hho_phi_t_uF`, lines 306-317 and 336-349. -/
def phiT (sigma : Nat → Vec D) (u : Nat → Vec D) (theta gamma : ℝ) (off len : Nat) : Nat → Vec D := fun i k =>
  if off ≤ i ∧ i < off + len then theta * sigma i k - gamma * u (i - off) k else theta * sigma i k

/-- `make_proj_alpha`, lines 351-363. -/
def proj (x : Vec D) (alpha : ℝ) : Vec D :=
  if norm x ≤ alpha then x else fun k => alpha * x k / norm x

/-- `make_d_proj_alpha`, lines 365-377. -/
def dProj (x : Vec D) (alpha : ℝ) : Mat ℝ D :=
  if norm x ≤ alpha then fun i j => if i = j then 1 else 0
  else fun i j => alpha / norm x * ((if i = j then 1 else 0) - x i * x j / (norm x * norm x))

/-- `eval_stress`, lines 1190-1199. -/
def evalStress (d : Data D) (a : Nat → ℝ) (pt : Vec D) : Mat ℝ D :=
  let Eu := evalG a (d.gb pt)
  fun i j => 2 * d.mu * Eu i j + d.lambda * (∑ l, Eu l l) * (if i = j then 1 else 0)

/-- `stress * n`. -/
def evalStressN (d : Data D) (a : Nat → ℝ) (n pt : Vec D) : Vec D := fun k => ∑ l, evalStress d a pt k l * n l

/-- `eval_stress_nn`, lines 1006-1012. -/
def evalStressNN (d : Data D) (a : Nat → ℝ) (n pt : Vec D) : ℝ := dot (evalStressN d a n pt) n

/-- `eval_stress_nt`, lines 1014-1022. -/
def evalStressNT (d : Data D) (a : Nat → ℝ) (n pt : Vec D) : Vec D :=
  fun k => evalStressN d a n pt k - evalStressNN d a n pt * n k

/-- `eval_uT_n`, `eval_uF_n`, lines 970-977 and 988-995. -/
def evalUN (phi : Nat → Vec D) (n : Vec D) (u : Nat → ℝ) (off len : Nat) : ℝ :=
  ∑ i ∈ range len, uN n phi i * u (off + i)

/-- `eval_uT_t`, `eval_uF_t`, lines 979-986 and 997-1004. -/
def evalUT (phi : Nat → Vec D) (n : Vec D) (u : Nat → ℝ) (off len : Nat) : Vec D :=
  fun k => ∑ i ∈ range len, uT n phi i k * u (off + i)

variable (d : Data D)

/-- `gamma_F`. -/
def Data.gammaF (fc : Face D) : ℝ := d.gamma0 / fc.hF

/-- First unknown of the trace: the cell for `SIGNORINI_CELL`, otherwise the face. -/
def trOff (fc : Face D) (off : Nat) : Nat := if fc.ctype = .signoriniCell then 0 else off

/-- Number of unknowns of the trace. -/
def Data.trLen (fc : Face D) : Nat := if fc.ctype = .signoriniCell then d.cbs else fc.fbs

/-- Values of the basis of the trace. -/
def Data.trBasis (fc : Face D) (pt : Vec D) : Nat → Vec D := if fc.ctype = .signoriniCell then d.cb pt else fc.fb pt

/-- `eval_phi_n_uT` and `eval_phi_n_uF`, lines 1024-1038 and 1073-1092. -/
def Data.phiN1u (fc : Face D) (off : Nat) (u : Nat → ℝ) (pt : Vec D) : ℝ :=
  let a := mulVec d.n d.ET u
  if fc.ctype = .signoriniCell then
    evalStressNN d a fc.n pt - d.gammaF fc * (evalUN (d.cb pt) fc.n u 0 d.cbs - computeG0 d.geo pt fc.n)
  else evalStressNN d a fc.n pt + d.gammaF fc * computeGap d.geo fc (fun i => u (off + i)) pt

/-- `eval_phi_t_uT` and `eval_phi_t_uF`, lines 1042-1055 and 1114-1129. -/
def Data.phiT1u (fc : Face D) (off : Nat) (u : Nat → ℝ) (pt : Vec D) : Vec D :=
  let ut := evalUT (d.trBasis fc pt) fc.n u (trOff fc off) (d.trLen fc)
  fun k => evalStressNT d (mulVec d.n d.ET u) fc.n pt k - d.gammaF fc * ut k

/-- `phi_n_theta` and `phi_n_1` at a point. -/
def Data.phiNAt (theta : ℝ) (fc : Face D) (off : Nat) (pt : Vec D) : Nat → ℝ :=
  phiN (sigmaNN d fc.n pt) (uN fc.n (d.trBasis fc pt)) theta (d.gammaF fc) (trOff fc off) (d.trLen fc)

/-- `phi_t_theta` and `phi_t_1` at a point. -/
def Data.phiTAt (theta : ℝ) (fc : Face D) (off : Nat) (pt : Vec D) : Nat → Vec D :=
  phiT (sigmaNT d fc.n pt) (uT fc.n (d.trBasis fc pt)) theta (d.gammaF fc) (trOff fc off) (d.trLen fc)

/-- One quadrature point of `make_hho_nitsche`, lines 394-400. -/
def Data.nitschePt (fc : Face D) (q : ℝ × Vec D) : Nat → Nat → ℝ := fun i j =>
  dot (fun k => q.1 / d.gammaF fc * sigmaN d fc.n q.2 i k) (sigmaN d fc.n q.2 j)

/-- One point of `make_hho_heaviside_contact`, lines 443-481. -/
def Data.heavisidePt (u : Nat → ℝ) (off : Nat) (fc : Face D) (q : ℝ × Vec D) : Nat → Nat → ℝ :=
  if d.phiN1u fc off u q.2 ≤ 0 then
    fun i j => q.1 / d.gammaF fc * d.phiNAt d.theta fc off q.2 i * d.phiNAt 1 fc off q.2 j
  else 0

/-- One point of `make_hho_negative_contact`, lines 526-564. -/
def Data.negativePt (u : Nat → ℝ) (off : Nat) (fc : Face D) (q : ℝ × Vec D) : Nat → ℝ :=
  let p := d.phiN1u fc off u q.2
  if p ≤ 0 then fun i => q.1 / d.gammaF fc * p * d.phiNAt d.theta fc off q.2 i else 0

/-- The bound of the friction: the function itself for Tresca, times the contact pressure for Coulomb, lines 857-858
and 1183-1184. -/
def Data.bound (u : Nat → ℝ) (off : Nat) (fc : Face D) (s : Vec D → ℝ) (pt : Vec D) : ℝ :=
  if d.frot = .coulomb then -s pt * min 0 (d.phiN1u fc off u pt) else s pt

/-- One point of `make_hho_threshold_tresca` and `make_hho_threshold_coulomb`, lines 611-644 and 774-796. -/
def Data.thresholdPt (u : Nat → ℝ) (off : Nat) (fc : Face D) (s : Vec D → ℝ) (q : ℝ × Vec D) : Nat → ℝ :=
  let p := proj (d.phiT1u fc off u q.2) (d.bound u off fc s q.2)
  fun i => dot (d.phiTAt d.theta fc off q.2 i) fun k => q.1 * p k / d.gammaF fc

/-- One point of `make_hho_matrix_tresca` and `make_hho_matrix_coulomb`, lines 691-727 and 839-868. -/
def Data.frictionPt (u : Nat → ℝ) (off : Nat) (fc : Face D) (s : Vec D → ℝ) (q : ℝ × Vec D) : Nat → Nat → ℝ :=
  let P := dProj (d.phiT1u fc off u q.2) (d.bound u off fc s q.2)
  fun i j => dot (fun k => q.1 / d.gammaF fc * d.phiTAt d.theta fc off q.2 i k)
    fun k => ∑ l, P k l * d.phiTAt 1 fc off q.2 j l

/-- The loops over the faces, e.g. lines 425-485: `offset` starts at the size of the cell basis and grows by the size
of each face basis. -/
def loopFaces {A : Type} [AddCommMonoid A] (f : Nat → Face D → A) : Nat → List (Face D) → A
  | _, [] => 0
  | off, fc :: fs => (if fc.isContact then f off fc else 0) + loopFaces f (off + fc.fbs) fs

/-- `make_hho_nitsche`, lines 379-404; `faces_with_contact` is `boundary_conditions.hpp:645-661`. -/
def Data.nitsche : Nat → Nat → ℝ := fun i j =>
  d.theta * ((d.faces.filter fun fc => fc.ctype ≠ .noContact).map fun fc =>
    (fc.nqps.map fun q => d.nitschePt fc q i j).sum).sum

/-- `make_hho_heaviside_contact`, lines 406-489. -/
def Data.heaviside (u : Nat → ℝ) : Nat → Nat → ℝ :=
  loopFaces (fun off fc => (fc.qps.map (d.heavisidePt u off fc)).sum) d.cbs d.faces

/-- `make_hho_negative_contact`, lines 491-570. -/
def Data.negative (u : Nat → ℝ) : Nat → ℝ :=
  loopFaces (fun off fc => (fc.qps.map (d.negativePt u off fc)).sum) d.cbs d.faces

/-- `make_hho_threshold_tresca` and `make_hho_threshold_coulomb`, lines 572-650 and 737-802, when nothing is thrown. -/
def Data.threshold (u : Nat → ℝ) : Nat → ℝ :=
  loopFaces (fun off fc => match fc.s with
    | some s => (fc.qps.map (d.thresholdPt u off fc s)).sum
    | none => 0) d.cbs d.faces

/-- `make_hho_matrix_tresca` and `make_hho_matrix_coulomb`, lines 652-735 and 804-875, when nothing is thrown. -/
def Data.friction (u : Nat → ℝ) : Nat → Nat → ℝ :=
  loopFaces (fun off fc => match fc.s with
    | some s => (fc.qps.map (d.frictionPt u off fc s)).sum
    | none => 0) d.cbs d.faces

/-- `K_cont`, lines 901-963, when nothing is thrown. -/
def Data.kCont (u : Nat → ℝ) : Nat → Nat → ℝ := fun i j =>
  (if d.theta ≠ 0 then -d.nitsche i j else 0) + d.heaviside u i j +
    if d.frot = .none then 0 else d.friction u i j

/-- `F_cont`, lines 901-963, when nothing is thrown. -/
def Data.fCont (u : Nat → ℝ) : Nat → ℝ := fun i =>
  (if d.theta ≠ 0 then -∑ j ∈ range d.n, d.nitsche i j * u j else 0) + d.negative u i +
    if d.frot = .none then 0 else d.threshold u i

/-- The products of Eigen need a basis with as many functions as the reconstruction has rows. -/
def Data.badSizes (fc : Face D) : Bool :=
  (fc.isContact && fc.qps.any fun q => (d.gb q.2).length != d.N) ||
    (decide (d.theta ≠ 0) && decide (fc.ctype ≠ .noContact) && fc.nqps.any fun q => (d.gb q.2).length != d.N)

/-- What the loops of the friction throw at one face: `contact_boundary_func`, `boundary_conditions.hpp:731-747`, and
line 780. -/
def Data.checkFriction (fc : Face D) : Outcome Unit :=
  if fc.isContact then
    if fc.s.isNone then .throws "You want the contact function of a face which has not function"
    else if d.frot = .coulomb ∧ fc.ctype = .signoriniCell ∧ fc.qps ≠ [] then .throws "Not implemented"
    else .ok ()
  else .ok ()

/-- The checks of the friction at all faces. -/
def Data.checkAll : List (Face D) → Outcome Unit
  | [] => .ok ()
  | fc :: fs => (d.checkFriction fc).bind fun _ => Data.checkAll fs

/-- `compute`, lines 891-968: `K_cont` and `F_cont`. -/
def Data.compute (u : Nat → ℝ) : Outcome ((Nat → Nat → ℝ) × (Nat → ℝ)) :=
  if d.faces.any d.badSizes then .ub "product of matrices of different sizes"
  else if d.frot = .none then .ok (d.kCont u, d.fCont u)
  else (d.checkAll d.faces).bind fun _ => .ok (d.kCont u, d.fCont u)

/-- `compute_contact_terms`, `NewtonSolverComput.hpp:280-302`: `K_int`, `F_int` and `RTF` after the call. -/
def Data.contactTerms (u : Nat → ℝ) (K : Nat → Nat → ℝ) (F R : Nat → ℝ) :
    Outcome ((Nat → Nat → ℝ) × (Nat → ℝ) × (Nat → ℝ)) :=
  if d.faces.any fun fc => fc.isContact then
    (d.compute u).bind fun c => .ok (K + c.1, F + c.2, R - c.2)
  else .ok (K, F, R)

end Verif.Contact
