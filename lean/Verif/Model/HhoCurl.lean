import Verif.Model.HhoVector
/-!
Operators of the HHO methods for Maxwell's equations: tangential interpolation, curl reconstructions, stabilizations.
`methods/implementation_hho/curl.hpp`, `methods_hho.hpp:174-212`, `bases/bases_vector.hpp`.

Same conventions as `Model/HhoLocal.lean`. Scalars are elements of a field (the code uses real or complex numbers and
transposes without conjugation). Every face has unknowns of the face degree.
-/
namespace Verif.Hho
open Finset LocalMatrix

variable {K P : Type} [Field K]

/-- Eigen's cross product of two vectors with three components. -/
def cross (a b : Nat → K) (c : Nat) : K := a ((c + 1) % 3) * b ((c + 2) % 3) - a ((c + 2) % 3) * b ((c + 1) % 3)

/-- `scaled_monomial_vector_basis::eval_curls2` in 3D, `bases/bases_vector.hpp:228-258`. -/
def vecCurl (b : Basis P K) (x : P) (j c : Nat) : K :=
  let g := b.grad x (j / 3)
  if j % 3 = 0 then (if c = 1 then g 2 else if c = 2 then -g 1 else 0)
  else if j % 3 = 1 then (if c = 0 then -g 2 else if c = 2 then g 0 else 0)
  else (if c = 0 then g 1 else if c = 1 then -g 0 else 0)

/-- `scaled_monomial_vector_tangential_basis::eval_functions`, `bases/bases_vector.hpp:388-424`: function `2 * i + s` is
the scalar function `i` of the face times the vector `s` of `reference_frame()`. -/
def tanFn (e : Nat → Nat → K) (b : Basis P K) (x : P) (j c : Nat) : K := e (j % 2) c * b.fn x (j / 2)

/-- The frame of every face: `fr fc 0`, `fr fc 1` are `e0`, `e1`. -/
abbrev Frames (P K : Type) := Face P K → Nat → Nat → K

/-! ### Interpolation -/

/-- `project_function(msh, elem, basis, f, di)` for vector valued bases, `bases/bases_utils.hpp:380-394`, `:286-308`: mass matrix by
the rule of degree `2 * k`, right-hand side by the rule of degree `2 * (k + di)`. `n` functions. -/
def projectVec (S : Solver K) (e : Elem P K) (k di n : Nat) (b : P → Nat → Nat → K) (f : P → Nat → K) : Nat → K :=
  S.solve n (accumDot 3 (e.integrate (2 * k)) b b)
    ((e.integrate (2 * (k + di))).foldl (fun v q => fun i => v i + dot 3 (b q.pt i) fun c => q.w * f q.pt c) fun _ => 0)

/-- Face loop of `project_tangent`, `methods_hho.hpp:197-209`. -/
def tangentFaces (S : Solver K) (fr : Frames P K) (cbs fbs fd di : Nat) (f : P → Nat → K) :
    Nat → List (Face P K) → (Nat → K) → Nat → K
  | _, [], ret => ret
  | i, fc :: fs, ret =>
    tangentFaces S fr cbs fbs fd di f (i + 1) fs
      (setSegment ret (cbs + i * fbs) fbs
        (projectVec S fc.toElem fd di (2 * (fc.basis fd).size) (tanFn (fr fc) (fc.basis fd))
          fun x => cross fc.normal (cross (f x) fc.normal)))

/-- `project_tangent(msh, cl, hdi, u, di)` in 3D, `methods_hho.hpp:174-212`;
`fbs = vector_basis_size(hdi.face_degree(), 2, 2)`. -/
def projectTangent (S : Solver K) (fr : Frames P K) (cell : Elem P K) (faces : List (Face P K)) (cd fd fbs di : Nat)
    (f : P → Nat → K) : Nat → K :=
  let cbs := 3 * (cell.basis cd).size
  tangentFaces S fr cbs fbs fd di f 0 faces
    (setSegment (fun _ => 0) 0 cbs (projectVec S cell cd di cbs (vecFn 3 (cell.basis cd)) f))

/-- Face loop of `maxwell_prj`, `curl.hpp:400-415`: the face basis is integrated with `integrate(msh, cl, …)`, the points
of the cell. -/
def maxwellFaces (S : Solver K) (fr : Frames P K) (cell : Elem P K) (cbs fbs fd : Nat) (f : P → Nat → K) :
    Nat → List (Face P K) → (Nat → K) → Nat → K
  | _, [], ret => ret
  | i, fc :: fs, ret =>
    maxwellFaces S fr cell cbs fbs fd f (i + 1) fs
      (setSegment ret (cbs + i * fbs) fbs
        (projectVec S cell fd 0 (2 * (fc.basis fd).size) (tanFn (fr fc) (fc.basis fd)) f))

/-- `maxwell_prj(msh, cl, hdi, f)`, `curl.hpp:372-418`. -/
def maxwellPrj (S : Solver K) (fr : Frames P K) (cell : Elem P K) (faces : List (Face P K)) (cd fd fbs : Nat)
    (f : P → Nat → K) : Nat → K :=
  let cbs := 3 * (cell.basis cd).size
  maxwellFaces S fr cell cbs fbs fd f 0 faces
    (setSegment (fun _ => 0) 0 cbs (projectVec S cell cd 0 cbs (vecFn 3 (cell.basis cd)) f))

/-! ### Curl reconstruction in the polynomials (`curl_reconstruction_pk`) -/

/-- `mass` of `curl_reconstruction_pk`, `curl.hpp:443-450`: the rule has degree `2 * celdeg + 2`. -/
def curlPkLhs (rd cd : Nat) (cell : Elem P K) : Mat K :=
  accumDot 3 (cell.integrate (2 * cd + 2)) (vecFn 3 (cell.basis rd)) (vecFn 3 (cell.basis rd))

/-- Face loop of `curl_reconstruction_pk`, `curl.hpp:457-475`. -/
def curlPkFaces (fr : Frames P K) (rd fd : Nat) (rb : Basis P K) : List (Face P K) → Nat → Mat K → Mat K
  | [], _, M => M
  | fc :: fs, off, M =>
    let fb := fc.basis fd
    curlPkFaces fr rd fd rb fs (off + 2 * fb.size)
      (kerAdd (fc.integrate (2 * rd + 2)) off (3 * rb.size) (2 * fb.size)
        (fun x i j => dot 3 (cross (vecFn 3 rb x i) fc.normal) (tanFn (fr fc) fb x j)) M)

/-- `cr_rhs` of `curl_reconstruction_pk`, `curl.hpp:444-475`. -/
def curlPkRhs (fr : Frames P K) (rd cd fd : Nat) (cell : Elem P K) (faces : List (Face P K)) : Mat K :=
  let rb := cell.basis rd
  let cb := cell.basis cd
  curlPkFaces fr rd fd rb faces (3 * cb.size)
    (kerAdd (cell.integrate (2 * cd + 2)) 0 (3 * rb.size) (3 * cb.size)
      (fun x i j => dot 3 (vecCurl rb x i) (vecFn 3 cb x j)) zero)

/-- `curl_reconstruction_pk(msh, cl, hdi)`, `curl.hpp:420-485`. The exception for a failed factorization is part of what
is assumed of the solver. -/
def curlPk (fr : Frames P K) (rd cd fd : Nat) (S : Solver K) (cell : Elem P K) (faces : List (Face P K)) :
    Mat K × Mat K :=
  operData S (3 * (cell.basis rd).size) (curlPkLhs rd cd cell) (curlPkRhs fr rd cd fd cell faces)

/-! ### Curl reconstruction by potentials (`curl_reconstruction`) -/

/-- What is assumed of Eigen's `FullPivLU`: `solve` solves every system that has a solution. -/
structure RankSolver (K : Type) [Field K] where
  solve : Nat → Mat K → (Nat → K) → Nat → K
  solves : ∀ (n : Nat) (A : Mat K) (b : Nat → K), (∃ x : Nat → K, ∀ i < n, ∑ j ∈ range n, A i j * x j = b i) →
    ∀ i < n, ∑ j ∈ range n, A i j * solve n A b j = b i

/-- `stiff` of `curl_reconstruction` in 3D, `curl.hpp:326-335`. -/
def curlStiff (rd : Nat) (cell : Elem P K) : Mat K :=
  accumDot 3 (cell.integrate (2 * rd)) (vecCurl (cell.basis rd)) (vecCurl (cell.basis rd))

/-- Face loop of `curl_reconstruction` in 3D, `curl.hpp:340-360`. Rows start at the fourth function. -/
def curlFaces (fr : Frames P K) (rd fd : Nat) (rb cb : Basis P K) : List (Face P K) → Nat → Mat K → Mat K
  | [], _, M => M
  | fc :: fs, off, M =>
    let fb := fc.basis fd
    curlFaces fr rd fd rb cb fs (off + 2 * fb.size)
      ((fc.integrate (2 * rd)).foldl (fun M q =>
        addBlock (subBlock M 0 0 (3 * rb.size - 3) (3 * cb.size) fun i j =>
            q.w * dot 3 (cross (vecCurl rb q.pt (3 + i)) fc.normal) (vecFn 3 cb q.pt j))
          0 off (3 * rb.size - 3) (2 * fb.size) fun i j =>
            q.w * dot 3 (cross (vecCurl rb q.pt (3 + i)) fc.normal) (tanFn (fr fc) fb q.pt j)) M)

/-- `cr_rhs` of `curl_reconstruction` in 3D, `curl.hpp:337-360`; the block of the cell unknowns is copied from `stiff`,
which needs `celdeg ≤ recdeg`. -/
def curlRhs (fr : Frames P K) (rd cd fd : Nat) (cell : Elem P K) (faces : List (Face P K)) : Mat K :=
  let rb := cell.basis rd
  let cb := cell.basis cd
  curlFaces fr rd fd rb cb faces (3 * cb.size)
    (setBlock zero 0 0 (3 * rb.size - 3) (3 * cb.size) (block (curlStiff rd cell) 3 0))

/-- `curl_reconstruction(msh, cl, hdi)` in 3D, `curl.hpp:298-370`. -/
def curlRec (fr : Frames P K) (rd cd fd : Nat) (S : RankSolver K) (cell : Elem P K) (faces : List (Face P K)) :
    Mat K × Mat K :=
  let n := 3 * (cell.basis rd).size - 3
  let rhs := curlRhs fr rd cd fd cell faces
  let oper : Mat K := fun i j => S.solve n (block (curlStiff rd cell) 3 3) (fun r => rhs r j) i
  (oper, mul n (tpose rhs) oper)

/-- `scaled_monomial_scalar_basis::eval_curls2` in 2D, `bases/bases_scalar.hpp:289-302`. -/
def planeCurl (b : Basis P K) (x : P) (i c : Nat) : K := if c = 0 then b.grad x i 1 else -b.grad x i 0

/-- `vcross(field, n)` in 2D, `curl.hpp:62-78`. -/
def planeCross (f n : Nat → K) : K := -(n 0 * f 1 - n 1 * f 0)

/-- Face loop of `curl_reconstruction` in 2D, `curl.hpp:270-290`. -/
def planeCurlFaces (rd fd : Nat) (rb cb : Basis P K) : List (Face P K) → Nat → Mat K → Mat K
  | [], _, M => M
  | fc :: fs, off, M =>
    let fb := fc.basis fd
    planeCurlFaces rd fd rb cb fs (off + fb.size)
      ((fc.integrate (2 * rd)).foldl (fun M q =>
        addBlock (subBlock M 0 0 (rb.size - 1) cb.size fun i j =>
            q.w * planeCross (planeCurl rb q.pt (1 + i)) fc.normal * cb.fn q.pt j)
          0 off (rb.size - 1) fb.size fun i j =>
            q.w * planeCross (planeCurl rb q.pt (1 + i)) fc.normal * fb.fn q.pt j) M)

/-- `curl_reconstruction(msh, cl, hdi)` in 2D, `curl.hpp:229-296`. -/
def planeCurlRec (rd cd fd : Nat) (S : Solver K) (cell : Elem P K) (faces : List (Face P K)) : Mat K × Mat K :=
  let rb := cell.basis rd
  let cb := cell.basis cd
  let stiff := accumDot 2 (cell.integrate (2 * rd)) (planeCurl rb) (planeCurl rb)
  operData S (rb.size - 1) (block stiff 1 1)
    (planeCurlFaces rd fd rb cb faces cb.size (setBlock zero 0 0 (rb.size - 1) cb.size (block stiff 1 0)))

/-! ### Stabilizations -/

/-- One face of the stabilizations: `rhs = [-mass⁻¹ trace, I]` and `rhs.transpose() * mass * rhs`. `nf` face and `nc`
cell unknowns. -/
def jumpTerm (S : Solver K) (nf nc off : Nat) (m trace : Mat K) : Mat K :=
  let rhs := setBlock (setBlock zero 0 off nf nf ident) 0 0 nf nc (negMat (S.solveMat nf m trace))
  mul nf (mul nf (tpose rhs) m) rhs

/-- Face loop of `curl_hdg_stabilization` in 3D, `curl.hpp:742-780`. -/
def curlHdgFaces (S : Solver K) (fr : Frames P K) (cd fd : Nat) (cb : Basis P K) :
    List (Face P K) → Nat → Mat K → Mat K
  | [], _, M => M
  | fc :: fs, off, M =>
    let fb := fc.basis fd
    let qs := fc.integrate (2 * max cd fd + 2)
    let m := accumDot 3 qs (tanFn (fr fc) fb) (tanFn (fr fc) fb)
    let trace := accumDot 3 qs (tanFn (fr fc) fb) fun x j => cross fc.normal (cross (vecFn 3 cb x j) fc.normal)
    curlHdgFaces S fr cd fd cb fs (off + 2 * fb.size)
      (addMat M (jumpTerm S (2 * fb.size) (3 * cb.size) off m trace))

/-- `curl_hdg_stabilization(msh, cl, hdi)` in 3D, `curl.hpp:712-783`. The division by the diameter is commented out. -/
def curlHdg (S : Solver K) (fr : Frames P K) (cd fd : Nat) (cell : Elem P K) (faces : List (Face P K)) : Mat K :=
  curlHdgFaces S fr cd fd (cell.basis cd) faces (3 * (cell.basis cd).size) zero

/-- Face loop of `curl_hdg_stabilization` in 2D, `curl.hpp:679-707`. -/
def planeHdgFaces (S : Solver K) (cd fd : Nat) (cb : Basis P K) : List (Face P K) → Nat → Mat K → Mat K
  | [], _, M => M
  | fc :: fs, off, M =>
    let fb := fc.basis fd
    let qs := fc.integrate (2 * max cd fd + 2)
    planeHdgFaces S cd fd cb fs (off + fb.size)
      (addMat M (divMat (jumpTerm S fb.size cb.size off (accum qs fb.fn fb.fn) (accum qs fb.fn cb.fn)) fc.diam))

/-- `curl_hdg_stabilization(msh, cl, hdi)` in 2D, `curl.hpp:652-710`. -/
def planeHdg (S : Solver K) (cd fd : Nat) (cell : Elem P K) (faces : List (Face P K)) : Mat K :=
  planeHdgFaces S cd fd (cell.basis cd) faces (cell.basis cd).size zero

/-- `make_vector_mass_oper(msh, cl, hdi)`, `curl.hpp:80-113`. -/
def massOper (cd : Nat) (cell : Elem P K) : Mat K :=
  kerAdd (cell.integrate (2 * cd + 2)) 0 (3 * (cell.basis cd).size) (3 * (cell.basis cd).size)
    (fun x i j => dot 3 (vecFn 3 (cell.basis cd) x i) (vecFn 3 (cell.basis cd) x j)) zero

end Verif.Hho
