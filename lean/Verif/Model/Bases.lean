import Verif.Model.Util
import Mathlib.Data.Matrix.Mul
import Mathlib.LinearAlgebra.Matrix.Notation
import Mathlib.Algebra.Field.Defs
/-!
Scaled monomial bases: `bases/bases_scalar.hpp`, `bases/bases_new.hpp`, `bases/bases_all.hpp`,
`bases/bases_vector.hpp`. Points are vectors `Fin d → R`; Eigen vectors that are filled entry by
entry are lists written through an index (`writeAll`), an out-of-range write is undefined behaviour.
-/
namespace Verif.Bases
open Verif.Util Matrix

/-- A sequence of writes `ret(pos++) = v`. -/
def writeAll {α : Type} (ret : List α) (pos : Nat) : List α → Outcome (List α × Nat)
  | [] => .ok (ret, pos)
  | v :: vs => if pos < ret.length then writeAll (ret.set pos v) (pos + 1) vs
               else .ub "write out of range"

/-- `ret = Zero(size); pos = 0; ret(pos++) = ...; assert(pos == size); return ret`, the common frame
of all the evaluation functions, e.g. `bases/bases_scalar.hpp:219-244`. -/
def fillVec {α : Type} (size : Nat) (z : α) (vals : List α) : Outcome (List α) :=
  (writeAll (List.replicate size z) 0 vals).bind fun r =>
    if r.2 = size then .ok r.1 else .ub "assert(pos == basis_size)"

/-- Exponents visited by the double loop, `bases/bases_scalar.hpp:226-239` (also
`bases_new.hpp:355-357`, `bases_scalar.hpp:533-542`). -/
def exps2 (K : Nat) : List (Nat × Nat) :=
  (List.range (K + 1)).flatMap fun k => (List.range (k + 1)).map fun i => (k - i, i)

/-- Exponents visited by the triple loop, `bases/bases_scalar.hpp:415-428` (`pow_z` starts at
`k - pow_x` and is decremented with every `pow_y` increment); same as `bases_new.hpp:583-586`. -/
def exps3 (K : Nat) : List (Nat × Nat × Nat) :=
  (List.range (K + 1)).flatMap fun k => (List.range (k + 1)).flatMap fun px =>
    (List.range (k - px + 1)).map fun py => (px, py, k - px - py)

/-- `compute_passage_matrix`, `bases/bases_all.hpp:75-90`: rows of the transposed axes scaled by
`2 / length_box[i]`. -/
def passageMatrix {d : Nat} {R : Type} [Field R] (axes : Matrix (Fin d) (Fin d) R) (len : Fin d → R) :
    Matrix (Fin d) (Fin d) R :=
  Matrix.of fun i j => axesᵀ i j * (2 / len i)

/-- `scaling_point`, `bases/bases_all.hpp:93-98`; `phys2ref`, `bases/bases_new.hpp:317-320`. -/
def scalingPoint {d : Nat} {R : Type} [CommRing R] (P : Matrix (Fin d) (Fin d) R)
    (bar pt : Fin d → R) : Fin d → R := P *ᵥ (pt - bar)

section
variable {R : Type} [CommRing R]

/-- The derivative factor `(e == 0) ? 0 : e * pow(b, e - 1)`. -/
def dfac (b : R) (e : Nat) : R := if e = 0 then 0 else (e : R) * iexpPow b (e - 1)

/-- `eval_functions` in 2D, `bases/bases_scalar.hpp:219-244`. -/
def eval2 (K : Nat) (P : Matrix (Fin 2) (Fin 2) R) (bar pt : Fin 2 → R) : Outcome (List R) :=
  let bp := scalingPoint P bar pt
  fillVec (scalarBasisSize K 2) 0
    ((exps2 K).map fun e => iexpPow (bp 0) e.1 * iexpPow (bp 1) e.2)

/-- `eval_gradients` in 2D, `bases/bases_scalar.hpp:246-286`. -/
def grad2 (K : Nat) (P : Matrix (Fin 2) (Fin 2) R) (bar pt : Fin 2 → R) :
    Outcome (List (Fin 2 → R)) :=
  let bp := scalingPoint P bar pt
  fillVec (scalarBasisSize K 2) 0
    ((exps2 K).map fun e => Pᵀ *ᵥ ![dfac (bp 0) e.1 * iexpPow (bp 1) e.2,
                                    iexpPow (bp 0) e.1 * dfac (bp 1) e.2])

/-- `eval_functions` in 3D, `bases/bases_scalar.hpp:408-433`. -/
def eval3 (K : Nat) (P : Matrix (Fin 3) (Fin 3) R) (bar pt : Fin 3 → R) : Outcome (List R) :=
  let bp := scalingPoint P bar pt
  fillVec (scalarBasisSize K 3) 0
    ((exps3 K).map fun e => iexpPow (bp 0) e.1 * iexpPow (bp 1) e.2.1 * iexpPow (bp 2) e.2.2)

/-- `eval_gradients` in 3D, `bases/bases_scalar.hpp:435-481`. -/
def grad3 (K : Nat) (P : Matrix (Fin 3) (Fin 3) R) (bar pt : Fin 3 → R) :
    Outcome (List (Fin 3 → R)) :=
  let bp := scalingPoint P bar pt
  fillVec (scalarBasisSize K 3) 0
    ((exps3 K).map fun e =>
      Pᵀ *ᵥ ![dfac (bp 0) e.1 * iexpPow (bp 1) e.2.1 * iexpPow (bp 2) e.2.2,
              iexpPow (bp 0) e.1 * dfac (bp 1) e.2.1 * iexpPow (bp 2) e.2.2,
              iexpPow (bp 0) e.1 * iexpPow (bp 1) e.2.1 * dfac (bp 2) e.2.2])

/-- `eval_functions` on 3D faces, `bases/bases_scalar.hpp:526-548`: the face point is first mapped to
two coordinates, given here. -/
def evalFace3 (K : Nat) (ep : Fin 2 → R) : Outcome (List R) :=
  fillVec (scalarBasisSize K 2) 0
    ((exps2 K).map fun e => iexpPow (ep 0) e.1 * iexpPow (ep 1) e.2)

/-- The power table loop `powx(0) = 1; powx(k) = powx(k-1) * x`, `bases/bases_new.hpp:344-351`, on a
table of `size` entries. -/
def powTable (size : Nat) (x : R) : Nat → Outcome (List R)
  | 0 => if 0 < size then .ok ((List.replicate size 0).set 0 1) else .ub "write out of range"
  | k + 1 => (powTable size x k).bind fun t =>
      match t[k]? with
      | none => .ub "read out of range"
      | some v => if k + 1 < t.length then .ok (t.set (k + 1) (v * x)) else .ub "write out of range"

/-- Reading `t(i)`. -/
def rd (t : List R) (i : Nat) : Outcome R :=
  match t[i]? with
  | some v => .ok v
  | none => .ub "read out of range"

/-- Evaluating a list of computations in order; the first failure is the outcome. -/
def seqAll {α : Type} : List (Outcome α) → Outcome (List α)
  | [] => .ok []
  | o :: os => o.bind fun a => (seqAll os).bind fun as => .ok (a :: as)

/-- `operator()` of the new 2D cell basis, `bases/bases_new.hpp:339-361`. -/
def newEval2 (K : Nat) (tr : Matrix (Fin 2) (Fin 2) R) (bar pt : Fin 2 → R) : Outcome (List R) :=
  let ep := scalingPoint tr bar pt
  (powTable (sizeOfDegree2 K) (ep 0) K).bind fun powx =>
  (powTable (sizeOfDegree2 K) (ep 1) K).bind fun powy =>
  (seqAll ((exps2 K).map fun e => (rd powx e.1).bind fun a => (rd powy e.2).bind fun b =>
    .ok (a * b))).bind fun vals => fillVec (sizeOfDegree2 K) 0 vals

/-- The derivative factor read from the power table: `(e == 0) ? 0 : e * powx(e-1)`. -/
def rdDfac (t : List R) (e : Nat) : Outcome R :=
  if e = 0 then .ok 0 else (rd t (e - 1)).bind fun v => .ok ((e : R) * v)

/-- `grad` of the new 2D cell basis, `bases/bases_new.hpp:363-394`; row = `tmp_gradᵀ * tr`. -/
def newGrad2 (K : Nat) (tr : Matrix (Fin 2) (Fin 2) R) (bar pt : Fin 2 → R) :
    Outcome (List (Fin 2 → R)) :=
  let ep := scalingPoint tr bar pt
  (powTable (sizeOfDegree2 K) (ep 0) K).bind fun powx =>
  (powTable (sizeOfDegree2 K) (ep 1) K).bind fun powy =>
  (seqAll ((exps2 K).map fun e =>
    (rd powx e.1).bind fun px => (rd powy e.2).bind fun py =>
    (rdDfac powx e.1).bind fun dx => (rdDfac powy e.2).bind fun dy =>
    .ok (![dx * py, px * dy] ᵥ* tr))).bind fun vals => fillVec (sizeOfDegree2 K) 0 vals

/-- `operator()` of the new 3D cell basis, `bases/bases_new.hpp:563-592`. -/
def newEval3 (K : Nat) (tr : Matrix (Fin 3) (Fin 3) R) (bar pt : Fin 3 → R) : Outcome (List R) :=
  let ep := scalingPoint tr bar pt
  (powTable (sizeOfDegree3 K) (ep 0) K).bind fun powx =>
  (powTable (sizeOfDegree3 K) (ep 1) K).bind fun powy =>
  (powTable (sizeOfDegree3 K) (ep 2) K).bind fun powz =>
  (seqAll ((exps3 K).map fun e => (rd powx e.1).bind fun a => (rd powy e.2.1).bind fun b =>
    (rd powz e.2.2).bind fun c => .ok (a * b * c))).bind fun vals => fillVec (sizeOfDegree3 K) 0 vals

/-- `grad` of the new 3D cell basis, `bases/bases_new.hpp:594-647`. -/
def newGrad3 (K : Nat) (tr : Matrix (Fin 3) (Fin 3) R) (bar pt : Fin 3 → R) :
    Outcome (List (Fin 3 → R)) :=
  let ep := scalingPoint tr bar pt
  (powTable (sizeOfDegree3 K) (ep 0) K).bind fun powx =>
  (powTable (sizeOfDegree3 K) (ep 1) K).bind fun powy =>
  (powTable (sizeOfDegree3 K) (ep 2) K).bind fun powz =>
  (seqAll ((exps3 K).map fun e =>
    (rd powx e.1).bind fun px => (rd powy e.2.1).bind fun py => (rd powz e.2.2).bind fun pz =>
    (rdDfac powx e.1).bind fun dx => (rdDfac powy e.2.1).bind fun dy =>
    (rdDfac powz e.2.2).bind fun dz =>
    .ok (![dx * py * pz, dy * px * pz, dz * px * py] ᵥ* tr))).bind fun vals =>
      fillVec (sizeOfDegree3 K) 0 vals

end

section
variable {R : Type} [Field R]

/-- `eval_functions` of the 1D cell basis, `bases/bases_scalar.hpp:107-119`: `ret(0) = 1`, then
`ret(k) = ret(k-1) * bp` for `1 ≤ k < degree + 1`. -/
def eval1 (K : Nat) (bar h pt : R) : Outcome (List R) :=
  powTable (K + 1) (2 * (pt - bar) / h) K

/-- `eval_gradients` of the 1D cell basis, `bases/bases_scalar.hpp:121-132`. -/
def grad1 (K : Nat) (bar h pt : R) : List R :=
  (List.range (K + 1)).map fun (k : Nat) =>
    if k = 0 then 0 else (2 * (k : R) / h) * iexpPow (2 * (pt - bar) / h) (k - 1)

/-- `operator()` of the new 1D cell basis, `bases/bases_new.hpp:105-110,133-143`; `pb` is the second
end point. -/
def newEval1 (K : Nat) (pb bar h scale pt : R) : Outcome (List R) :=
  powTable (sizeOfDegree1 K) ((pb - bar) * (pt - bar) / ((h / scale) * (h / scale))) K

/-- Loop of `grad` of the new 1D basis, `bases/bases_new.hpp:157-168`: `ret(0) = 0`,
`ret(1) = scale/h`, `ret(k) = ret(k-1)*k*x/(k-1)` for `2 ≤ k ≤ degree`; the argument counts the
entries written. `ret(1)` is written for every degree. -/
def newGrad1Loop (size : Nat) (x s : R) : Nat → Outcome (List R)
  | 0 => if 1 < size then .ok (((List.replicate size 0).set 0 0).set 1 s)
         else .ub "write out of range"
  | n + 1 => (newGrad1Loop size x s n).bind fun t =>
      match t[n + 1]? with
      | none => .ub "read out of range"
      | some v => if n + 2 < t.length then
          .ok (t.set (n + 2) (v * ((n + 2 : Nat) : R) * x / ((n + 1 : Nat) : R)))
        else .ub "write out of range"

/-- `grad` of the new 1D basis, see `newGrad1Loop`. -/
def newGrad1 (K : Nat) (pb bar h scale pt : R) : Outcome (List R) :=
  newGrad1Loop (sizeOfDegree1 K) ((pb - bar) * (pt - bar) / ((h / scale) * (h / scale)))
    (scale / h) (K - 1)

end

section
variable {R : Type} [CommRing R]

/-- Vector basis from scalar values, layout `ret(d*i + c, c) = phi(i)`,
`bases/bases_vector.hpp:127-142` (3D) and the 2D counterpart. -/
def vecRows (d : Nat) (phi : List R) : List (Fin d → R) :=
  phi.flatMap fun v => (List.finRange d).map fun c => Pi.single c v

/-- `scalar_basis_size` in 64-bit `size_t` arithmetic for d = 2 (`bases/bases_scalar.hpp:42-55`). -/
def scalarBasisSize64_2 (k : Nat) : Nat :=
  (((1 * (k + 1)) % 2 ^ 64) * ((k + 2) % 2 ^ 64) % 2 ^ 64) / 2

/-- The second part of the Raviart-Thomas functions: a zero-initialised list of `basisSize` rows whose
head is the vector basis, then `ret(offset + i - beg) = b * phi(i)` for `beg ≤ i < scalar size`. -/
def rtFill {d : Nat} (basisSize beg : Nat) (b : Fin d → R) (phi : List R) :
    Outcome (List (Fin d → R)) :=
  (writeAll (List.replicate basisSize 0) 0 (vecRows d phi)).bind fun r =>
  (writeAll r.1 r.2 ((phi.drop beg).map fun v => v • b)).bind fun r => .ok r.1

/-- `eval_functions` of the 3D Raviart-Thomas basis, `bases/bases_vector.hpp:887-914`; degree `K ≥ 1`,
scalar basis of degree `K - 1`. -/
def rtEval3 (K : Nat) (P : Matrix (Fin 3) (Fin 3) R) (bar pt : Fin 3 → R) :
    Outcome (List (Fin 3 → R)) :=
  (vectorBasisSizeRT K 3 3).bind fun basisSize =>
  (eval3 (K - 1) P bar pt).bind fun phi =>
  let deg := if K > 2 then K - 2 else 0
  rtFill basisSize (scalarBasisSize deg 3) (pt - bar) phi

/-- `eval_functions` of the 2D Raviart-Thomas basis, `bases/bases_vector.hpp:993-1018`: here
`scalar_basis_size(basis_degree - 2, 2)` is used, with `size_t` wrap-around for degree 1. -/
def rtEval2 (K : Nat) (P : Matrix (Fin 2) (Fin 2) R) (bar pt : Fin 2 → R) :
    Outcome (List (Fin 2 → R)) :=
  (vectorBasisSizeRT K 2 2).bind fun basisSize =>
  (eval2 (K - 1) P bar pt).bind fun phi =>
  rtFill basisSize (scalarBasisSize64_2 ((K + 2 ^ 64 - 2) % 2 ^ 64)) (pt - bar) phi

end
end Verif.Bases
