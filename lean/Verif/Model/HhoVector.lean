import Verif.Model.HhoLocal
/-!
Gradient, divergence and symmetric gradient reconstructions of the HHO methods.
`methods/implementation_hho/vector_hho_gradrec.hpp`, `scalar_hho_divrec.hpp`, `matrix_hho_gradrec.hpp`,
`bases/bases_vector.hpp`, `bases/bases_matrix.hpp`.

Same conventions as `Model/HhoLocal.lean`. The vector and matrix bases of the code are built from the scalar basis
of the element; so they are here. The Raviart-Thomas variants are not modelled.
-/
namespace Verif.Hho
open Finset LocalMatrix

variable {K P : Type} [Field K]

/-- `qps` loop `M.block(0, off, nr, nc) += qp.weight() * ker(qp.point())`. -/
def kerAdd (qs : List (QP P K)) (off nr nc : Nat) (ker : P → Nat → Nat → K) (M : Mat K) : Mat K :=
  qs.foldl (fun M q => addBlock M 0 off nr nc fun i j => q.w * ker q.pt i j) M

/-- `qps` loop `M.block(0, off, nr, nc) -= qp.weight() * ker(qp.point())`. -/
def kerSub (qs : List (QP P K)) (off nr nc : Nat) (ker : P → Nat → Nat → K) (M : Mat K) : Mat K :=
  qs.foldl (fun M q => subBlock M 0 off nr nc fun i j => q.w * ker q.pt i j) M

/-- `scaled_monomial_vector_basis::eval_functions`, `bases/bases_vector.hpp:122-137` (3D), `:622-636` (2D) and the
face versions: function `d * i + k` is the scalar function `i` times the unit vector `k`. -/
def vecFn (d : Nat) (b : Basis P K) (x : P) (j c : Nat) : K := if c = j % d then b.fn x (j / d) else 0

/-- `eval_divergences`, `bases/bases_vector.hpp:260-275` (3D), `:708-722` (2D). -/
def vecDiv (d : Nat) (b : Basis P K) (x : P) (j : Nat) : K := b.grad x (j / d) (j % d)

/-- `eval_sgradients`, `bases/bases_vector.hpp:169-197` (3D), `:664-688` (2D): `0.5 * (g + g.transpose())` where row
`j % d` of `g` is the gradient of the scalar function. -/
def vecSGrad (d : Nat) (b : Basis P K) (x : P) (j a c : Nat) : K :=
  1 / 2 * ((if a = j % d then b.grad x (j / d) c else 0) + (if c = j % d then b.grad x (j / d) a else 0))

/-! ### Gradient of scalar unknowns -/

/-- `make_mass_matrix(msh, cl, gb)` for the vector basis, `bases/bases_utils.hpp:208-232`. -/
def gradLhs (d gd : Nat) (cell : Elem P K) : Mat K :=
  accumDot d (cell.integrate (2 * gd)) (vecFn d (cell.basis gd)) (vecFn d (cell.basis gd))

/-- Face loop of `make_vector_hho_gradrec_impl`, `vector_hho_gradrec.hpp:83-108`. -/
def gradFaces (d gd : Nat) (gb : Basis P K) : List (InfoFace P K) → Nat → Mat K → Mat K
  | [], _, M => M
  | (_, none) :: fs, off, M => gradFaces d gd gb fs off M
  | (fc, some k) :: fs, off, M =>
    let fb := fc.basis k
    gradFaces d gd gb fs (off + fb.size)
      (kerAdd (fc.integrate (gd + k)) off (d * gb.size) fb.size
        (fun x i j => dot d (vecFn d gb x i) fc.normal * fb.fn x j) M)

/-- `gr_rhs` of `make_vector_hho_gradrec_impl`, `vector_hho_gradrec.hpp:66-108`. -/
def gradRhs (d gd cd : Nat) (cell : Elem P K) (faces : List (InfoFace P K)) : Mat K :=
  let gb := cell.basis gd
  let cb := cell.basis cd
  gradFaces d gd gb faces cb.size
    (if gd > 0 then
      kerSub (cell.integrate (cd + gd - 1)) 0 (d * gb.size) cb.size (fun x i j => vecDiv d gb x i * cb.fn x j) zero
    else zero)

/-- `make_vector_hho_gradrec(msh, cl, cell_infos)`, `vector_hho_gradrec.hpp:43-114`, `:163-197`. -/
def gradrec (d gd cd : Nat) (S : Solver K) (cell : Elem P K) (faces : List (InfoFace P K)) : Mat K × Mat K :=
  operData S (d * (cell.basis gd).size) (gradLhs d gd cell) (gradRhs d gd cd cell faces)

/-- `make_vector_hho_gradrec(msh, cl, di)`, `vector_hho_gradrec.hpp:134-144`: every face has unknowns of the face
degree. -/
def gradrecUniform (d gd cd fd : Nat) (S : Solver K) (cell : Elem P K) (faces : List (Face P K)) : Mat K × Mat K :=
  gradrec d gd cd S cell (faces.map fun f => (f, some fd))

/-- `make_mass_matrix(msh, cl, gb, mfield)`, `bases/bases_utils.hpp:237-261`. -/
def fieldMass (d gd : Nat) (field : P → Mat K) (cell : Elem P K) : Mat K :=
  accumDot d (cell.integrate (2 * gd)) (vecFn d (cell.basis gd))
    (fun x j c => ∑ e ∈ range d, field x c e * vecFn d (cell.basis gd) x j e)

/-- `make_vector_hho_gradrec(msh, cl, msh_infos, mfield)`, `vector_hho_gradrec.hpp:218-234`, `:255-272`. -/
def gradrecField (d gd cd : Nat) (field : P → Mat K) (S : Solver K) (cell : Elem P K) (faces : List (InfoFace P K)) :
    Mat K × Mat K :=
  let oper := (gradrec d gd cd S cell faces).1
  let n := d * (cell.basis gd).size
  (oper, mul n (mul n (tpose oper) (fieldMass d gd field cell)) oper)

/-! ### Divergence of vector unknowns -/

/-- Face loop of `make_hho_divergence_reconstruction_rhs`, `scalar_hho_divrec.hpp:115-142`. -/
def divFaces (d rd : Nat) (rb : Basis P K) : List (InfoFace P K) → Nat → Mat K → Mat K
  | [], _, M => M
  | (_, none) :: fs, off, M => divFaces d rd rb fs off M
  | (fc, some k) :: fs, off, M =>
    let fb := fc.basis k
    divFaces d rd rb fs (off + d * fb.size)
      (kerAdd (fc.integrate (k + rd)) off rb.size (d * fb.size)
        (fun x i j => rb.fn x i * dot d (vecFn d fb x j) fc.normal) M)

/-- `make_hho_divergence_reconstruction_rhs`, `scalar_hho_divrec.hpp:79-145`. -/
def divRhs (d rd cd : Nat) (cell : Elem P K) (faces : List (InfoFace P K)) : Mat K :=
  let rb := cell.basis rd
  let cb := cell.basis cd
  divFaces d rd rb faces (d * cb.size)
    (if rd > 0 then
      kerSub (cell.integrate (cd + rd - 1)) 0 rb.size (d * cb.size)
        (fun x i j => dot d (rb.grad x i) (vecFn d cb x j)) zero
    else zero)

/-- `make_hho_divergence_reconstruction`, `scalar_hho_divrec.hpp:50-68`. -/
def divrec (d rd cd : Nat) (S : Solver K) (cell : Elem P K) (faces : List (InfoFace P K)) : Mat K × Mat K :=
  operData S (cell.basis rd).size (mass cell rd (cell.basis rd)) (divRhs d rd cd cell faces)

/-! ### Symmetric gradient of vector unknowns -/

/-- Index pairs of the symmetric tensors pushed for each scalar function, `bases/bases_matrix.hpp:330-343`,
`:410-423`: `for j, (for i < j: off-diagonal (i, j)), diagonal (j, j)`. -/
def symPairs (d : Nat) : List (Nat × Nat) :=
  (List.range d).flatMap fun j => (List.range j).map (fun i => (i, j)) ++ [(j, j)]

/-- The tensor pushed for a pair; `r` is `invrac2 = 1 / sqrt(2)`. -/
def symTensor (r : K) (p : Nat × Nat) (a b : Nat) : K :=
  if p.1 = p.2 then (if a = p.1 ∧ b = p.1 then 1 else 0)
  else if (a = p.1 ∧ b = p.2) ∨ (a = p.2 ∧ b = p.1) then r else 0

/-- `sym_matrix_basis_size` for degree 0, `bases/bases_matrix.hpp:230-245`; also `dec`, `matrix_hho_gradrec.hpp:71-77`. -/
def symCount (d : Nat) : Nat := if d = 3 then 6 else if d = 2 then 3 else 0

/-- `scaled_monomial_sym_matrix_basis::eval_functions`, `bases/bases_matrix.hpp:317-348`, `:397-428`. -/
def symFn (d : Nat) (r : K) (b : Basis P K) (x : P) (i a c : Nat) : K :=
  symTensor r ((symPairs d).getD (i % symCount d) (0, 0)) a c * b.fn x (i / symCount d)

/-- `priv::inner_product` of two square matrices: the sum of the products of the entries. -/
def frob (d : Nat) (A B : Nat → Nat → K) : K := ∑ a ∈ range d, ∑ b ∈ range d, A a b * B a b

/-- The loops filling the lower part of `gr_lhs`, `matrix_hho_gradrec.hpp:79-89`: column `j`, rows `j, j + dec, …`. -/
def symLower (d gd : Nat) (r : K) (cell : Elem P K) : Mat K :=
  let gb := symFn d r (cell.basis gd)
  let gbs := symCount d * (cell.basis gd).size
  (cell.integrate (2 * gd)).foldl (fun M q => fun i j =>
    if j ≤ i ∧ i < gbs ∧ (i - j) % symCount d = 0 then M i j + frob d (gb q.pt i) (fun a b => q.w * gb q.pt j a b)
    else M i j) zero

/-- `gr_lhs`, `matrix_hho_gradrec.hpp:65-94`: the upper part is copied from the lower one. -/
def symLhs (d gd : Nat) (r : K) (cell : Elem P K) : Mat K :=
  fun i j => if i < j then symLower d gd r cell j i else symLower d gd r cell i j

/-- `priv::inner_product(gphi, n)`: matrix times vector. -/
def tensN (d : Nat) (A : Nat → Nat → K) (n : Nat → K) (a : Nat) : K := ∑ b ∈ range d, A a b * n b

/-- Face loop of `make_matrix_hho_symmetric_gradrec`, `matrix_hho_gradrec.hpp:111-138`. -/
def symFaces (d gd cd : Nat) (r : K) (cell : Elem P K) : List (InfoFace P K) → Nat → Mat K → Mat K
  | [], _, M => M
  | (_, none) :: fs, off, M => symFaces d gd cd r cell fs off M
  | (fc, some k) :: fs, off, M =>
    let fb := fc.basis k
    let cb := cell.basis cd
    let gbs := symCount d * (cell.basis gd).size
    let gn := fun x i => tensN d (symFn d r (cell.basis gd) x i) fc.normal
    symFaces d gd cd r cell fs (off + d * fb.size)
      ((fc.integrate (gd + max cd k)).foldl (fun M q =>
        subBlock
          (addBlock M 0 off gbs (d * fb.size) fun i j => q.w * dot d (gn q.pt i) (vecFn d fb q.pt j))
          0 0 gbs (d * cb.size) fun i j => q.w * dot d (gn q.pt i) (vecFn d cb q.pt j)) M)

/-- `gr_rhs`, `matrix_hho_gradrec.hpp:66-138`. -/
def symRhs (d gd cd : Nat) (r : K) (cell : Elem P K) (faces : List (InfoFace P K)) : Mat K :=
  let cb := cell.basis cd
  symFaces d gd cd r cell faces (d * cb.size)
    (if cd > 0 then
      kerAdd (cell.integrate (gd + cd - 1)) 0 (symCount d * (cell.basis gd).size) (d * cb.size)
        (fun x i j => frob d (symFn d r (cell.basis gd) x i) (vecSGrad d cb x j)) zero
    else zero)

/-- `make_matrix_hho_symmetric_gradrec(msh, cl, cell_infos)`, `matrix_hho_gradrec.hpp:42-144`. -/
def symGradrec (d gd cd : Nat) (r : K) (S : Solver K) (cell : Elem P K) (faces : List (InfoFace P K)) :
    Mat K × Mat K :=
  operData S (symCount d * (cell.basis gd).size) (symLhs d gd r cell) (symRhs d gd cd r cell faces)

end Verif.Hho
