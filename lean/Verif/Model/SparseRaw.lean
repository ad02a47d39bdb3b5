import Verif.Model.Outcome
/-!
Raw view of an Eigen sparse matrix, `common/eigen.hpp:81-152` (`eigen_sparse_raw`).

The matrix is compressed, so the outer index array has one entry more than the outer size and the inner
index array one entry per stored value. Indices are unbounded integers (the `int` overflow at 2^31-1 is
not modelled). The values are never touched.
-/
namespace Verif.SparseRaw

/-- Index arrays of a compressed matrix and its number of rows. -/
structure Sparse where
  rows : Nat
  outer : List Int
  inner : List Int
  deriving Repr, DecidableEq

/-- The view: it points into the matrix, whose arrays are kept here. -/
structure View where
  oneBased : Bool
  restored : Bool
  n : Nat
  nnz : Nat
  deriving Repr, DecidableEq

/-- `for (i = 0; i < n; i++) v[i] += d`. -/
def addTo (d : Int) : Nat → List Int → Outcome (List Int)
  | 0, v => .ok v
  | _ + 1, [] => .ub "write past the end of an index array"
  | n + 1, x :: xs => (addTo d n xs).bind fun r => .ok ((x + d) :: r)

/-- Constructor, `common/eigen.hpp:93-113`. -/
def construct (A : Sparse) (oneBased : Bool) : Outcome (Sparse × View) :=
  if oneBased then
    (addTo 1 (A.rows + 1) A.outer).bind fun o => (addTo 1 A.inner.length A.inner).bind fun i =>
      .ok (⟨A.rows, o, i⟩, ⟨true, false, A.rows, A.inner.length⟩)
  else .ok (A, ⟨false, false, A.rows, A.inner.length⟩)

/-- `restore()`, `common/eigen.hpp:115-127`. -/
def restore (A : Sparse) (v : View) : Outcome (Sparse × View) :=
  if !v.oneBased || v.restored then .ok (A, v)
  else
    (addTo (-1) (v.n + 1) A.outer).bind fun o => (addTo (-1) v.nnz A.inner).bind fun i =>
      .ok (⟨A.rows, o, i⟩, { v with restored := true })

/-- Destructor, `common/eigen.hpp:147-151`. -/
def destroy (A : Sparse) (v : View) : Outcome Sparse :=
  if v.oneBased && !v.restored then (restore A v).bind fun r => .ok r.1 else .ok A

/-- `k` calls of `restore()`. -/
def restoreN : Nat → Sparse → View → Outcome (Sparse × View)
  | 0, A, v => .ok (A, v)
  | k + 1, A, v => (restore A v).bind fun r => restoreN k r.1 r.2

end Verif.SparseRaw
