import Verif.Model.PoissonApp
/-!
What the scriptable Poisson solver is expected to do, in terms of the mesh, of the Lua tables and of the
data of the problem; no function of the model is used except the data types.
-/
namespace Verif.Spec
open Verif.PoissonApp Matrix

/-- The script asks for a strong (Dirichlet) condition on the face: the face is marked in the mesh and
its tag has the type "dirichlet", or it has no type and the face is on the outside. -/
def WantsStrong {K : Type} (L : LuaBnd K) (f : FaceInfo) : Prop :=
  f.isB = true ∧ (L.type f.tag = some "dirichlet" ∨ (L.type f.tag = none ∧ f.isInt = false))

/-- The tables number the faces of the system from 0 and are inverse of each other. -/
structure TablesMatch (sys : List Bool) (t : Tables) : Prop where
  len : t.compress.length = sys.length
  out : ∀ i : Nat, sys[i]? = some false → t.compress[i]? = some none
  inn : ∀ i : Nat, sys[i]? = some true →
    ∃ k, t.compress[i]? = some (some k) ∧ t.expand[k]? = some i
  exp : ∀ k i : Nat, t.expand[k]? = some i → sys[i]? = some true ∧ t.compress[i]? = some (some k)

variable {K : Type} [Field K] {nT nF cb fbs : Nat}

/-- The face carries a strong condition, in terms of its descriptor. -/
def StrongFace (P : Prob K nT nF cb fbs) (F : Fin nF) : Prop :=
  P.isB F = true ∧ ((P.bc F).kind = .dirichlet ∨ ((P.bc F).kind = .undefined ∧ (P.bc F).internal = false))

/-- Descriptors as `collect_boundary_info` makes them: a condition only on a marked face. -/
def MarkedOnly (P : Prob K nT nF cb fbs) : Prop :=
  ∀ F, P.isB F = false → (P.bc F).kind = .notABoundary

/-- Unknowns of a cell when the jump data `g` is paSeen by the cells for which `src` holds. -/
def paSeen (E : Elem K nF cb fbs) (src : Prop) [Decidable src] (g : Fin nF → Fin fbs → K)
    (uT : Fin cb → K) (uF : Fin nF → Fin fbs → K) : Fin cb ⊕ Fin E.nfc × Fin fbs → K :=
  Sum.elim uT (fun q => uF (E.face q.1) q.2 + if src then g (E.face q.1) q.2 else 0)

/-- Robin term of a face row. -/
def paRobin (P : Prob K nT nF cb fbs) (E : Elem K nF cb fbs) (v : Fin cb ⊕ Fin E.nfc × Fin fbs → K)
    (fi : Fin E.nfc) (i : Fin fbs) : K :=
  if (P.bc (E.face fi)).kind = .robin then
    (P.bc (E.face fi)).value.getD (E.nDn fi) * ∑ j, E.mass fi i j * v (.inr (fi, j)) else 0

/-- Data in a face row. -/
def paFlux (P : Prob K nT nF cb fbs) (E : Elem K nF cb fbs) (fi : Fin E.nfc) (i : Fin fbs) : K :=
  if (P.bc (E.face fi)).kind = .neumann ∨ (P.bc (E.face fi)).kind = .jump then E.neu fi i else 0

/-- The jump data: the projection of the Dirichlet data on the jump faces. -/
def paJump (P : Prob K nT nF cb fbs) (F : Fin nF) (i : Fin fbs) : K :=
  if (P.bc F).kind = .jump then P.dir F i else 0

/-- The discrete problem: strong faces carry their data, the cell rows hold in every cell and the face
rows, summed over the cells, hold on the other faces; the cells of `src` see the trace shifted by the
jump `g`. -/
structure PoissonAppSol (P : Prob K nT nF cb fbs) (src : Fin nT → Prop) [DecidablePred src]
    (g : Fin nF → Fin fbs → K) (uT : Fin nT → Fin cb → K) (uF : Fin nF → Fin fbs → K) : Prop where
  strong : ∀ F, StrongFace P F → ∀ i,
    uF F i = if (P.bc F).kind = .dirichlet then P.dir F i else 0
  cell : ∀ T i, ((P.elem T).A *ᵥ paSeen (P.elem T) (src T) g (uT T) uF) (.inl i) = (P.elem T).load i
  face : ∀ F, ¬ StrongFace P F → ∀ i,
    ∑ T, ∑ fi : Fin (P.elem T).nfc, (if (P.elem T).face fi = F then
      ((P.elem T).A *ᵥ paSeen (P.elem T) (src T) g (uT T) uF) (.inr (fi, i))
        + paRobin P (P.elem T) (paSeen (P.elem T) (src T) g (uT T) uF) fi i
        - paFlux P (P.elem T) fi i else 0) = 0

end Verif.Spec
