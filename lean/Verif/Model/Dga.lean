import Verif.Model.Outcome
import Verif.Model.Simplex
/-!
The discrete geometric approach on tetrahedra: `methods/implementation_dga/methods_dga.hpp`, and the local systems and the
field recovery of `apps/diffusion/src/diffusion_dga.cpp` and `apps/maxwell/src/maxwell_dga.cpp`.

A tetrahedron is the array of its four points in the order of their identifiers: `simplicial_element` sorts them, so that
`edges`, `faces` and `points` enumerate the same points in the same order. Coordinates are exact. The divisions by the
volume and by the norm of a normal are those of a field; the theorems assume a volume different from zero.
`integrate_on_primal_faces` (lines 462-492) indexes a vector of three entries with 3 and returns it as one of four, and the
`integrate_on_*` functions of a surface call functions that do not exist: none of them can be instantiated, and they are
left out.
-/
namespace Verif.Dga
open Verif.Spec Verif.Simplex

variable {K : Type} [Field K] [LinearOrder K] [IsStrictOrderedRing K]

/-- `v * s`. -/
def smul (s : K) (v : P3 K) : P3 K := ⟨s * v.x, s * v.y, s * v.z⟩
/-- `v + w`. -/
def add (v w : P3 K) : P3 K := ⟨v.x + w.x, v.y + w.y, v.z + w.z⟩

/-- `barycenter` of an edge, a triangle and a tetrahedron, `geometry/geometry_all.hpp:118-126`. -/
def bar2 (a b : P3 K) : P3 K := smul (1 / 2) (add a b)
/-- See `bar2`. -/
def bar3 (a b c : P3 K) : P3 K := smul (1 / 3) (add (add a b) c)
/-- See `bar2`. -/
def bar4 (p : Fin 4 → P3 K) : P3 K := smul (1 / 4) (add (add (add (p 0) (p 1)) (p 2)) (p 3))

/-- `volume_signed`, lines 91-104. -/
def volSigned (p : Fin 4 → P3 K) : K := dot (sub (p 1) (p 0)) (cross (sub (p 2) (p 0)) (sub (p 3) (p 0))) / 6
/-- `volume_unsigned`, lines 106-119. -/
def volUnsigned (p : Fin 4 → P3 K) : K := |dot (sub (p 1) (p 0)) (cross (sub (p 2) (p 0)) (sub (p 3) (p 0))) / 6|

/-- `edges(msh, vol)`, lines 143-162, by the numbers of the points. -/
def edge : Fin 6 → Fin 4 × Fin 4 := ![(0, 1), (0, 2), (0, 3), (1, 2), (1, 3), (2, 3)]
/-- `edges(msh, surf)`, lines 125-141. -/
def surfEdge : Fin 3 → Fin 3 × Fin 3 := ![(0, 1), (0, 2), (1, 2)]
/-- `faces(msh, cl)`, `geometry/geometry_simplicial.hpp:140-157`. -/
def face : Fin 4 → Fin 3 → Fin 4 := ![![1, 2, 3], ![0, 2, 3], ![0, 1, 3], ![0, 1, 2]]

/-- `barycenter(mesh, edgs[i])`. -/
def edgeBar (p : Fin 4 → P3 K) (i : Fin 6) : P3 K := bar2 (p (edge i).1) (p (edge i).2)
/-- `barycenter(mesh, fcs[i])`. -/
def faceBar (p : Fin 4 → P3 K) (i : Fin 4) : P3 K := bar3 (p (face i 0)) (p (face i 1)) (p (face i 2))

/-- `primal_edge_vectors(mesh, surf)`, lines 237-252. -/
def pevSurf (t : Fin 3 → P3 K) : Fin 3 → P3 K := ![sub (t 1) (t 0), sub (t 2) (t 0), sub (t 2) (t 1)]
/-- `primal_edge_vectors(mesh, vol)`, lines 254-272. -/
def pev (p : Fin 4 → P3 K) : Fin 6 → P3 K :=
  ![sub (p 1) (p 0), sub (p 2) (p 0), sub (p 3) (p 0), sub (p 2) (p 1), sub (p 3) (p 1), sub (p 3) (p 2)]

/-- `primal_edge_vectors(mesh, edgs[i])`, lines 226-235. -/
def edgeVec (p : Fin 4 → P3 K) (i : Fin 6) : P3 K := sub (p (edge i).2) (p (edge i).1)
/-- `primal_area_vectors(mesh, vol)`, lines 276-300. -/
def pav (p : Fin 4 → P3 K) : Fin 4 → P3 K :=
  ![smul (1 / 2) (cross (edgeVec p 3) (edgeVec p 4)), smul (1 / 2) (cross (edgeVec p 1) (edgeVec p 2)),
    smul (1 / 2) (cross (edgeVec p 0) (edgeVec p 2)), smul (1 / 2) (cross (edgeVec p 0) (edgeVec p 1))]

/-- The number of the face, lines 314-321: every test that succeeds overwrites it. -/
def faceNumber (ids : Fin 4 → Nat) (t : Fin 3 → Nat) : Nat :=
  let is (k : Fin 4) : Bool := ids (face k 0) == t 0 && ids (face k 1) == t 1 && ids (face k 2) == t 2
  if is 3 then 3 else if is 2 then 2 else if is 1 then 1 else if is 0 then 0 else 42

/-- `dual_edge_vectors(mesh, t, parent_vol)`, lines 304-341, for identifiers of points and a table of points. -/
def devSurf (pt : Nat → P3 K) (ids : Fin 4 → Nat) (t : Fin 3 → Nat) : Outcome (Fin 3 → P3 K) :=
  let negative : Bool := decide (volSigned (fun i => pt (ids i)) < 0)
  let f := faceNumber ids t
  if f = 42 then .throws "The specified volume does not have the specified face"
  else
    let P := !negative && (f == 0 || f == 2)
    let Q := negative && (f == 1 || f == 3)
    let sign : K := if P || Q then 1 else -1
    let fb := bar3 (pt (t 0)) (pt (t 1)) (pt (t 2))
    let eb (i : Fin 3) := bar2 (pt (t (surfEdge i).1)) (pt (t (surfEdge i).2))
    .ok ![smul sign (sub fb (eb 0)), smul sign (sub fb (eb 1)), smul sign (smul (-1) (sub fb (eb 2)))]

/-- `dual_edge_vectors(mesh, vol)`, lines 364-387. -/
def dev (p : Fin 4 → P3 K) : Fin 4 → P3 K :=
  let sign : K := if volSigned p < 0 then -1 else 1
  ![smul sign (sub (faceBar p 0) (bar4 p)), smul sign (sub (bar4 p) (faceBar p 1)),
    smul sign (sub (faceBar p 2) (bar4 p)), smul sign (sub (bar4 p) (faceBar p 3))]

/-- `dual_area_vectors(mesh, vol)`, lines 391-424. -/
def dav (p : Fin 4 → P3 K) : Fin 6 → P3 K :=
  let sign : K := if volSigned p < 0 then -1 / 2 else 1 / 2
  let vb := bar4 p
  let fb := faceBar p
  let eb := edgeBar p
  ![smul sign (cross (sub vb (eb 0)) (sub (fb 2) (fb 3))), smul sign (cross (sub vb (eb 1)) (sub (fb 3) (fb 1))),
    smul sign (cross (sub vb (eb 2)) (sub (fb 1) (fb 2))), smul sign (cross (sub vb (eb 3)) (sub (fb 0) (fb 3))),
    smul sign (cross (sub vb (eb 4)) (sub (fb 2) (fb 0))), smul sign (cross (sub vb (eb 5)) (sub (fb 0) (fb 1)))]

/-- `integrate_on_primal_edges(mesh, vol, vecf)`, lines 444-458. -/
def onPrimalEdges (p : Fin 4 → P3 K) (f : P3 K) (i : Fin 6) : K := dot f (pev p i)
/-- `integrate_on_dual_edges(mesh, vol, vecf)`, lines 512-526. -/
def onDualEdges (p : Fin 4 → P3 K) (f : P3 K) (i : Fin 4) : K := dot f (dev p i)
/-- `integrate_on_dual_faces(mesh, vol, vecf)`, lines 546-560. -/
def onDualFaces (p : Fin 4 → P3 K) (f : P3 K) (i : Fin 6) : K := dot f (dav p i)

/-- `v / v.norm()`. -/
noncomputable def unit (v : P3 ℝ) : P3 ℝ := ⟨v.x / norm v, v.y / norm v, v.z / norm v⟩

/-- `normals(mesh, t)` of a surface, lines 566-586. -/
noncomputable def normalsSurf (t : Fin 3 → P3 ℝ) : Fin 3 → P3 ℝ :=
  let e := pevSurf t
  let n := cross (e 0) (e 2)
  ![unit (cross (e 0) n), unit (cross (e 1) n), unit (smul (-1) (cross (e 2) n))]

/-- `normals(mesh, t)` of a volume, lines 588-613. -/
noncomputable def normals (p : Fin 4 → P3 ℝ) : Fin 4 → P3 ℝ :=
  if 0 < volSigned p then
    ![unit (pav p 0), smul (-1) (unit (pav p 1)), unit (pav p 2), smul (-1) (unit (pav p 3))]
  else ![smul (-1) (unit (pav p 0)), unit (pav p 1), smul (-1) (unit (pav p 2)), unit (pav p 3)]

/-- `grad_matrix`, lines 633-646. -/
def grad : Fin 6 → Fin 4 → K :=
  ![![-1, 1, 0, 0], ![-1, 0, 1, 0], ![-1, 0, 0, 1], ![0, -1, 1, 0], ![0, -1, 0, 1], ![0, 0, -1, 1]]

/-- `curl_matrix`, lines 648-659. -/
def curl : Fin 4 → Fin 6 → K :=
  ![![0, 0, 0, 1, -1, 1], ![0, 1, -1, 0, 0, 1], ![1, 0, -1, 0, 1, 0], ![1, -1, 0, 1, 0, 0]]

/-- `edge_matrix_simplicial_element`, lines 666-717, column by column. -/
def edgeElement (a P : Fin 4 → P3 K) : Fin 6 → Fin 6 → K :=
  let c0 : Fin 6 → K := ![dot (a 0) (P 0) + dot (a 1) (P 1), -dot (a 1) (P 2), dot (a 1) (P 3), -dot (a 0) (P 2),
    dot (a 0) (P 3), 0]
  let c1 : Fin 6 → K := ![c0 1, dot (a 0) (P 0) + dot (a 2) (P 2), -dot (a 2) (P 3), -dot (a 0) (P 1), 0,
    dot (a 0) (P 3)]
  let c2 : Fin 6 → K := ![c0 2, c1 2, dot (a 0) (P 0) + dot (a 3) (P 3), 0, -dot (a 0) (P 1), dot (a 0) (P 2)]
  let c3 : Fin 6 → K := ![c0 3, c1 3, 0, dot (a 1) (P 1) + dot (a 2) (P 2), -dot (a 2) (P 3), -dot (a 1) (P 3)]
  let c4 : Fin 6 → K := ![c0 4, 0, c2 4, c3 4, dot (a 1) (P 1) + dot (a 3) (P 3), -dot (a 1) (P 2)]
  let c5 : Fin 6 → K := ![0, c1 5, c2 5, c3 5, c4 5, dot (a 2) (P 2) + dot (a 3) (P 3)]
  fun i j => ![c0, c1, c2, c3, c4, c5] j i

/-- `face_matrix_simplicial_element`, lines 719-748. -/
def faceElement (e P : Fin 6 → P3 K) : Fin 4 → Fin 4 → K :=
  let c0 : Fin 4 → K := ![dot (e 0) (P 0) + dot (e 1) (P 1) + dot (e 2) (P 2), -dot (e 3) (P 1) - dot (e 4) (P 2),
    -dot (e 3) (P 0) + dot (e 5) (P 2), dot (e 4) (P 0) + dot (e 5) (P 1)]
  let c1 : Fin 4 → K := ![c0 1, dot (e 0) (P 0) + dot (e 3) (P 3) + dot (e 4) (P 4),
    -dot (e 1) (P 0) - dot (e 5) (P 4), dot (e 2) (P 0) - dot (e 3) (P 5)]
  let c2 : Fin 4 → K := ![c0 2, c1 2, dot (e 1) (P 1) + dot (e 3) (P 3) + dot (e 5) (P 5),
    -dot (e 2) (P 1) - dot (e 4) (P 3)]
  let c3 : Fin 4 → K := ![c0 3, c1 3, c2 3, dot (e 2) (P 2) + dot (e 4) (P 4) + dot (e 5) (P 5)]
  fun i j => ![c0, c1, c2, c3] j i

/-- A 3×3 matrix times a vector. -/
def mulVec (T : Fin 3 → P3 K) (v : P3 K) : P3 K := ⟨dot (T 0) v, dot (T 1) v, dot (T 2) v⟩

/-- `edge_matrix` with a scalar parameter, lines 752-766. -/
def edgeMatrix (p : Fin 4 → P3 K) (s : K) : Fin 6 → Fin 6 → K :=
  let mult := s / (36 * volUnsigned p)
  edgeElement (pav p) fun i => smul mult (pav p i)
/-- `edge_matrix` with a tensor, lines 769-783. -/
def edgeMatrixT (p : Fin 4 → P3 K) (T : Fin 3 → P3 K) : Fin 6 → Fin 6 → K :=
  let mult := fun i => smul (1 / (36 * volUnsigned p)) (T i)
  edgeElement (pav p) fun i => mulVec mult (pav p i)
/-- `face_matrix` with a scalar parameter, lines 785-799. -/
def faceMatrix (p : Fin 4 → P3 K) (s : K) : Fin 4 → Fin 4 → K :=
  let mult := s / (36 * volUnsigned p)
  faceElement (pev p) fun i => smul mult (pev p i)
/-- `face_matrix` with a tensor, lines 802-816. -/
def faceMatrixT (p : Fin 4 → P3 K) (T : Fin 3 → P3 K) : Fin 4 → Fin 4 → K :=
  let mult := fun i => smul (1 / (36 * volUnsigned p)) (T i)
  faceElement (pev p) fun i => mulVec mult (pev p i)

/-- A matrix times a vector. -/
def apply {m n : Nat} (M : Fin m → Fin n → K) (x : Fin n → K) (i : Fin m) : K := ∑ j, M i j * x j
/-- `A.transpose() * M * A`. -/
def congruence {m n : Nat} (A : Fin m → Fin n → K) (M : Fin m → Fin m → K) (i j : Fin n) : K :=
  ∑ k, ∑ l, A k i * M k l * A l j

/-- `G.transpose() * E * G`, `diffusion_dga.cpp:124-126`. -/
def laplace (p : Fin 4 → P3 K) : Fin 4 → Fin 4 → K := congruence grad (edgeMatrix p 1)
/-- `C.transpose() * Mf * C - omega*omega*Me`, `maxwell_dga.cpp:108-111`. -/
def maxwell (p : Fin 4 → P3 K) (eps nu omega : K) (i j : Fin 6) : K :=
  congruence curl (faceMatrix p nu) i j - omega * omega * edgeMatrix p eps i j

/-- `locfield`, `maxwell_dga.cpp:181-189`. -/
def field (p : Fin 4 → P3 K) (u : Fin 6 → K) : P3 K :=
  let a := pav p
  let vf := 12 * volSigned p
  let part (i j k : Fin 6) (f g h : Fin 4) : P3 K :=
    smul (1 / vf) (add (sub (smul (u i) (a f)) (smul (u j) (a g))) (smul (u k) (a h)))
  add (add (add (part 0 1 2 1 2 3) (part 0 3 4 0 2 3)) (part 1 3 5 0 1 3)) (part 2 4 5 0 1 2)

end Verif.Dga
