import Verif.Spec.VectorAsm
/-!
Spec of the Stokes system: unknowns (cells, faces, pressures, multiplier) and the local saddle point matrix.
-/
namespace Verif.Spec

/-- Unknowns: `nC` cells with `a` velocities, the faces with `b` velocities (prescribed if flagged), `nC` cells with `p`
pressures, one multiplier. -/
def stokesTable (nC a b p : Nat) (dir : List Bool) : DofTable :=
  List.replicate nC (a, fun _ => false) ++ (dir.map (fun d => (b, fun _ => d)) ++
    (List.replicate nC (p, fun _ => false) ++ [(1, fun _ => false)]))

/-- Entities of a cell: itself, its faces, its pressure, the multiplier. -/
def stokesEntities (nC nF c : Nat) (fcs : List Nat) : List Nat :=
  c :: (fcs.map (nC + ·) ++ [nC + nF + c, nC + nF + nC])

/-- `[[A, Bᵀ, 0], [B, 0, m], [0, mᵀ, 0]]` with `n` velocities and `p` pressures. -/
def saddle {K : Type} [Zero K] (n p : Nat) (A B : Nat → Nat → K) (m : Nat → K) (i j : Nat) : K :=
  if i < n then (if j < n then A i j else if j < n + p then B (j - n) i else 0)
  else if i < n + p then (if j < n then B (i - n) j else if j < n + p then 0 else m (i - n))
  else (if j < n then 0 else if j < n + p then m (j - n) else 0)

end Verif.Spec
