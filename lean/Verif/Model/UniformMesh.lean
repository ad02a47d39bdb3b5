import Mathlib.Algebra.Order.Field.Basic
import Verif.Model.Outcome
import Verif.Model.MeshTopo
/-!
Uniform 1D mesh, `loaders/loader_uniform.hpp`. Coordinates are elements of an ordered field. With zero
elements the step is a division by zero (an infinity or NaN in floating point); it is `ub` here.
-/
namespace Verif.UniformMesh
open Verif.MeshTopo

/-- The storage filled by the loader: points, nodes (their point number), edges and boundary descriptors of
the nodes. -/
structure Storage (K : Type) where
  points : List K
  nodes : List Nat
  edges : List (Nat × Nat)
  binfo : List BDesc

/-- `v.at(i) = x`. -/
def setAt {α : Type} (v : List α) (i : Nat) (x : α) : Outcome (List α) :=
  if i < v.length then .ok (v.set i x) else .throws "out_of_range"

variable {K : Type} [Field K] [LinearOrder K] [IsStrictOrderedRing K]

/-- Loop over the edges, `loaders/loader_uniform.hpp:75-86`. -/
def edgeLoop (xmin h : K) : List Nat → Storage K → Outcome (Storage K)
  | [], s => .ok s
  | i :: is, s =>
    (setAt s.points i (xmin + h * (i : K))).bind fun p =>
    (setAt p (i + 1) (xmin + h * ((i + 1 : Nat) : K))).bind fun p =>
    (setAt s.edges i (i, i + 1)).bind fun e =>
      edgeLoop xmin h is { s with points := p, edges := e }

/-- Loop over the nodes, `loaders/loader_uniform.hpp:88-89`. -/
def nodeLoop : List Nat → List Nat → Outcome (List Nat)
  | [], v => .ok v
  | i :: is, v => (setAt v i i).bind fun v => nodeLoop is v

/-- `uniform_mesh_loader<T,1>(x_min, x_max, N)` followed by `populate_mesh`,
`loaders/loader_uniform.hpp:55-96`. -/
def populate (xmin xmax : K) (n : Nat) : Outcome (Storage K) :=
  if n = 0 then .ub "division by zero"
  else
    let h := |xmax - xmin| / (n : K)
    let s0 : Storage K := ⟨List.replicate (n + 1) 0, List.replicate (n + 1) 0, List.replicate n (0, 0), []⟩
    (edgeLoop xmin h (List.range n) s0).bind fun s =>
    (nodeLoop (List.range (n + 1)) s.nodes).bind fun nd =>
    (setAt (List.replicate (n + 1) BDesc.default) 0 (BDesc.mk2 0 true)).bind fun b =>
    (setAt b (n + 1 - 1) (BDesc.mk2 0 true)).bind fun b =>
      .ok { s with nodes := nd, binfo := b }

end Verif.UniformMesh
