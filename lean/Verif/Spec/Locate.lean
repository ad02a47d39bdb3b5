import Mathlib.Algebra.Field.Defs
import Mathlib.Order.Defs.LinearOrder
/-!
What point location means: a chain of triangles, one per level, each containing the point and each among the
children of the previous one.
-/
namespace Verif.Spec.Locate

/-- Triangle `b` of level `k` is reached from triangle `a` of level 0 through triangles containing the point. -/
inductive Chain {T P : Type} (meshes : List (List T)) (children : List (List (List Nat))) (inside : T → P → Bool)
    (p : P) (a : Nat) : Nat → Nat → Prop
  | base (mesh : List T) (cl : T) (h0 : meshes[0]? = some mesh) (h1 : mesh[a]? = some cl) (h2 : inside cl p = true) :
      Chain meshes children inside p a 0 a
  | step (k t t' : Nat) (mesh : List T) (m : List (List Nat)) (ts : List Nat) (cl : T)
      (hc : Chain meshes children inside p a k t) (h1 : meshes[k + 1]? = some mesh) (h2 : children[k]? = some m)
      (h3 : m[t]? = some ts) (h4 : t' ∈ ts) (h5 : mesh[t']? = some cl) (h6 : inside cl p = true) :
      Chain meshes children inside p a (k + 1) t'

/-- `p` is in the closed triangle `a b c`: a convex combination of its corners. -/
def InTriangle {K : Type} [Field K] [LinearOrder K] (a b c p : K × K) : Prop :=
  ∃ u v w : K, 0 ≤ u ∧ 0 ≤ v ∧ 0 ≤ w ∧ u + v + w = 1 ∧
    p.1 = w * a.1 + u * b.1 + v * c.1 ∧ p.2 = w * a.2 + u * b.2 + v * c.2

end Verif.Spec.Locate
