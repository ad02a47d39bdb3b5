import Verif.Spec.Points
/-!
Polygons and sets of triangles: convexity by turns, signed integrals and what it is to tile.
-/
namespace Verif.Spec

variable {K : Type} [Field K] [LinearOrder K] [IsStrictOrderedRing K]

/-- Any three vertices met in this order turn left or are aligned: a convex polygon listed counter-clockwise, possibly
with vertices in the middle of its sides. -/
def TurnsLeft (pts : List (P2 K)) : Prop := ∀ a b c, List.Sublist [a, b, c] pts → 0 ≤ turn a b c

/-- What the integral of a function over oriented triangles satisfies: it does not depend on the first vertex, is the
same for both ways of cutting a quadrilateral, and vanishes on flat triangles. -/
structure SignedIntegral (μ : P2 K → P2 K → P2 K → K) : Prop where
  cyc : ∀ a b c, μ a b c = μ b c a
  cut : ∀ a b c d, μ a b c + μ a c d = μ a b d + μ b c d
  flat : ∀ a b c, turn a b c = 0 → μ a b c = 0

/-- The signed integral over a closed polygon, by its sides seen from `o`. -/
def ringInt (μ : P2 K → P2 K → P2 K → K) (o : P2 K) (pts : List (P2 K)) : K :=
  ((sides pts).map fun e => μ o e.1 e.2).sum

/-- `x` is strictly inside the counter-clockwise triangle `t`. -/
def InTriangle (t : P2 K × P2 K × P2 K) (x : P2 K) : Prop :=
  0 < turn t.1 t.2.1 x ∧ 0 < turn t.2.1 t.2.2 x ∧ 0 < turn t.2.2 t.1 x

instance (t : P2 K × P2 K × P2 K) (x : P2 K) : Decidable (InTriangle t x) := by
  unfold InTriangle; infer_instance

/-- `x` is to the left of all sides of a polygon. -/
def InConvex (pts : List (P2 K)) (x : P2 K) : Prop := ∀ e ∈ sides pts, 0 < turn e.1 e.2 x

/-- `x` is on no line through two of the points. -/
def OffLines (pts : List (P2 K)) (x : P2 K) : Prop := ∀ a ∈ pts, ∀ b ∈ pts, a ≠ b → turn a b x ≠ 0

/-- Of the points on no line through two vertices, those inside the convex polygon are in exactly one of the triangles
and the others in none. -/
def Tiles (ts : List (P2 K × P2 K × P2 K)) (pts : List (P2 K)) : Prop :=
  ∀ x, OffLines pts x →
    (InConvex pts x → (ts.filter fun t => decide (InTriangle t x)).length = 1) ∧
    (¬ InConvex pts x → ∀ t ∈ ts, ¬ InTriangle t x)

end Verif.Spec
