import Verif.Lemmas.Polygon
import Mathlib.Data.Rat.Defs
import Mathlib.Algebra.Order.Ring.Unbundled.Rat
import Mathlib.Algebra.Order.Field.Rat
import Mathlib.Tactic.NormNum
/-!
Properties of polygons: C35, C37, C61, C62, C63.
-/
namespace Verif.Props.Polygon
open Verif.Spec Verif.Polygon

section field
variable {K : Type} [Field K] [LinearOrder K] [IsStrictOrderedRing K]

/-! ### C35 -/

/-- C35, what holds: a point inside a convex counter-clockwise polygon is reported inside. -/
theorem c35_inside_partial (pts : List (P2 K)) (pt : P2 K) (_hc : ConvexCCW pts)
    (_h : ∀ e ∈ sides pts, 0 ≤ turn e.1 e.2 pt) : isInside pts pt = true := by
  unfold isInside
  rw [List.all_eq_true]
  intro i hi
  have : i % pts.length = i := Nat.mod_eq_of_lt (List.mem_range.mp hi)
  simp [this]

/-- C35, what happens: every point is reported inside every polygon. -/
theorem c35_always_true (pts : List (P2 K)) (pt : P2 K) : isInside pts pt = true := by
  unfold isInside
  rw [List.all_eq_true]
  intro i hi
  have : i % pts.length = i := Nat.mod_eq_of_lt (List.mem_range.mp hi)
  simp [this]

end field

/-- The unit square. -/
def square : List (P2 ℚ) := [⟨0, 0⟩, ⟨1, 0⟩, ⟨1, 1⟩, ⟨0, 1⟩]

theorem square_convex : ConvexCCW square := by
  unfold ConvexCCW
  decide +kernel

/-- C35 is violated: a point far outside the unit square, to the right of one of its sides, is reported
inside. -/
theorem c35_violation : ∃ (pts : List (P2 ℚ)) (pt : P2 ℚ), ConvexCCW pts ∧
    (∃ e ∈ sides pts, turn e.1 e.2 pt < 0) ∧ isInside pts pt = true :=
  ⟨square, ⟨5, 5⟩, square_convex, by decide +kernel, c35_always_true _ _⟩

example : isInside square (⟨1/2, 1/2⟩ : P2 ℚ) = true :=
  c35_inside_partial square ⟨1/2, 1/2⟩ square_convex (by decide +kernel)

/-! ### C37 -/

section field
variable {K : Type} [Field K] [LinearOrder K] [IsStrictOrderedRing K]

/-- C37: joining any point to the sides of a polygon gives triangles whose signed areas add up to the signed
area of the polygon. -/
theorem c37_any_centre (pts : List (P2 K)) (o : P2 K) :
    ((sides pts).map fun e => turn e.1 e.2 o / 2).sum = shoelace pts / 2 := by
  have h := shoelace_turn pts o
  have e : (sides pts).map (fun e => turn e.1 e.2 o / 2) = (sides pts).map (fun e => 1 / 2 * turn o e.1 e.2) := by
    apply List.map_congr_left
    intro e _
    rw [← turn_rot o e.1 e.2]; ring
  rw [e, sum_mul_map, h]; ring

/-- C37: the same for the triangles of `triangulate_convex_polygon`, of which there is one per side. -/
theorem c37_fan (pts : List (P2 K)) :
    (fan pts).length = pts.length ∧
    ((fan pts).map fun t => turn t.1 t.2.1 t.2.2 / 2).sum = shoelace pts / 2 := by
  refine ⟨by simp [fan], ?_⟩
  rw [fan_eq, List.map_map]
  exact c37_any_centre pts (center pts)

end field

/-- C37: on a convex counter-clockwise polygon the triangles are counter-clockwise, and their measures (which
are never negative) add up to the area of the polygon. -/
theorem c37_convex (pts : List (P2 ℝ)) (hc : ConvexCCW pts) :
    (∀ t ∈ fan pts, 0 ≤ turn t.1 t.2.1 t.2.2) ∧
    ((fan pts).map fun t => triMeasure t.1 t.2.1 t.2.2).sum = shoelace pts / 2 := by
  have h0 : ∀ t ∈ fan pts, 0 ≤ turn t.1 t.2.1 t.2.2 := by
    intro t ht
    rw [fan_eq] at ht
    obtain ⟨e, he, rfl⟩ := List.mem_map.mp ht
    have hne : pts ≠ [] := List.ne_nil_of_mem (mem_sides he).1
    exact turn_center_nonneg pts e.1 e.2 hne (hc e he)
  refine ⟨h0, ?_⟩
  rw [← (c37_fan pts).2]
  congr 1
  apply List.map_congr_left
  intro t ht
  rw [triMeasure_eq, abs_of_nonneg (h0 t ht)]

/-- The unit square with real coordinates. -/
def squareR : List (P2 ℝ) := [⟨0, 0⟩, ⟨1, 0⟩, ⟨1, 1⟩, ⟨0, 1⟩]

theorem squareR_sides : sides squareR = [(⟨0, 0⟩, ⟨1, 0⟩), (⟨1, 0⟩, ⟨1, 1⟩), (⟨1, 1⟩, ⟨0, 1⟩), (⟨0, 1⟩, ⟨0, 0⟩)] := rfl

theorem squareR_convex : ConvexCCW squareR := by
  intro e he v hv
  rw [squareR_sides] at he
  simp only [squareR, List.mem_cons, List.not_mem_nil, or_false] at he hv
  rcases he with rfl | rfl | rfl | rfl <;> rcases hv with rfl | rfl | rfl | rfl <;> simp [turn]

example : ((fan squareR).map fun t => triMeasure t.1 t.2.1 t.2.2).sum = 1 := by
  rw [(c37_convex squareR squareR_convex).2, shoelace, squareR_sides]; norm_num

/-! ### C61 -/

/-- C61, what holds: when the polygon is seen counter-clockwise (or clockwise) from its own barycenter, the
measure is its area. -/
theorem c61_star_partial (pts : List (P2 ℝ)) (fcs : List (P2 ℝ × P2 ℝ)) (hf : FacesOf pts fcs) :
    (StarFrom (barycenter pts) pts → measure pts fcs = shoelace pts / 2) ∧
    ((∀ e ∈ sides pts, turn e.1 e.2 (barycenter pts) < 0) → measure pts fcs = -(shoelace pts / 2)) := by
  obtain ⟨l, hl, hp⟩ := hf
  rw [measure_eq, ← (hp.map _).sum_eq]
  clear hp
  constructor
  · intro hs
    have : l.map (fun f => term (barycenter pts) f.1 f.2)
        = (sides pts).map (fun e => 1 / 2 * (e.1.x * e.2.y - e.2.x * e.1.y)) := by
      unfold StarFrom at hs
      revert hs
      generalize sides pts = s at hl
      intro hs
      induction hl with
      | nil => rfl
      | @cons e f s l h _ ih =>
        rw [List.map_cons, List.map_cons, ih (fun e he => hs e (List.mem_cons_of_mem _ he))]
        congr 1
        have h0 := hs e (by simp)
        rcases h with rfl | rfl
        · rw [term_pos _ _ _ h0]; ring
        · simp only [Prod.fst_swap, Prod.snd_swap]
          rw [term_neg _ _ _ (by rw [turn_swap]; linarith)]; ring
    rw [this, sum_mul_map]; unfold shoelace; ring
  · intro hs
    have : l.map (fun f => term (barycenter pts) f.1 f.2)
        = (sides pts).map (fun e => -(1 / 2) * (e.1.x * e.2.y - e.2.x * e.1.y)) := by
      revert hs
      generalize sides pts = s at hl
      intro hs
      induction hl with
      | nil => rfl
      | @cons e f s l h _ ih =>
        rw [List.map_cons, List.map_cons, ih (fun e he => hs e (List.mem_cons_of_mem _ he))]
        congr 1
        have h0 := hs e (by simp)
        rcases h with rfl | rfl
        · rw [term_neg _ _ _ h0]; ring
        · simp only [Prod.fst_swap, Prod.snd_swap]
          rw [term_pos _ _ _ (by rw [turn_swap]; linarith)]; ring
    rw [this, sum_mul_map]; unfold shoelace; ring

/-- C61, what holds: the measure of a convex counter-clockwise polygon of nonzero area is its area. -/
theorem c61_convex_partial (pts : List (P2 ℝ)) (fcs : List (P2 ℝ × P2 ℝ)) (hf : FacesOf pts fcs)
    (hc : ConvexCCW pts) (hd : ∀ e ∈ sides pts, e.1 ≠ e.2) (hA : shoelace pts ≠ 0) :
    measure pts fcs = shoelace pts / 2 :=
  (c61_star_partial pts fcs hf).1 (star_of_convex pts hc hd hA)

example : measure squareR (sides squareR) = 1 := by
  rw [c61_convex_partial squareR (sides squareR) ⟨_, List.forall₂_same.mpr (fun _ _ => Or.inl rfl), List.Perm.refl _⟩
    squareR_convex ?_ ?_]
  · rw [shoelace, squareR_sides]; norm_num
  · rw [squareR_sides]; simp
  · rw [shoelace, squareR_sides]; norm_num

/-- An L-shaped hexagon of area 5. -/
def ell : List (P2 ℝ) := [⟨0, 0⟩, ⟨3, 0⟩, ⟨3, 1⟩, ⟨1, 1⟩, ⟨1, 3⟩, ⟨0, 3⟩]

theorem ell_sides : sides ell = [(⟨0, 0⟩, ⟨3, 0⟩), (⟨3, 0⟩, ⟨3, 1⟩), (⟨3, 1⟩, ⟨1, 1⟩), (⟨1, 1⟩, ⟨1, 3⟩),
    (⟨1, 3⟩, ⟨0, 3⟩), (⟨0, 3⟩, ⟨0, 0⟩)] := rfl

theorem ell_bary : barycenter ell = ⟨11 / 10, 11 / 10⟩ := by
  simp only [barycenter, barySums_eq, shoelace, ell_sides]
  norm_num

/-- C61 is violated on nonconvex polygons, for which the function is documented to work: the L-shaped hexagon
has area 5 and measure 1. -/
theorem c61_nonconvex_violation : ∃ (pts : List (P2 ℝ)) (fcs : List (P2 ℝ × P2 ℝ)), FacesOf pts fcs ∧
    shoelace pts / 2 = 5 ∧ measure pts fcs = 1 := by
  refine ⟨ell, sides ell, ⟨_, List.forall₂_same.mpr (fun _ _ => Or.inl rfl), List.Perm.refl _⟩, ?_, ?_⟩
  · rw [shoelace, ell_sides]; norm_num
  · rw [measure_eq, ell_bary, ell_sides]
    simp only [List.map_cons, List.map_nil, List.sum_cons, List.sum_nil]
    rw [term_pos _ _ _ (by norm_num [turn]), term_pos _ _ _ (by norm_num [turn]),
      term_neg _ _ _ (by norm_num [turn]), term_neg _ _ _ (by norm_num [turn]),
      term_pos _ _ _ (by norm_num [turn]), term_pos _ _ _ (by norm_num [turn])]
    norm_num

/-! ### C62 -/

section field
variable {K : Type} [Field K] [LinearOrder K] [IsStrictOrderedRing K]

/-- C62: for every point `o`, the barycenter is the mean of the centroids of the triangles joining `o` to the
sides, weighted by their signed areas. -/
theorem c62_weighted_mean (pts : List (P2 K)) (o : P2 K) (hA : shoelace pts ≠ 0) :
    (barycenter pts).x = ((sides pts).map fun e => turn o e.1 e.2 * ((o.x + e.1.x + e.2.x) / 3)).sum
        / ((sides pts).map fun e => turn o e.1 e.2).sum ∧
    (barycenter pts).y = ((sides pts).map fun e => turn o e.1 e.2 * ((o.y + e.1.y + e.2.y) / 3)).sum
        / ((sides pts).map fun e => turn o e.1 e.2).sum := by
  have hx := moment_x pts o
  have hy := moment_y pts o
  have ex : (sides pts).map (fun e => turn o e.1 e.2 * ((o.x + e.1.x + e.2.x) / 3))
      = (sides pts).map (fun e => 1 / 3 * (turn o e.1 e.2 * (o.x + e.1.x + e.2.x))) :=
    List.map_congr_left (fun e _ => by ring)
  have ey : (sides pts).map (fun e => turn o e.1 e.2 * ((o.y + e.1.y + e.2.y) / 3))
      = (sides pts).map (fun e => 1 / 3 * (turn o e.1 e.2 * (o.y + e.1.y + e.2.y))) :=
    List.map_congr_left (fun e _ => by ring)
  rw [ex, ey, sum_mul_map, sum_mul_map, hx, hy, shoelace_turn]
  simp only [barycenter, barySums_eq]
  constructor <;> (field_simp; ring)

/-- C62: the barycenter of a convex counter-clockwise polygon of nonzero area is strictly inside. -/
theorem c62_inside (pts : List (P2 K)) (hc : ConvexCCW pts) (hd : ∀ e ∈ sides pts, e.1 ≠ e.2)
    (hA : shoelace pts ≠ 0) : ∀ e ∈ sides pts, 0 < turn e.1 e.2 (barycenter pts) :=
  star_of_convex pts hc hd hA

end field

example : barycenter square = ⟨1 / 2, 1 / 2⟩ := by decide +kernel
example : ∀ e ∈ sides square, 0 < turn e.1 e.2 (barycenter square) :=
  c62_inside square square_convex (by decide +kernel) (by decide +kernel)

/-! ### C63 -/

section field
variable {K : Type} [Field K] [LinearOrder K] [IsStrictOrderedRing K]

/-- C63, what holds: a convex counter-clockwise polygon is reported convex, so a negative answer is right. -/
theorem c63_complete_partial (pts : List (P2 K)) (hc : ConvexCCW pts) : isConvex pts = true := by
  by_cases h3 : pts.length = 3
  · unfold isConvex; rw [if_pos h3]
  · rw [isConvex_iff pts h3]
    intro i hi
    have hn : 0 < pts.length := by omega
    have he : (rd pts i, rd pts ((i + 1) % pts.length)) ∈ sides pts := by
      rw [← range_eq_sides]; exact List.mem_map.mpr ⟨i, List.mem_range.mpr hi, rfl⟩
    have h2 := Nat.mod_lt (i + 2) hn
    exact hc _ he _ (by rw [rd_eq _ _ h2]; exact List.getElem_mem _)

/-- C63, what holds: for quadrilaterals (where the answer selects the tensor-product quadrature) the answer is
exact. -/
theorem c63_quadrilateral_partial (a b c d : P2 K) :
    isConvex [a, b, c, d] = true ↔ ConvexCCW [a, b, c, d] := by
  refine ⟨fun h => ?_, c63_complete_partial _⟩
  rw [isConvex_iff _ (by simp)] at h
  have h0 := h 0 (by simp)
  have h1 := h 1 (by simp)
  have h2 := h 2 (by simp)
  have h3 := h 3 (by simp)
  simp [rd] at h0 h1 h2 h3
  intro e he v hv
  have hs : sides [a, b, c, d] = [(a, b), (b, c), (c, d), (d, a)] := rfl
  rw [hs] at he
  simp only [List.mem_cons, List.not_mem_nil, or_false] at he hv
  have z1 : ∀ p q : P2 K, 0 ≤ turn p q p := fun p q => by simp [turn]
  have z2 : ∀ p q : P2 K, 0 ≤ turn p q q := fun p q => by simp [turn, mul_comm]
  rcases he with rfl | rfl | rfl | rfl <;> rcases hv with rfl | rfl | rfl | rfl <;>
    first
    | exact z1 _ _
    | exact z2 _ _
    | assumption
    | (rw [turn_rot]; assumption)
    | (rw [← turn_rot]; assumption)

end field

/-- A five-pointed star drawn without lifting the pen. -/
def star : List (P2 ℚ) := [⟨0, 3⟩, ⟨-2, -3⟩, ⟨3, 1⟩, ⟨-3, 1⟩, ⟨2, -3⟩]

/-- C63 is violated: the star polygon, whose sides cross, is reported convex, and so is every triangle,
clockwise ones included. -/
theorem c63_violation : (∃ pts : List (P2 ℚ), isConvex pts = true ∧ ¬ ConvexCCW pts ∧ pts.length = 5) ∧
    (∀ a b c : P2 ℚ, isConvex [a, b, c] = true) := by
  refine ⟨⟨star, by decide +kernel, ?_, rfl⟩, fun a b c => rfl⟩
  intro h
  exact absurd (h (⟨0, 3⟩, ⟨-2, -3⟩) (by decide +kernel) ⟨-3, 1⟩ (by decide +kernel)) (by decide +kernel)

example : isConvex square = true := c63_complete_partial square square_convex
example : isConvex ([⟨0, 0⟩, ⟨3, 0⟩, ⟨1, 1⟩, ⟨0, 3⟩] : List (P2 ℚ)) = false := by decide +kernel

end Verif.Props.Polygon
