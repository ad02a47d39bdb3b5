import Verif.Lemmas.Simplex
/-!
Triangles and tetrahedra (C36, C38, C39, C64).
-/
namespace Verif.Props.Simplex
open Verif.Spec Verif.Simplex

section field
variable {K : Type} [Field K] [LinearOrder K] [IsStrictOrderedRing K]

/-! ### C36 -/

/-- C36: on a non-degenerate tetrahedron of either orientation, the test accepts the interior points and
rejects the points that are neither inside nor on the boundary. -/
theorem c36_inside (p0 p1 p2 p3 pt : P3 K) (hD : vol6 p0 p1 p2 p3 ≠ 0) :
    (InOpen p0 p1 p2 p3 pt → isInside p0 p1 p2 p3 pt = true) ∧
    (¬ InClosed p0 p1 p2 p3 pt → isInside p0 p1 p2 p3 pt = false) := by
  rw [isInside_eq]
  constructor
  · rintro ⟨l0, l1, l2, l3, h0, h1, h2, h3, hb⟩
    obtain ⟨e0, e1, e2, e3⟩ := vol_of_bary hb
    rw [e0, e1, e2, e3]
    rcases lt_or_gt_of_ne hD with hD | hD
    · simp [mul_neg_of_pos_of_neg, h0, h1, h2, h3, hD]
    · simp [mul_nonneg, h0.le, h1.le, h2.le, h3.le, hD.le]
  · intro hn
    have hb := bary_of_vol p0 p1 p2 p3 pt hD
    by_contra hc
    apply hn
    rw [Bool.not_eq_false, Bool.or_eq_true, decide_eq_true_eq, decide_eq_true_eq] at hc
    rcases lt_or_gt_of_ne hD with hD | hD
    · rcases hc with ⟨h0, h1, h2, h3⟩ | ⟨h0, h1, h2, h3⟩
      · have := vol_sum p0 p1 p2 p3 pt
        linarith
      · exact ⟨_, _, _, _, (div_pos_of_neg_of_neg h2 hD).le, (div_pos_of_neg_of_neg h3 hD).le,
          (div_pos_of_neg_of_neg h0 hD).le, (div_pos_of_neg_of_neg h1 hD).le, hb⟩
    · rcases hc with ⟨h0, h1, h2, h3⟩ | ⟨h0, h1, h2, h3⟩
      · exact ⟨_, _, _, _, div_nonneg h2 hD.le, div_nonneg h3 hD.le, div_nonneg h0 hD.le, div_nonneg h1 hD.le, hb⟩
      · have := vol_sum p0 p1 p2 p3 pt
        linarith

/-- C36, points of the boundary: a positively oriented tetrahedron is tested as a closed set, a negatively
oriented one as an open set. -/
theorem c36_boundary (p0 p1 p2 p3 pt : P3 K) :
    (0 < vol6 p0 p1 p2 p3 → (isInside p0 p1 p2 p3 pt = true ↔ InClosed p0 p1 p2 p3 pt)) ∧
    (vol6 p0 p1 p2 p3 < 0 → (isInside p0 p1 p2 p3 pt = true ↔ InOpen p0 p1 p2 p3 pt)) := by
  have hsum := vol_sum p0 p1 p2 p3 pt
  constructor
  · intro hD
    constructor
    · intro h
      by_contra hc
      rw [(c36_inside p0 p1 p2 p3 pt hD.ne').2 hc] at h
      exact absurd h (by decide)
    · rintro ⟨l0, l1, l2, l3, h0, h1, h2, h3, hb⟩
      obtain ⟨e0, e1, e2, e3⟩ := vol_of_bary hb
      rw [isInside_eq, e0, e1, e2, e3]
      simp [mul_nonneg, h0, h1, h2, h3, hD.le]
  · intro hD
    constructor
    · intro h
      rw [isInside_eq, Bool.or_eq_true, decide_eq_true_eq, decide_eq_true_eq] at h
      rcases h with ⟨h0, h1, h2, h3⟩ | ⟨h0, h1, h2, h3⟩
      · linarith
      · exact ⟨_, _, _, _, div_pos_of_neg_of_neg h2 hD, div_pos_of_neg_of_neg h3 hD,
          div_pos_of_neg_of_neg h0 hD, div_pos_of_neg_of_neg h1 hD, bary_of_vol p0 p1 p2 p3 pt hD.ne⟩
    · exact fun h => (c36_inside p0 p1 p2 p3 pt hD.ne).1 h

end field

/-- Corners of the reference tetrahedron. -/
def e0 : P3 ℚ := ⟨0, 0, 0⟩
/-- See `e0`. -/
def e1 : P3 ℚ := ⟨1, 0, 0⟩
/-- See `e0`. -/
def e2 : P3 ℚ := ⟨0, 1, 0⟩
/-- See `e0`. -/
def e3 : P3 ℚ := ⟨0, 0, 1⟩

example : vol6 e0 e1 e2 e3 = 1 ∧ vol6 e1 e0 e2 e3 = -1 ∧
    isInside e0 e1 e2 e3 ⟨1 / 5, 1 / 5, 1 / 5⟩ = true ∧ isInside e1 e0 e2 e3 ⟨1 / 5, 1 / 5, 1 / 5⟩ = true ∧
    isInside e0 e1 e2 e3 ⟨1, 1, 1⟩ = false ∧ isInside e1 e0 e2 e3 ⟨-1, 1, 1⟩ = false ∧
    isInside e0 e1 e2 e3 ⟨0, 0, 0⟩ = true ∧ isInside e1 e0 e2 e3 ⟨0, 0, 0⟩ = false := by decide +kernel
example : InOpen e0 e1 e2 e3 ⟨1 / 5, 1 / 5, 1 / 5⟩ :=
  ⟨2 / 5, 1 / 5, 1 / 5, 1 / 5, by norm_num, by norm_num, by norm_num, by norm_num, by
    refine ⟨?_, ?_, ?_, ?_⟩ <;> norm_num [e0, e1, e2, e3]⟩

/-! ### C38 -/

/-- C38 in the plane: Kahan's formula is half the absolute cross product, and the root is taken of a
non-negative number. -/
theorem c38_plane (p0 p1 p2 : P2 ℝ) :
    Polygon.triMeasure p0 p1 p2 = |turn p0 p1 p2| / 2 ∧
    0 ≤ Polygon.kahanArg (Polygon.norm (p1.x - p0.x) (p1.y - p0.y)) (Polygon.norm (p2.x - p0.x) (p2.y - p0.y))
      (Polygon.norm (p2.x - p1.x) (p2.y - p1.y)) :=
  ⟨Polygon.triMeasure_eq p0 p1 p2, by rw [Polygon.triArg_eq]; positivity⟩

/-- C38 in space: Kahan's formula is half the length of the cross product of two sides, and the root is taken
of a non-negative number. -/
theorem c38_space (p0 p1 p2 : P3 ℝ) :
    area3 p0 p1 p2
      = √(((p1.y - p0.y) * (p2.z - p0.z) - (p1.z - p0.z) * (p2.y - p0.y)) ^ 2
        + ((p1.z - p0.z) * (p2.x - p0.x) - (p1.x - p0.x) * (p2.z - p0.z)) ^ 2
        + ((p1.x - p0.x) * (p2.y - p0.y) - (p1.y - p0.y) * (p2.x - p0.x)) ^ 2) / 2 ∧
    0 ≤ Polygon.kahanArg (norm (sub p1 p0)) (norm (sub p2 p0)) (norm (sub p2 p1)) := by
  refine ⟨?_, by rw [area3Arg_eq]; positivity⟩
  rw [area3_eq]
  simp only [norm, cross, sub, pow_two]

example : Polygon.triMeasure ⟨0, 0⟩ ⟨2, 0⟩ ⟨0, 3⟩ = 3 := by
  rw [(c38_plane _ _ _).1]; norm_num [turn]
example : Polygon.triMeasure ⟨0, 0⟩ ⟨1, 1⟩ ⟨2, 2⟩ = 0 := by
  rw [(c38_plane _ _ _).1]; norm_num [turn]

/-! ### C39 -/

section field
variable {K : Type} [Field K] [LinearOrder K] [IsStrictOrderedRing K]

/-- C39, what holds: the rational measure of a tetrahedron is its volume, with sign if asked; the rational
measure of a triangle is twice its area. -/
theorem c39_rational_partial (a b c : P2 K) (p0 p1 p2 p3 : P3 K) :
    ratMeasure3 p0 p1 p2 p3 true = vol6 p0 p1 p2 p3 / 6 ∧
    ratMeasure3 p0 p1 p2 p3 false = |vol6 p0 p1 p2 p3| / 6 ∧
    ratMeasure2 a b c true = 2 * (turn a b c / 2) ∧
    ratMeasure2 a b c false = 2 * (|turn a b c| / 2) := by
  refine ⟨?_, ?_, ?_, ?_⟩
  · simp only [ratMeasure3, det_eq, if_true]
  · simp only [ratMeasure3, det_eq, Bool.false_eq_true, if_false]
    rw [abs_div, abs_of_pos (by norm_num : (0 : K) < 6)]
  · simp only [ratMeasure2, turn, if_true]; ring
  · simp only [ratMeasure2, Bool.false_eq_true, if_false]
    rw [mul_div_cancel₀ _ (by norm_num : (2 : K) ≠ 0)]
    congr 1
    simp only [turn]; ring

/-- C39 is violated by every triangle that is not flat: its rational measure is not its area. -/
theorem c39_violation (a b c : P2 K) (h : turn a b c ≠ 0) :
    ratMeasure2 a b c false ≠ |turn a b c| / 2 ∧ ratMeasure2 a b c true ≠ turn a b c / 2 := by
  obtain ⟨_, _, h1, h2⟩ := c39_rational_partial a b c (⟨0, 0, 0⟩ : P3 K) ⟨0, 0, 0⟩ ⟨0, 0, 0⟩ ⟨0, 0, 0⟩
  rw [h1, h2]
  have hp := abs_pos.mpr h
  constructor
  · intro he; linarith
  · intro he; apply h; linarith

/-- The floating-point measure of a tetrahedron in exact arithmetic: the volume, or the signed volume unless
the tetrahedron is flat, when the signed version divides zero by zero. -/
theorem c39_float_tetrahedron (p0 p1 p2 p3 : P3 K) :
    measure3 p0 p1 p2 p3 false = some (|vol6 p0 p1 p2 p3| / 6) ∧
    (vol6 p0 p1 p2 p3 ≠ 0 → measure3 p0 p1 p2 p3 true = some (vol6 p0 p1 p2 p3 / 6)) ∧
    (vol6 p0 p1 p2 p3 = 0 → measure3 p0 p1 p2 p3 true = none) := by
  simp only [measure3, volume, det_eq]
  refine ⟨by simp, ?_, ?_⟩
  · intro h
    have h6 : vol6 p0 p1 p2 p3 / 6 ≠ 0 := div_ne_zero h (by norm_num)
    rw [if_pos trivial, if_neg (abs_ne_zero.mpr h6)]
    have : |vol6 p0 p1 p2 p3| / 6 = |vol6 p0 p1 p2 p3 / 6| := by
      rw [abs_div, abs_of_pos (by norm_num : (0 : K) < 6)]
    rw [this, div_mul_cancel₀ _ (abs_ne_zero.mpr h6)]
  · intro h
    simp [h]

end field

example : ratMeasure2 (⟨0, 0⟩ : P2 ℚ) ⟨1, 0⟩ ⟨0, 1⟩ false = 1 ∧ ratMeasure3 e0 e1 e2 e3 false = 1 / 6 := by
  decide +kernel

/-- The floating-point measure of a triangle in exact arithmetic, see `c39_float_tetrahedron`. -/
theorem c39_float_triangle (a b c : P2 ℝ) :
    measure2 a b c false = some (|turn a b c| / 2) ∧
    (turn a b c ≠ 0 → measure2 a b c true = some (turn a b c / 2)) ∧
    (turn a b c = 0 → measure2 a b c true = none) := by
  have e : (b.x - a.x) * (c.y - a.y) - (c.x - a.x) * (b.y - a.y) = turn a b c := by simp only [turn]; ring
  simp only [measure2, e, Polygon.triMeasure_eq]
  refine ⟨by simp, ?_, ?_⟩
  · intro h
    rw [if_pos trivial, if_neg (abs_ne_zero.mpr h), ← mul_div_assoc, div_mul_cancel₀ _ (abs_ne_zero.mpr h)]
  · intro h
    simp [h]

/-! ### C64 -/

/-- C64 on triangles: the normal to a side is a unit vector, orthogonal to the side, pointing away from the
opposite vertex. -/
theorem c64_triangle (a b opp : P2 ℝ) (h : turn a b opp ≠ 0) :
    (triNormal a b opp).1 * (triNormal a b opp).1 + (triNormal a b opp).2 * (triNormal a b opp).2 = 1 ∧
    (triNormal a b opp).1 * (b.x - a.x) + (triNormal a b opp).2 * (b.y - a.y) = 0 ∧
    (triNormal a b opp).1 * (opp.x - a.x) + (triNormal a b opp).2 * (opp.y - a.y) < 0 := by
  have hab : a ≠ b := by
    rintro rfl
    apply h; simp only [turn]; ring
  obtain ⟨h1, h2⟩ := Polygon.normal_unit (bary2 a b opp) a b hab
  refine ⟨h1, h2, ?_⟩
  have hn : 0 < Polygon.norm (-(b.y - a.y)) (b.x - a.x) := by
    rcases (Polygon.norm_nonneg (-(b.y - a.y)) (b.x - a.x)).lt_or_eq with h0 | h0
    · exact h0
    · obtain ⟨h3, h4⟩ := Polygon.norm_eq_zero _ _ h0.symm
      exact absurd (P2.ext (by linarith) (by linarith)) hab
  have hb : turn a b (bary2 a b opp) = turn a b opp / 3 := by simp only [turn, bary2]; ring
  unfold triNormal
  rw [Polygon.normal_side, hb]
  apply div_neg_of_neg_of_pos _ hn
  split_ifs with h0
  · linarith
  · rcases lt_or_gt_of_ne h with h | h
    · exact h
    · exact absurd (by linarith) h0

/-- C64 on tetrahedra: the normal to a face is a unit vector, orthogonal to the face, pointing away from the
opposite vertex. -/
theorem c64_tetrahedron (a b c opp : P3 ℝ) (h : vol6 a b c opp ≠ 0) :
    dot (tetNormal a b c opp) (tetNormal a b c opp) = 1 ∧
    dot (tetNormal a b c opp) (sub b a) = 0 ∧ dot (tetNormal a b c opp) (sub c a) = 0 ∧
    dot (tetNormal a b c opp) (sub opp a) < 0 := by
  have hn := cross_ne a b c opp h
  have hp : 0 < norm (cross (sub b a) (sub c b)) := lt_of_le_of_ne (norm_nonneg _) hn.symm
  have hu := unit_of _ hn
  have hb : dot (cross (sub b a) (sub c b)) (sub b a) = 0 := by simp only [dot, cross, sub]; ring
  have hc : dot (cross (sub b a) (sub c b)) (sub c a) = 0 := by simp only [dot, cross, sub]; ring
  have ho := cross_dot a b c opp
  unfold tetNormal normal
  simp only [tet_out]
  generalize cross (sub b a) (sub c b) = n at *
  simp only [dot] at hu hb hc ho ⊢
  split_ifs with h0
  · refine ⟨by simp only [neg_div]; linarith, ?_, ?_, ?_⟩
    · have : -n.x / norm n * (sub b a).x + -n.y / norm n * (sub b a).y + -n.z / norm n * (sub b a).z
          = -(n.x * (sub b a).x + n.y * (sub b a).y + n.z * (sub b a).z) / norm n := by ring
      rw [this, hb]; simp
    · have : -n.x / norm n * (sub c a).x + -n.y / norm n * (sub c a).y + -n.z / norm n * (sub c a).z
          = -(n.x * (sub c a).x + n.y * (sub c a).y + n.z * (sub c a).z) / norm n := by ring
      rw [this, hc]; simp
    · have : -n.x / norm n * (sub opp a).x + -n.y / norm n * (sub opp a).y + -n.z / norm n * (sub opp a).z
          = -(n.x * (sub opp a).x + n.y * (sub opp a).y + n.z * (sub opp a).z) / norm n := by ring
      rw [this, ho]
      exact div_neg_of_neg_of_pos (by linarith) hp
  · refine ⟨hu, ?_, ?_, ?_⟩
    · have : n.x / norm n * (sub b a).x + n.y / norm n * (sub b a).y + n.z / norm n * (sub b a).z
          = (n.x * (sub b a).x + n.y * (sub b a).y + n.z * (sub b a).z) / norm n := by ring
      rw [this, hb]; simp
    · have : n.x / norm n * (sub c a).x + n.y / norm n * (sub c a).y + n.z / norm n * (sub c a).z
          = (n.x * (sub c a).x + n.y * (sub c a).y + n.z * (sub c a).z) / norm n := by ring
      rw [this, hc]; simp
    · have : n.x / norm n * (sub opp a).x + n.y / norm n * (sub opp a).y + n.z / norm n * (sub opp a).z
          = (n.x * (sub opp a).x + n.y * (sub opp a).y + n.z * (sub opp a).z) / norm n := by ring
      rw [this, ho]
      apply div_neg_of_neg_of_pos _ hp
      rcases lt_or_gt_of_ne h with h | h
      · exact h
      · exact absurd (by linarith) h0

/-- C64 on convex counter-clockwise polygons of nonzero area: the normal to a side, taken in either direction,
is a unit vector, orthogonal to the side, and no vertex is beyond the side. -/
theorem c64_convex_polygon (pts : List (P2 ℝ)) (hc : ConvexCCW pts) (hd : ∀ e ∈ sides pts, e.1 ≠ e.2)
    (hA : shoelace pts ≠ 0) (e f : P2 ℝ × P2 ℝ) (he : e ∈ sides pts) (hf : f = e ∨ f = e.swap) :
    let n := Polygon.normal (Polygon.barycenter pts) f.1 f.2
    n.1 * n.1 + n.2 * n.2 = 1 ∧ n.1 * (f.2.x - f.1.x) + n.2 * (f.2.y - f.1.y) = 0 ∧
    ∀ v ∈ pts, n.1 * (v.x - f.1.x) + n.2 * (v.y - f.1.y) ≤ 0 := by
  have hs := Polygon.star_of_convex pts hc hd hA e he
  have hne := hd e he
  have hv := hc e he
  have key : ∀ p q : P2 ℝ, p ≠ q → (0 < turn p q (Polygon.barycenter pts) → ∀ v ∈ pts, 0 ≤ turn p q v) →
      (¬ 0 < turn p q (Polygon.barycenter pts) → ∀ v ∈ pts, turn p q v ≤ 0) →
      ∀ v ∈ pts, (Polygon.normal (Polygon.barycenter pts) p q).1 * (v.x - p.x)
        + (Polygon.normal (Polygon.barycenter pts) p q).2 * (v.y - p.y) ≤ 0 := by
    intro p q _ h1 h2 v hv
    rw [Polygon.normal_side]
    apply div_nonpos_of_nonpos_of_nonneg _ (Polygon.norm_nonneg _ _)
    split_ifs with h0
    · linarith [h1 h0 v hv]
    · exact h2 h0 v hv
  rcases hf with rfl | rfl
  · obtain ⟨h1, h2⟩ := Polygon.normal_unit (Polygon.barycenter pts) _ _ hne
    exact ⟨h1, h2, key _ _ hne (fun _ => hv) (fun h => absurd hs h)⟩
  · obtain ⟨h1, h2⟩ := Polygon.normal_unit (Polygon.barycenter pts) e.2 e.1 hne.symm
    refine ⟨h1, h2, key _ _ hne.symm (fun h => ?_) (fun _ v hw => ?_)⟩
    · rw [Polygon.turn_swap, Prod.fst_swap, Prod.snd_swap] at h; linarith
    · have := hv v hw
      rw [Polygon.turn_swap, Prod.fst_swap, Prod.snd_swap]; linarith

example : turn (⟨0, 0⟩ : P2 ℝ) ⟨1, 0⟩ ⟨0, 1⟩ ≠ 0 ∧
    vol6 (⟨0, 0, 0⟩ : P3 ℝ) ⟨1, 0, 0⟩ ⟨0, 1, 0⟩ ⟨0, 0, 1⟩ ≠ 0 := by
  constructor <;> norm_num [turn, vol6]

end Verif.Props.Simplex
