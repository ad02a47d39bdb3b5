import Verif.Lemmas.ElementSize
import Mathlib.Algebra.BigOperators.Field
import Mathlib.Tactic.LinearCombination
/-!
Sizes of elements (C65) and local coordinates of the scaled monomial bases (C66).
-/
namespace Verif.Props.ElementSize
open Verif.ElementSize

variable {d : Nat}

/-! ### C65 -/

/-- C65: the diameter is an upper bound of the distances between the points of the element, and is such a
distance. -/
theorem c65_diameter (pts : List (Fin d → ℝ)) :
    (∀ p ∈ pts, ∀ q ∈ pts, norm (p - q) ≤ diameter pts) ∧
    (pts ≠ [] → ∃ p ∈ pts, ∃ q ∈ pts, diameter pts = norm (p - q)) := by
  unfold diameter
  constructor
  · intro p hp q hq
    by_cases hpq : p = q
    · subst hpq
      rw [norm_self]
      exact foldl_max_ge (fun x : (Fin d → ℝ) × (Fin d → ℝ) => norm (x.1 - x.2)) _ _
    · rcases pairs_complete hp hq hpq with h | h
      · exact foldl_max_mem (fun x : (Fin d → ℝ) × (Fin d → ℝ) => norm (x.1 - x.2)) _ _ _ h
      · rw [norm_sub_comm]
        exact foldl_max_mem (fun x : (Fin d → ℝ) × (Fin d → ℝ) => norm (x.1 - x.2)) _ _ _ h
  · intro hne
    rcases foldl_max_attained (fun x : (Fin d → ℝ) × (Fin d → ℝ) => norm (x.1 - x.2)) (pairs pts) 0 with h | h
    · obtain ⟨p, hp⟩ := List.exists_mem_of_ne_nil pts hne
      exact ⟨p, hp, p, hp, by rw [norm_self]; exact h⟩
    · obtain ⟨x, hx, h⟩ := h
      exact ⟨x.1, (mem_pairs hx).1, x.2, (mem_pairs hx).2, h⟩

section field
variable {K : Type} [Field K] [LinearOrder K] [IsStrictOrderedRing K]

/-- C65: the widths returned by `diameters` are the largest coordinate differences. -/
theorem c65_widths (pts : List (Fin d → K)) (k : Fin d) :
    (∀ p ∈ pts, ∀ q ∈ pts, |p k - q k| ≤ diameters pts k) ∧
    (pts ≠ [] → ∃ p ∈ pts, ∃ q ∈ pts, diameters pts k = |p k - q k|) := by
  unfold diameters
  rw [foldl_widths]
  constructor
  · intro p hp q hq
    by_cases hpq : p = q
    · subst hpq
      rw [sub_self, abs_zero]
      exact foldl_max_ge (fun x : (Fin d → K) × (Fin d → K) => |(x.1 - x.2) k|) _ _
    · rcases pairs_complete hp hq hpq with h | h
      · exact foldl_max_mem (fun x : (Fin d → K) × (Fin d → K) => |(x.1 - x.2) k|) _ _ _ h
      · rw [abs_sub_comm]
        exact foldl_max_mem (fun x : (Fin d → K) × (Fin d → K) => |(x.1 - x.2) k|) _ _ _ h
  · intro hne
    rcases foldl_max_attained (fun x : (Fin d → K) × (Fin d → K) => |(x.1 - x.2) k|) (pairs pts) 0 with h | h
    · obtain ⟨p, hp⟩ := List.exists_mem_of_ne_nil pts hne
      exact ⟨p, hp, p, hp, by rw [sub_self, abs_zero]; exact h⟩
    · obtain ⟨x, hx, h⟩ := h
      exact ⟨x.1, (mem_pairs hx).1, x.2, (mem_pairs hx).2, h⟩

/-- C65: `diameter_boundingbox` with the identity axes agrees with `diameters`, as long as no coordinate
exceeds the largest number. -/
theorem c65_box (big : K) (pts : List (Fin d → K)) (hne : pts ≠ []) (hb : ∀ q ∈ pts, ∀ j, |q j| ≤ big) :
    boxLengths big 1 pts = diameters pts := by
  funext k
  obtain ⟨h1, p, hp, q, hq, h2⟩ := boxLengths_spec big 1 pts hne (by simpa using hb) k
  obtain ⟨h3, h4⟩ := c65_widths pts k
  obtain ⟨p', hp', q', hq', h4⟩ := h4 hne
  simp only [Matrix.transpose_one, Matrix.one_mulVec] at h1 h2
  apply le_antisymm
  · rw [h2]; exact le_trans (le_abs_self _) (h3 p hp q hq)
  · rw [h4]; exact h1 p' hp' q' hq'

/-- C65: `bb_barycenter` is the centre of the bounding box: halfway between the smallest and the largest
coordinate, and no point is further from it than half a width. -/
theorem c65_centre (pts : List (Fin d → K)) (hne : pts ≠ []) :
    ∃ c, bbBarycenter pts = .ok c ∧ ∀ k,
      (∃ p ∈ pts, ∃ q ∈ pts, c k = (p k + q k) / 2 ∧ ∀ v ∈ pts, p k ≤ v k ∧ v k ≤ q k) ∧
      ∀ v ∈ pts, |v k - c k| ≤ diameters pts k / 2 := by
  match pts, hne with
  | a :: l, _ =>
    refine ⟨_, rfl, fun k => ?_⟩
    obtain ⟨h1, h2, h3, h4, h5⟩ := foldl_minmax l (a, a) k
    simp only at h1 h2 h3 h4 h5
    set s := l.foldl (fun r q => ((fun j => min (r.1 j) (q j), fun j => max (r.2 j) (q j)) :
      (Fin d → K) × (Fin d → K))) (a, a) with hs
    have hall : ∀ v ∈ a :: l, s.1 k ≤ v k ∧ v k ≤ s.2 k := by
      intro v hv
      rcases List.mem_cons.mp hv with rfl | hv
      · exact ⟨h1, h2⟩
      · exact h3 v hv
    have hlo : ∃ p ∈ a :: l, s.1 k = p k := by
      rcases h4 with h | ⟨q, hq, h⟩
      · exact ⟨a, by simp, h⟩
      · exact ⟨q, by simp [hq], h⟩
    have hhi : ∃ p ∈ a :: l, s.2 k = p k := by
      rcases h5 with h | ⟨q, hq, h⟩
      · exact ⟨a, by simp, h⟩
      · exact ⟨q, by simp [hq], h⟩
    obtain ⟨p, hp, ep⟩ := hlo
    obtain ⟨q, hq, eq⟩ := hhi
    constructor
    · refine ⟨p, hp, q, hq, by rw [ep, eq], ?_⟩
      rw [← ep, ← eq]; exact hall
    · intro v hv
      have hw := (c65_widths (a :: l) k).1 q hq p hp
      obtain ⟨hv1, hv2⟩ := hall v hv
      have h0 : s.2 k - s.1 k ≤ diameters (a :: l) k := by
        rw [ep, eq]; exact le_trans (le_abs_self _) hw
      rw [abs_le]; constructor <;> linarith

end field

example : bbBarycenter [![0, 0], ![4, 1], ![1, 3]] = .ok (![2, 3 / 2] : Fin 2 → ℚ) := by
  unfold bbBarycenter
  simp only [Outcome.ok.injEq]
  decide +kernel
example : diameters [![0, 0], ![4, 1], ![1, 3]] = (![4, 3] : Fin 2 → ℚ) := by decide +kernel
example : (bbBarycenter ([] : List (Fin 2 → ℚ))).IsUB := trivial

/-! ### C66 -/

section field
variable {K : Type} [Field K] [LinearOrder K] [IsStrictOrderedRing K]

/-- C66: whatever the axes, the local coordinates of the points of a cell spread over an interval of length
exactly two in every direction of nonzero width. -/
theorem c66_spread (big : K) (axes : Matrix (Fin d) (Fin d) K) (bar : Fin d → K) (pts : List (Fin d → K))
    (hne : pts ≠ []) (hb : ∀ q ∈ pts, ∀ j, |Matrix.mulVec axes.transpose q j| ≤ big) (i : Fin d)
    (hi : boxLengths big axes pts i ≠ 0) :
    (∀ p ∈ pts, ∀ q ∈ pts,
      |localCoord big axes bar pts p i - localCoord big axes bar pts q i| ≤ 2) ∧
    ∃ p ∈ pts, ∃ q ∈ pts, localCoord big axes bar pts p i - localCoord big axes bar pts q i = 2 := by
  obtain ⟨h1, p, hp, q, hq, h2⟩ := boxLengths_spec big axes pts hne hb i
  have hpos : 0 < boxLengths big axes pts i := lt_of_le_of_ne (abs_nonneg _) hi.symm
  have e : ∀ p q, localCoord big axes bar pts p i - localCoord big axes bar pts q i
      = 2 / boxLengths big axes pts i * (Matrix.mulVec axes.transpose p i - Matrix.mulVec axes.transpose q i) := by
    intro p q
    rw [localCoord_eq, localCoord_eq]; ring
  constructor
  · intro p hp q hq
    rw [e, abs_mul, abs_of_pos (div_pos two_pos hpos)]
    calc 2 / boxLengths big axes pts i * _ ≤ 2 / boxLengths big axes pts i * boxLengths big axes pts i :=
          mul_le_mul_of_nonneg_left (h1 p hp q hq) (div_pos two_pos hpos).le
      _ = 2 := div_mul_cancel₀ _ hi
  · refine ⟨p, hp, q, hq, ?_⟩
    rw [e, ← h2, div_mul_cancel₀ _ hi]

/-- C66: the centre has local coordinates zero, and if it is a convex combination of the points of the cell
(a mean of vertices, or the barycenter of a convex cell), no point of the cell has a local coordinate larger
than two. -/
theorem c66_bounded (big : K) (axes : Matrix (Fin d) (Fin d) K) (pts : List (Fin d → K))
    (hne : pts ≠ []) (hb : ∀ q ∈ pts, ∀ j, |Matrix.mulVec axes.transpose q j| ≤ big) (i : Fin d)
    (hi : boxLengths big axes pts i ≠ 0) (bar : Fin d → K) {n : Nat} (w : Fin n → K) (v : Fin n → Fin d → K)
    (hw : ∀ a, 0 ≤ w a) (hw1 : ∑ a, w a = 1) (hv : ∀ a, v a ∈ pts)
    (hbar : bar = fun j => ∑ a, w a * v a j) :
    localCoord big axes bar pts bar i = 0 ∧ ∀ p ∈ pts, |localCoord big axes bar pts p i| ≤ 2 := by
  refine ⟨by rw [localCoord_eq]; ring, ?_⟩
  obtain ⟨h1, _⟩ := boxLengths_spec big axes pts hne hb i
  have hpos : 0 < boxLengths big axes pts i := lt_of_le_of_ne (abs_nonneg _) hi.symm
  intro p hp
  have hm : Matrix.mulVec axes.transpose bar i = ∑ a, w a * Matrix.mulVec axes.transpose (v a) i := by
    rw [hbar]
    simp only [Matrix.mulVec, dotProduct, Finset.mul_sum]
    rw [Finset.sum_comm]
    exact Finset.sum_congr rfl (fun a _ => Finset.sum_congr rfl (fun j _ => by ring))
  rw [localCoord_eq, hm, abs_mul, abs_of_pos (div_pos two_pos hpos)]
  have := combo_bound Finset.univ w (fun a => Matrix.mulVec axes.transpose (v a) i) (fun a _ => hw a) hw1
    (Matrix.mulVec axes.transpose p i) (boxLengths big axes pts i) (fun a _ => h1 p hp (v a) (hv a))
  calc 2 / boxLengths big axes pts i * _ ≤ 2 / boxLengths big axes pts i * boxLengths big axes pts i :=
        mul_le_mul_of_nonneg_left this (div_pos two_pos hpos).le
    _ = 2 := div_mul_cancel₀ _ hi

/-- C66: with orthonormal axes, moving by half the box length along an axis adds one to that local
coordinate and nothing to the others. -/
theorem c66_axis (big : K) (axes : Matrix (Fin d) (Fin d) K) (bar : Fin d → K) (pts : List (Fin d → K))
    (ho : axes.transpose * axes = 1) (i j : Fin d) (pt : Fin d → K)
    (hi : boxLengths big axes pts i ≠ 0) :
    localCoord big axes bar pts (fun k => pt k + boxLengths big axes pts i / 2 * axes k i) j
      = localCoord big axes bar pts pt j + if j = i then 1 else 0 := by
  rw [localCoord_eq, localCoord_eq]
  have hm : Matrix.mulVec axes.transpose (fun k => pt k + boxLengths big axes pts i / 2 * axes k i) j
      = Matrix.mulVec axes.transpose pt j + boxLengths big axes pts i / 2 * (axes.transpose * axes) j i := by
    simp only [Matrix.mulVec, dotProduct, Matrix.mul_apply, Finset.mul_sum, ← Finset.sum_add_distrib]
    exact Finset.sum_congr rfl (fun k _ => by ring)
  rw [hm, ho, Matrix.one_apply]
  by_cases h : j = i
  · subst h
    simp only [if_true]
    field_simp
    ring
  · simp only [if_neg h]; ring

end field

/-- C66 for 2D faces: the coordinate runs linearly from -1 at the first point to 1 at the second. -/
theorem c66_face (p0 p1 : Fin 2 → ℝ) (h : p0 ≠ p1) (t : ℝ) :
    faceCoord p0 p1 (fun i => (1 - t) * p0 i + t * p1 i) = 2 * t - 1 := by
  have hd : diameter [p0, p1] = norm (p1 - p0) := by
    unfold diameter
    simp only [pairs, List.map_cons, List.map_nil, List.append_nil, List.foldl_cons, List.foldl_nil]
    rw [norm_sub_comm]
    exact max_eq_left (Real.sqrt_nonneg _)
  have hs : 0 ≤ ∑ i, (p1 - p0) i * (p1 - p0) i := Finset.sum_nonneg (fun i _ => mul_self_nonneg _)
  have hsq : norm (p1 - p0) * norm (p1 - p0) = ∑ i, (p1 - p0) i * (p1 - p0) i := Real.mul_self_sqrt hs
  have hN : norm (p1 - p0) ≠ 0 := by
    intro h0
    rw [h0, Fin.sum_univ_two] at hsq
    simp only [Pi.sub_apply] at hsq
    apply h
    funext i
    fin_cases i <;> simp only [Fin.zero_eta, Fin.mk_one] <;>
      nlinarith [mul_self_nonneg (p1 0 - p0 0), mul_self_nonneg (p1 1 - p0 1)]
  have hb : norm ((fun i => (p0 i + p1 i) / 2) - p0) = norm (p1 - p0) / 2 := by
    unfold norm
    have : (∑ i, ((fun i => (p0 i + p1 i) / 2) - p0) i * ((fun i => (p0 i + p1 i) / 2) - p0) i)
        = (∑ i, (p1 - p0) i * (p1 - p0) i) / 2 ^ 2 := by
      rw [Finset.sum_div]
      exact Finset.sum_congr rfl (fun i _ => by simp only [Pi.sub_apply]; ring)
    rw [this, Real.sqrt_div hs, Real.sqrt_sq (by norm_num)]
  unfold faceCoord
  simp only [hd, hb]
  rw [Fin.sum_univ_two] at hsq ⊢
  simp only [Pi.sub_apply] at hsq
  generalize norm (p1 - p0) = N at *
  field_simp
  linear_combination (-(2 * t - 1)) * hsq

example : localCoord (10 : ℚ) 1 ![1, 1] [![0, 0], ![2, 0], ![2, 2], ![0, 2]] ![2, 0] = ![1, -1] := by
  decide +kernel
example : (1 : Matrix (Fin 2) (Fin 2) ℚ).transpose * 1 = 1 := by simp

end Verif.Props.ElementSize
