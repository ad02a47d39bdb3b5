import Verif.Lemmas.Plastic
/-!
The hardening curve of the von Mises law.
-/
namespace Verif.Lemmas.Plastic
open Verif.Tensor Verif.TensorConv Verif.Mech Verif.Plastic Verif.Spec Verif.Lemmas.Mech

theorem pt_lt {c : List (ℝ × ℝ)} (h : CurveIncreasing c) {i j : Nat} (hij : i < j) (hj : j < c.length) :
    (pt c i).1 < (pt c j).1 := by
  have := List.pairwise_iff_getElem.mp h i j (hij.trans hj) hj hij
  simpa [pt, List.getD_eq_getElem?_getD, List.getElem?_eq_getElem, hj, hij.trans hj] using this

theorem pt_le {c : List (ℝ × ℝ)} (h : CurveIncreasing c) {i j : Nat} (hij : i ≤ j) (hj : j < c.length) :
    (pt c i).1 ≤ (pt c j).1 := by
  rcases hij.eq_or_lt with rfl | hij
  · exact le_rfl
  · exact (pt_lt h hij hj).le

theorem readSeg_eq (c : List (ℝ × ℝ)) {i : Nat} (hi : i + 1 < c.length) :
    readSeg c i = .ok ⟨(pt c i).1, (pt c i).2, slope c i⟩ := by
  have hi' : i < c.length := by omega
  simp [readSeg, pt, slope, List.getD_eq_getElem?_getD, List.getElem?_eq_getElem, hi, hi']

theorem lineThrough_eq (c : List (ℝ × ℝ)) (i : Nat) (p : ℝ) :
    lineThrough (pt c i) (pt c (i + 1)) p = (pt c i).2 + slope c i * (p - (pt c i).1) := rfl

theorem lineThrough_right {a b : ℝ × ℝ} (h : a.1 < b.1) : lineThrough a b b.1 = b.2 := by
  have : b.1 - a.1 ≠ 0 := by linarith
  rw [lineThrough]
  field_simp
  ring

theorem lineThrough_left (a b : ℝ × ℝ) : lineThrough a b a.1 = a.2 := by
  rw [lineThrough]; ring

/-- Where the interpolant is given by segment `i`. -/
theorem curveAt_seg : ∀ {c : List (ℝ × ℝ)} (_ : CurveIncreasing c) {i : Nat} (_ : i + 1 < c.length) {p : ℝ}
    (_ : i = 0 ∨ (pt c i).1 ≤ p) (_ : i + 2 = c.length ∨ p < (pt c (i + 1)).1),
    curveAt c p = lineThrough (pt c i) (pt c (i + 1)) p
  | [], _, i, hi, _, _, _ => by simp at hi
  | [a], _, i, hi, _, _, _ => by simp at hi
  | [a, b], _, i, hi, p, _, _ => by
    obtain rfl : i = 0 := by simp at hi; omega
    rfl
  | a :: b :: x :: r, h, 0, _, p, _, h2 => by
    rcases h2 with h2 | h2
    · simp at h2
    · show (if p < b.1 then lineThrough a b p else _) = _
      rw [if_pos (by simpa [pt] using h2)]
      rfl
  | a :: b :: x :: r, h, i + 1, hi, p, h1, h2 => by
    have h1 : (pt (a :: b :: x :: r) (i + 1)).1 ≤ p := h1.resolve_left (Nat.succ_ne_zero i)
    have hb : b.1 ≤ p := le_trans (pt_le h (i := 1) (j := i + 1) (by omega) (by simp at hi ⊢; omega)) h1
    show (if p < b.1 then lineThrough a b p else curveAt (b :: x :: r) p) = _
    rw [if_neg (not_lt.mpr hb)]
    exact curveAt_seg (c := b :: x :: r) (List.pairwise_cons.mp h).2 (by simpa using hi) (Or.inr h1)
      (h2.imp (fun h => by simpa using h) id)

theorem curveAt_first {a b : ℝ × ℝ} {r : List (ℝ × ℝ)} (h : a.1 < b.1) : curveAt (a :: b :: r) a.1 = a.2 := by
  cases r with
  | nil => exact lineThrough_left a b
  | cons x r =>
    show (if a.1 < b.1 then lineThrough a b a.1 else _) = _
    rw [if_pos h, lineThrough_left]

theorem line_lt {a b : ℝ × ℝ} {m x y : ℝ} (hm : 0 < m + (b.2 - a.2) / (b.1 - a.1)) (hxy : x < y) :
    lineThrough a b x + m * x < lineThrough a b y + m * y := by
  simp only [lineThrough]
  have := mul_lt_mul_of_pos_left hxy hm
  linarith

theorem slope_cons (a : ℝ × ℝ) (c : List (ℝ × ℝ)) (i : Nat) : slope (a :: c) (i + 1) = slope c i := rfl

/-- The residual of the return mapping increases. -/
theorem residual_mono {m : ℝ} : ∀ {c : List (ℝ × ℝ)} (_ : CurveIncreasing c) (_ : 2 ≤ c.length)
    (_ : ∀ i, i + 1 < c.length → 0 < m + slope c i), StrictMono fun p => curveAt c p + m * p
  | [], _, h2, _ => by simp at h2
  | [a], _, h2, _ => by simp at h2
  | [a, b], _, _, hs => fun x y hxy => line_lt (hs 0 (by simp)) hxy
  | a :: b :: x :: r, h, _, hs => by
    have hab : a.1 < b.1 := (List.pairwise_cons.mp h).1 b List.mem_cons_self
    have h' : CurveIncreasing (b :: x :: r) := (List.pairwise_cons.mp h).2
    have hbx : b.1 < x.1 := (List.pairwise_cons.mp h').1 x List.mem_cons_self
    have ih := residual_mono (m := m) h' (by simp) fun i hi => by
      have := hs (i + 1) (by simpa using hi)
      rwa [slope_cons] at this
    have hs0 : 0 < m + (b.2 - a.2) / (b.1 - a.1) := hs 0 (by simp)
    have e1 : ∀ p, p < b.1 → curveAt (a :: b :: x :: r) p = lineThrough a b p := fun p hp => if_pos hp
    have e2 : ∀ p, b.1 ≤ p → curveAt (a :: b :: x :: r) p = curveAt (b :: x :: r) p := fun p hp => if_neg (not_lt.mpr hp)
    intro p p' hp
    dsimp only
    rcases lt_or_ge p' b.1 with h1 | h1
    · rw [e1 p (hp.trans h1), e1 p' h1]
      exact line_lt hs0 hp
    · rw [e2 p' h1]
      rcases lt_or_ge p b.1 with h3 | h3
      · rw [e1 p h3]
        have a1 := line_lt hs0 h3
        rw [lineThrough_right hab] at a1
        have a2 := ih.monotone h1
        rw [curveAt_first hbx] at a2
        linarith
      · rw [e2 p h3]
        exact ih hp

theorem wrapSub_two {n : Nat} (h2 : 2 ≤ n) (h : n < 2 ^ 64) : wrapSub n 2 = n - 2 := by
  unfold wrapSub; omega

theorem findI0_spec {c : List (ℝ × ℝ)} (h2 : 2 ≤ c.length) (hs : c.length < 2 ^ 64) (p : ℝ) :
    findI0 c p + 1 < c.length ∧ (findI0 c p = 0 ∨ (pt c (findI0 c p)).1 ≤ p) ∧
      (findI0 c p + 2 = c.length ∨ p < (pt c (findI0 c p + 1)).1) := by
  unfold findI0
  cases h : (List.range (c.length - 1)).find? fun i => decide (p < (c.getD (i + 1) (0, 0)).1) with
  | none =>
    rw [Option.getD_none, wrapSub_two h2 hs]
    refine ⟨by omega, ?_, Or.inl (by omega)⟩
    rcases Nat.eq_zero_or_pos (c.length - 2) with h0 | h0
    · exact Or.inl h0
    · right
      have := List.find?_eq_none.mp h (c.length - 3) (by simp; omega)
      have e : c.length - 3 + 1 = c.length - 2 := by omega
      rw [e] at this
      simpa [pt] using this
  | some i =>
    rw [List.find?_range_eq_some] at h
    obtain ⟨h1, h3, h4⟩ := h
    rw [List.mem_range] at h3
    rw [Option.getD_some]
    refine ⟨by omega, ?_, Or.inr (by simpa [pt] using h1)⟩
    rcases i with _ | i
    · exact Or.inl rfl
    · right
      have := h4 i (by omega)
      simpa [pt] using this

theorem findI1_spec {c : List (ℝ × ℝ)} (h2 : 2 ≤ c.length) (hs : c.length < 2 ^ 64) (mu p q : ℝ) {i0 : Nat}
    (h0 : i0 + 1 < c.length) :
    i0 ≤ findI1 c mu p q i0 ∧ findI1 c mu p q i0 + 1 < c.length ∧
      (findI1 c mu p q i0 = i0 ∨
        (pt c (findI1 c mu p q i0)).2 - 3 * mu * (p - (pt c (findI1 c mu p q i0)).1) - q ≤ 0) ∧
      (findI1 c mu p q i0 + 2 = c.length ∨
        0 < (pt c (findI1 c mu p q i0 + 1)).2 - 3 * mu * (p - (pt c (findI1 c mu p q i0 + 1)).1) - q) := by
  unfold findI1
  cases h : (List.range (c.length - 1)).find? fun i => decide (i0 + 1 ≤ i) &&
      decide ((c.getD i (0, 0)).2 - 3 * mu * (p - (c.getD i (0, 0)).1) - q > 0) with
  | none =>
    dsimp only
    rw [wrapSub_two h2 hs]
    refine ⟨by omega, by omega, ?_, Or.inl (by omega)⟩
    by_cases e : c.length - 2 = i0
    · exact Or.inl e
    · right
      have := List.find?_eq_none.mp h (c.length - 2) (by simp; omega)
      have e2 : i0 + 1 ≤ c.length - 2 := by omega
      simp only [e2, decide_true, Bool.true_and, decide_eq_true_eq, not_lt, gt_iff_lt] at this
      exact this
  | some i =>
    dsimp only
    rw [List.find?_range_eq_some] at h
    obtain ⟨h1, h3, h4⟩ := h
    rw [List.mem_range] at h3
    rw [Bool.and_eq_true, decide_eq_true_eq, decide_eq_true_eq] at h1
    obtain ⟨k, rfl⟩ : ∃ k, i = k + 1 := ⟨i - 1, by omega⟩
    rw [Nat.add_sub_cancel]
    refine ⟨by omega, by omega, ?_, Or.inr h1.2⟩
    by_cases e : k = i0
    · exact Or.inl e
    · right
      have := h4 k (by omega)
      have e2 : i0 + 1 ≤ k := by omega
      simp only [e2, decide_true, Bool.true_and, Bool.not_eq_true', decide_eq_false_iff_not, not_lt, gt_iff_lt] at this
      exact this

end Verif.Lemmas.Plastic
