import Verif.Model.ElementSize
import Mathlib.Tactic.Linarith
import Mathlib.Tactic.Ring
import Mathlib.Tactic.FieldSimp
/-!
Helper lemmas for element sizes.
-/
set_option linter.unusedSectionVars false
namespace Verif.ElementSize

theorem mem_pairs {α : Type} {l : List α} {p : α × α} (h : p ∈ pairs l) : p.1 ∈ l ∧ p.2 ∈ l := by
  induction l with
  | nil => simp [pairs] at h
  | cons a l ih =>
    rw [pairs, List.mem_append, List.mem_map] at h
    rcases h with ⟨b, hb, rfl⟩ | h
    · exact ⟨by simp, by simp [hb]⟩
    · exact ⟨by simp [(ih h).1], by simp [(ih h).2]⟩

theorem pairs_complete {α : Type} {l : List α} {a b : α} (ha : a ∈ l) (hb : b ∈ l) (hab : a ≠ b) :
    (a, b) ∈ pairs l ∨ (b, a) ∈ pairs l := by
  induction l with
  | nil => simp at ha
  | cons c l ih =>
    simp only [pairs, List.mem_append, List.mem_map, Prod.mk.injEq]
    rcases List.mem_cons.mp ha with h1 | h1 <;> rcases List.mem_cons.mp hb with h2 | h2
    · exact absurd (h1.trans h2.symm) hab
    · exact Or.inl (Or.inl ⟨b, h2, h1.symm, rfl⟩)
    · exact Or.inr (Or.inl ⟨a, h1, h2.symm, rfl⟩)
    · rcases ih h1 h2 with h | h
      · exact Or.inl (Or.inr h)
      · exact Or.inr (Or.inr h)

section order
variable {K α : Type} [LinearOrder K]

theorem foldl_max_ge (f : α → K) (l : List α) (x : K) : x ≤ l.foldl (fun r a => max (f a) r) x := by
  induction l generalizing x with
  | nil => exact le_refl _
  | cons a l ih => exact le_trans (le_max_right _ _) (ih _)

theorem foldl_max_mem (f : α → K) (l : List α) (x : K) (a : α) (h : a ∈ l) :
    f a ≤ l.foldl (fun r a => max (f a) r) x := by
  induction l generalizing x with
  | nil => simp at h
  | cons b l ih =>
    rcases List.mem_cons.mp h with rfl | h
    · exact le_trans (le_max_left _ _) (foldl_max_ge f l _)
    · exact ih _ h

theorem foldl_max_attained (f : α → K) (l : List α) (x : K) :
    l.foldl (fun r a => max (f a) r) x = x ∨ ∃ a ∈ l, l.foldl (fun r a => max (f a) r) x = f a := by
  induction l generalizing x with
  | nil => exact Or.inl rfl
  | cons b l ih =>
    rcases ih (max (f b) x) with h | ⟨a, ha, h⟩
    · rcases le_total (f b) x with hb | hb
      · exact Or.inl (by rw [List.foldl_cons, h, max_eq_right hb])
      · exact Or.inr ⟨b, by simp, by rw [List.foldl_cons, h, max_eq_left hb]⟩
    · exact Or.inr ⟨a, by simp [ha], by rw [List.foldl_cons, h]⟩

end order

theorem norm_neg {d : Nat} (v : Fin d → ℝ) : norm (-v) = norm v := by
  unfold norm; simp

theorem norm_sub_comm {d : Nat} (v w : Fin d → ℝ) : norm (v - w) = norm (w - v) := by
  rw [← norm_neg, neg_sub]

theorem norm_self {d : Nat} (v : Fin d → ℝ) : norm (v - v) = 0 := by
  unfold norm; simp

section field
variable {d : Nat} {K : Type} [Field K] [LinearOrder K] [IsStrictOrderedRing K]

theorem foldl_widths (l : List ((Fin d → K) × (Fin d → K))) (r : Fin d → K) (k : Fin d) :
    (l.foldl (fun r p k => max (r k) |(p.1 - p.2) k|) r) k
      = l.foldl (fun x p => max (|(p.1 - p.2) k|) x) (r k) := by
  induction l generalizing r with
  | nil => rfl
  | cons a l ih => rw [List.foldl_cons, ih, List.foldl_cons, max_comm]

theorem foldl_minmax (l : List (Fin d → K)) (r : (Fin d → K) × (Fin d → K)) (j : Fin d) :
    let s := l.foldl (fun r q => ((fun j => min (r.1 j) (q j), fun j => max (r.2 j) (q j)) :
      (Fin d → K) × (Fin d → K))) r
    s.1 j ≤ r.1 j ∧ r.2 j ≤ s.2 j ∧ (∀ q ∈ l, s.1 j ≤ q j ∧ q j ≤ s.2 j) ∧
    (s.1 j = r.1 j ∨ ∃ q ∈ l, s.1 j = q j) ∧ (s.2 j = r.2 j ∨ ∃ q ∈ l, s.2 j = q j) := by
  induction l generalizing r with
  | nil => simp
  | cons a l ih =>
    obtain ⟨h1, h2, h3, h4, h5⟩ := ih (fun j => min (r.1 j) (a j), fun j => max (r.2 j) (a j))
    simp only [List.foldl_cons]
    refine ⟨le_trans h1 (min_le_left _ _), le_trans (le_max_left _ _) h2, ?_, ?_, ?_⟩
    · intro q hq
      rcases List.mem_cons.mp hq with rfl | hq
      · exact ⟨le_trans h1 (min_le_right _ _), le_trans (le_max_right _ _) h2⟩
      · exact h3 q hq
    · rcases h4 with h4 | ⟨q, hq, h4⟩
      · rcases min_choice (r.1 j) (a j) with h | h
        · exact Or.inl (h4.trans h)
        · exact Or.inr ⟨a, by simp, h4.trans h⟩
      · exact Or.inr ⟨q, by simp [hq], h4⟩
    · rcases h5 with h5 | ⟨q, hq, h5⟩
      · rcases max_choice (r.2 j) (a j) with h | h
        · exact Or.inl (h5.trans h)
        · exact Or.inr ⟨a, by simp, h5.trans h⟩
      · exact Or.inr ⟨q, by simp [hq], h5⟩

theorem foldl_box (axes : Matrix (Fin d) (Fin d) K) (l : List (Fin d → K)) (r : (Fin d → K) × (Fin d → K))
    (j : Fin d) :
    let s := l.foldl (boxStep axes) r
    let f := fun q : Fin d → K => Matrix.mulVec axes.transpose q j
    s.1 j ≤ r.1 j ∧ r.2 j ≤ s.2 j ∧ (∀ q ∈ l, s.1 j ≤ f q ∧ f q ≤ s.2 j) ∧
    (s.1 j = r.1 j ∨ ∃ q ∈ l, s.1 j = f q) ∧ (s.2 j = r.2 j ∨ ∃ q ∈ l, s.2 j = f q) := by
  induction l generalizing r with
  | nil => simp
  | cons a l ih =>
    obtain ⟨h1, h2, h3, h4, h5⟩ := ih (boxStep axes r a)
    have e1 : (boxStep axes r a).1 j = min (r.1 j) (Matrix.mulVec axes.transpose a j) := by
      simp only [boxStep]
      split_ifs with h
      · exact (min_eq_right h.le).symm
      · exact (min_eq_left (not_lt.mp h)).symm
    have e2 : (boxStep axes r a).2 j = max (r.2 j) (Matrix.mulVec axes.transpose a j) := by
      simp only [boxStep]
      split_ifs with h
      · exact (max_eq_right (le_of_lt h)).symm
      · exact (max_eq_left (not_lt.mp h)).symm
    rw [e1] at h1 h4
    rw [e2] at h2 h5
    simp only [List.foldl_cons]
    refine ⟨le_trans h1 (min_le_left _ _), le_trans (le_max_left _ _) h2, ?_, ?_, ?_⟩
    · intro q hq
      rcases List.mem_cons.mp hq with rfl | hq
      · exact ⟨le_trans h1 (min_le_right _ _), le_trans (le_max_right _ _) h2⟩
      · exact h3 q hq
    · rcases h4 with h4 | ⟨q, hq, h4⟩
      · rcases min_choice (r.1 j) (Matrix.mulVec axes.transpose a j) with h | h
        · exact Or.inl (h4.trans h)
        · exact Or.inr ⟨a, by simp, h4.trans h⟩
      · exact Or.inr ⟨q, by simp [hq], h4⟩
    · rcases h5 with h5 | ⟨q, hq, h5⟩
      · rcases max_choice (r.2 j) (Matrix.mulVec axes.transpose a j) with h | h
        · exact Or.inl (h5.trans h)
        · exact Or.inr ⟨a, by simp, h5.trans h⟩
      · exact Or.inr ⟨q, by simp [hq], h5⟩

/-- Lengths of the box: largest difference of the coordinates along the axes, attained. -/
theorem boxLengths_spec (big : K) (axes : Matrix (Fin d) (Fin d) K) (pts : List (Fin d → K)) (hne : pts ≠ [])
    (hb : ∀ q ∈ pts, ∀ j, |Matrix.mulVec axes.transpose q j| ≤ big) (j : Fin d) :
    (∀ p ∈ pts, ∀ q ∈ pts,
      |Matrix.mulVec axes.transpose p j - Matrix.mulVec axes.transpose q j| ≤ boxLengths big axes pts j) ∧
    ∃ p ∈ pts, ∃ q ∈ pts, boxLengths big axes pts j
      = Matrix.mulVec axes.transpose p j - Matrix.mulVec axes.transpose q j := by
  obtain ⟨h1, h2, h3, h4, h5⟩ := foldl_box axes pts (fun _ => big, fun _ => -big) j
  obtain ⟨q0, hq0⟩ := List.exists_mem_of_ne_nil pts hne
  simp only at h1 h2 h3 h4 h5
  have e : boxLengths big axes pts j
      = |(pts.foldl (boxStep axes) (fun _ => big, fun _ => -big)).2 j
        - (pts.foldl (boxStep axes) (fun _ => big, fun _ => -big)).1 j| := rfl
  generalize (pts.foldl (boxStep axes) (fun _ => big, fun _ => -big)).1 j = lo at *
  generalize (pts.foldl (boxStep axes) (fun _ => big, fun _ => -big)).2 j = hi at *
  have h0 := h3 q0 hq0
  have hle : lo ≤ hi := le_trans h0.1 h0.2
  rw [e, abs_of_nonneg (by linarith)]
  constructor
  · intro p hp q hq
    have := h3 p hp
    have := h3 q hq
    rw [abs_le]; constructor <;> linarith
  · have hlo : ∃ q ∈ pts, lo = Matrix.mulVec axes.transpose q j := by
      rcases h4 with h | h
      · have := (abs_le.mp (hb q0 hq0 j)).2
        exact ⟨q0, hq0, le_antisymm h0.1 (by rw [h]; exact this)⟩
      · exact h
    have hhi : ∃ q ∈ pts, hi = Matrix.mulVec axes.transpose q j := by
      rcases h5 with h | h
      · have := (abs_le.mp (hb q0 hq0 j)).1
        exact ⟨q0, hq0, le_antisymm (by rw [h]; exact this) h0.2⟩
      · exact h
    obtain ⟨p, hp, rfl⟩ := hhi
    obtain ⟨q, hq, rfl⟩ := hlo
    exact ⟨p, hp, q, hq, rfl⟩

theorem localCoord_eq (big : K) (axes : Matrix (Fin d) (Fin d) K) (bar : Fin d → K) (pts : List (Fin d → K))
    (pt : Fin d → K) (i : Fin d) : localCoord big axes bar pts pt i
      = 2 / boxLengths big axes pts i * (Matrix.mulVec axes.transpose pt i - Matrix.mulVec axes.transpose bar i) := by
  unfold localCoord Bases.scalingPoint Bases.passageMatrix
  rw [← Pi.sub_apply, ← Matrix.mulVec_sub]
  simp only [Matrix.mulVec, dotProduct, Matrix.of_apply]
  rw [Finset.mul_sum]
  exact Finset.sum_congr rfl (fun j _ => by ring)

/-- A convex combination has coordinates between those of the points. -/
theorem combo_bound {ι : Type} (s : Finset ι) (w x : ι → K) (hw : ∀ i ∈ s, 0 ≤ w i) (h1 : ∑ i ∈ s, w i = 1)
    (a L : K) (h : ∀ i ∈ s, |a - x i| ≤ L) : |a - ∑ i ∈ s, w i * x i| ≤ L := by
  have e : a - ∑ i ∈ s, w i * x i = ∑ i ∈ s, w i * (a - x i) := by
    simp only [mul_sub]
    rw [Finset.sum_sub_distrib, ← Finset.sum_mul, h1, one_mul]
  rw [e]
  calc |∑ i ∈ s, w i * (a - x i)| ≤ ∑ i ∈ s, |w i * (a - x i)| := Finset.abs_sum_le_sum_abs _ _
    _ ≤ ∑ i ∈ s, w i * L := by
        apply Finset.sum_le_sum
        intro i hi
        rw [abs_mul, abs_of_nonneg (hw i hi)]
        exact mul_le_mul_of_nonneg_left (h i hi) (hw i hi)
    _ = L := by rw [← Finset.sum_mul, h1, one_mul]

end field

end Verif.ElementSize
