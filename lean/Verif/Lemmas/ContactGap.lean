import Verif.Lemmas.ContactForm
import Mathlib.Analysis.Calculus.Deriv.Pow
import Mathlib.Tactic.FinCases
/-!
Contact: distances to the obstacle and their derivatives.
-/
namespace Verif.Contact
open Tensor Rigidity Finset Spec.Contact

variable {D : Nat}

theorem g0_eq (g : Geo D) {pt n : Vec D} (h : 1 / 10 ^ 12 ≤ |n g.last|) :
    computeG0 g pt n = pt g.last / |n g.last| := by
  unfold computeG0
  rw [if_neg (not_lt.2 h)]
  dsimp only
  rw [abs_div]
  split
  · rename_i hn; rw [abs_of_neg hn]; ring
  · rename_i hn; rw [abs_of_nonneg (not_lt.1 hn)]

theorem abs_copysign (x : ℝ) : |copysign1 x| = 1 := by
  unfold copysign1; split <;> simp

theorem newPt_lin (fbs : Nat) (fb : Vec D → Nat → Vec D) (u v : Nat → ℝ) (off : Nat) (pt : Vec D) (t : ℝ) (k : Fin D) :
    newPt fbs fb (fun i => u (off + i) + t * v (off + i)) pt k =
      newPt fbs fb (fun i => u (off + i)) pt k + t * ∑ i ∈ range fbs, fb pt i k * v (off + i) := by
  unfold newPt
  rw [mul_sum, add_assoc, ← sum_add_distrib]
  congr 1
  exact sum_congr rfl fun i _ => by ring

theorem newPt_deriv (fbs : Nat) (fb : Vec D → Nat → Vec D) (u v : Nat → ℝ) (off : Nat) (pt : Vec D) (k : Fin D) :
    HasDerivAt (fun t : ℝ => newPt fbs fb (fun i => u (off + i) + t * v (off + i)) pt k)
      (∑ i ∈ range fbs, fb pt i k * v (off + i)) 0 := by
  simp only [newPt_lin]
  simpa using ((hasDerivAt_id (0 : ℝ)).mul_const (∑ i ∈ range fbs, fb pt i k * v (off + i))).const_add
    (newPt fbs fb (fun i => u (off + i)) pt k)

/-- The distance along a normal that is vertical to begin with changes as the height. -/
theorem flat_deriv {c : ℝ → Vec D} {c' : Vec D} {y : ℝ → ℝ} {y' : ℝ} {l : Fin D}
    (hc : ∀ k, HasDerivAt (fun t => c t k) (c' k) 0) (hy : HasDerivAt y y' 0)
    (h0 : ∀ k, k ≠ l → c 0 k = 0) (hl : c 0 l ≠ 0) :
    HasDerivAt (fun t => y t / (|c t l| / norm (c t))) y' 0 := by
  have hd : HasDerivAt (fun t => dot (c t) (c t)) (2 * c 0 l * c' l) 0 := by
    have h := HasDerivAt.fun_sum (u := univ) fun k _ => (hc k).mul (hc k)
    refine HasDerivAt.congr_deriv (f := fun t => dot (c t) (c t)) h ?_
    rw [sum_eq_single l]
    · ring
    · intro k _ hk; rw [h0 k hk]; ring
    · intro h; exact absurd (mem_univ _) h
  have hd0 : dot (c 0) (c 0) = c 0 l * c 0 l := by
    unfold dot
    rw [sum_eq_single l]
    · intro k _ hk; rw [h0 k hk]; ring
    · intro h; exact absurd (mem_univ _) h
  have hR : HasDerivAt (fun t => dot (c t) (c t) / (c t l * c t l)) 0 0 := by
    have h := hd.div ((hc l).mul (hc l)) (by simpa using hl)
    refine HasDerivAt.congr_deriv (f := fun t => dot (c t) (c t) / (c t l * c t l)) h ?_
    simp only [hd0, Pi.mul_apply]
    ring
  have hR0 : dot (c 0) (c 0) / (c 0 l * c 0 l) = 1 := by rw [hd0]; exact div_self (mul_ne_zero hl hl)
  have hS := hR.sqrt (by rw [hR0]; exact one_ne_zero)
  have hP := hy.mul hS
  have hP' : HasDerivAt (fun t => y t * Real.sqrt (dot (c t) (c t) / (c t l * c t l))) y' 0 := by
    refine HasDerivAt.congr_deriv (f := fun t => y t * Real.sqrt (dot (c t) (c t) / (c t l * c t l))) hP ?_
    rw [hR0]
    simp
  refine hP'.congr_of_eventuallyEq ?_
  filter_upwards with t
  rw [Real.sqrt_div (dot_self_nonneg _), Real.sqrt_mul_self_eq_abs]
  unfold norm
  rw [div_div_eq_mul_div, mul_div_assoc]

theorem flat_event {c : ℝ → Vec D} {c' : Vec D} {l : Fin D} (hc : ∀ k, HasDerivAt (fun t => c t k) (c' k) 0)
    (h0 : ∀ k, k ≠ l → c 0 k = 0) (hl : c 0 l ≠ 0) :
    ∀ᶠ t in nhds (0 : ℝ), 1 / 10 ^ 12 ≤ |c t l| / norm (c t) := by
  have hd0 : norm (c 0) = |c 0 l| := by
    unfold norm dot
    rw [sum_eq_single l]
    · exact Real.sqrt_mul_self_eq_abs _
    · intro k _ hk; rw [h0 k hk]; ring
    · intro h; exact absurd (mem_univ _) h
  have hcont : ContinuousAt (fun t => |c t l| / norm (c t)) 0 := by
    refine ContinuousAt.div (hc l).continuousAt.abs ?_ (by rw [hd0]; simpa using hl)
    have h : ContinuousAt (fun t => dot (c t) (c t)) 0 :=
      tendsto_finsetSum _ fun k _ => (hc k).continuousAt.mul (hc k).continuousAt
    exact h.sqrt
  have h1 : (fun t => |c t l| / norm (c t)) 0 = 1 := by
    simp only [hd0]; exact div_self (by simpa using hl)
  have := hcont.eventually_const_lt (u := 1 / 10 ^ 12) (by rw [h1]; norm_num)
  filter_upwards [this] with t ht using ht.le

/-- The edge, turned by a right angle. -/
def turned (p q : Vec 2) : Vec 2 := ![-(q 1 - p 1), q 0 - p 0]

theorem normal2_last (P : Nat → Vec 2) : |normal2 P 1| = |turned (P 0) (P 1) 1| / norm (turned (P 0) (P 1)) := by
  unfold normal2 turned
  simp only [abs_div]
  congr 1
  exact abs_of_nonneg (norm_nonneg' _)

theorem cross_smul (a b : ℝ) (x y : Vec 3) :
    cross (fun k => x k / a) (fun k => y k / b) = fun k => 1 / (a * b) * cross x y k := by
  funext k
  unfold cross
  fin_cases k <;> simp <;> ring

theorem norm_smul' (c : ℝ) (x : Vec D) : norm (fun k => c * x k) = |c| * norm x := by
  unfold norm
  rw [dot_smul, dot_comm, dot_smul, ← mul_assoc, Real.sqrt_mul (mul_self_nonneg _), Real.sqrt_mul_self_eq_abs]

theorem norm_eq_zero' {x : Vec D} (h : norm x = 0) (k : Fin D) : x k = 0 := by
  have h1 : dot x x = 0 := by rw [← norm_sq, h, mul_zero]
  have := (sum_eq_zero_iff_of_nonneg fun i _ => mul_self_nonneg (x i)).1 h1 k (mem_univ _)
  exact mul_self_eq_zero.1 this

theorem normal3_last (P : Nat → Vec 3) :
    |normal3 P 2| = |cross (fun k => P 1 k - P 0 k) (fun k => P 2 k - P 0 k) 2| /
      norm (cross (fun k => P 1 k - P 0 k) fun k => P 2 k - P 0 k) := by
  unfold normal3
  dsimp only
  set x : Vec 3 := fun k => P 1 k - P 0 k
  set y : Vec 3 := fun k => P 2 k - P 0 k
  rw [cross_smul, norm_smul']
  rw [abs_div, abs_mul, abs_mul, abs_abs, abs_of_nonneg (norm_nonneg' (cross x y))]
  by_cases h : norm x * norm y = 0
  · have hz : cross x y 2 = 0 := by
      rcases mul_eq_zero.1 h with h | h
      · simp [cross, norm_eq_zero' h]
      · simp [cross, norm_eq_zero' h]
    rw [hz]
    simp
  · exact mul_div_mul_left _ _ (abs_ne_zero.2 (one_div_ne_zero h))

theorem gap2_deriv {d : Data 2} (hgeo : d.geo = geo2) {fc : Face 2} (off : Nat) (hc : fc.ctype ≠ .signoriniCell)
    (hn : fc.n = ![0, -1]) {u : Nat → ℝ} (hl : Level2 fc off u) (v : Nat → ℝ) (p : Vec 2) :
    HasDerivAt (fun t : ℝ => gap d fc off (fun i => u i + t * v i) p) (-along fc.n (disp d fc off v p)) 0 := by
  let P : ℝ → Nat → Vec 2 := fun t i => newPt fc.fbs fc.fb (fun j => u (off + j) + t * v (off + j)) (fc.pts i)
  let c : ℝ → Vec 2 := fun t => turned (P t 0) (P t 1)
  have hP := fun (i : Nat) (k : Fin 2) => newPt_deriv fc.fbs fc.fb u v off (fc.pts i) k
  have hc' : ∀ k, HasDerivAt (fun t => c t k) (turned (fun k => ∑ i ∈ range fc.fbs, fc.fb (fc.pts 0) i k * v (off + i))
      (fun k => ∑ i ∈ range fc.fbs, fc.fb (fc.pts 1) i k * v (off + i)) k) 0 := by
    intro k
    fin_cases k
    · exact ((hP 1 1).sub (hP 0 1)).neg
    · exact (hP 1 0).sub (hP 0 0)
  have h00 : ∀ i, P 0 i = moved fc off u i := by
    intro i; simp only [P, moved, zero_mul, add_zero]
  have h0 : ∀ k, k ≠ (1 : Fin 2) → c 0 k = 0 := by
    intro k hk
    fin_cases k
    · show -(P 0 1 1 - P 0 0 1) = 0
      rw [h00, h00, hl.1]; ring
    · exact absurd rfl hk
  have h1 : c 0 1 ≠ 0 := by
    show P 0 1 0 - P 0 0 0 ≠ 0
    rw [h00, h00]
    exact sub_ne_zero.2 (Ne.symm hl.2)
  have h := flat_deriv hc' (newPt_deriv fc.fbs fc.fb u v off p 1) h0 h1
  have hv : -along fc.n (disp d fc off v p) = ∑ i ∈ range fc.fbs, fc.fb p i 1 * v (off + i) := by
    unfold along disp
    rw [hn]
    simp only [hc, if_false, Fin.sum_univ_two]
    simp [mul_comm]
  rw [hv]
  refine h.congr_of_eventuallyEq ?_
  filter_upwards [flat_event hc' h0 h1] with t ht
  unfold gap
  rw [if_neg hc, hgeo]
  unfold computeGap
  have e : |copysign1 (dot fc.n (geo2.normal fc.pts)) * normal2 (P t) 1| = |c t 1| / norm (c t) := by
    rw [abs_mul, abs_copysign, one_mul, normal2_last]
  dsimp only
  rw [g0_eq]
  · show _ / |copysign1 (dot fc.n (geo2.normal fc.pts)) * normal2 (P t) 1| = _
    rw [e]
    rfl
  · show _ ≤ |copysign1 (dot fc.n (geo2.normal fc.pts)) * normal2 (P t) 1|
    rw [e]
    exact ht

theorem gap3_deriv {d : Data 3} (hgeo : d.geo = geo3) {fc : Face 3} (off : Nat) (hc : fc.ctype ≠ .signoriniCell)
    (hn : fc.n = ![0, 0, -1]) {u : Nat → ℝ} (hl : Level3 fc off u) (v : Nat → ℝ) (p : Vec 3) :
    HasDerivAt (fun t : ℝ => gap d fc off (fun i => u i + t * v i) p) (-along fc.n (disp d fc off v p)) 0 := by
  let P : ℝ → Nat → Vec 3 := fun t i => newPt fc.fbs fc.fb (fun j => u (off + j) + t * v (off + j)) (fc.pts i)
  let c : ℝ → Vec 3 := fun t => cross (fun k => P t 1 k - P t 0 k) fun k => P t 2 k - P t 0 k
  have hP := fun (i : Nat) (k : Fin 3) => newPt_deriv fc.fbs fc.fb u v off (fc.pts i) k
  have hc' : ∃ c' : Vec 3, ∀ k, HasDerivAt (fun t => c t k) (c' k) 0 := by
    have : ∀ k, ∃ y : ℝ, HasDerivAt (fun t => c t k) y 0 := by
      intro k
      fin_cases k
      · exact ⟨_, (((hP 1 1).sub (hP 0 1)).mul ((hP 2 2).sub (hP 0 2))).sub
          (((hP 1 2).sub (hP 0 2)).mul ((hP 2 1).sub (hP 0 1)))⟩
      · exact ⟨_, (((hP 1 2).sub (hP 0 2)).mul ((hP 2 0).sub (hP 0 0))).sub
          (((hP 1 0).sub (hP 0 0)).mul ((hP 2 2).sub (hP 0 2)))⟩
      · exact ⟨_, (((hP 1 0).sub (hP 0 0)).mul ((hP 2 1).sub (hP 0 1))).sub
          (((hP 1 1).sub (hP 0 1)).mul ((hP 2 0).sub (hP 0 0)))⟩
    exact ⟨fun k => (this k).choose, fun k => (this k).choose_spec⟩
  obtain ⟨c', hc'⟩ := hc'
  have h00 : ∀ i, P 0 i = moved fc off u i := by
    intro i; simp only [P, moved, zero_mul, add_zero]
  obtain ⟨hl1, hl2, hl3⟩ := hl
  have h0 : ∀ k, k ≠ (2 : Fin 3) → c 0 k = 0 := by
    intro k hk
    fin_cases k
    · show (P 0 1 1 - P 0 0 1) * (P 0 2 2 - P 0 0 2) - (P 0 1 2 - P 0 0 2) * (P 0 2 1 - P 0 0 1) = 0
      simp only [h00, ← hl1, ← hl2]; ring
    · show (P 0 1 2 - P 0 0 2) * (P 0 2 0 - P 0 0 0) - (P 0 1 0 - P 0 0 0) * (P 0 2 2 - P 0 0 2) = 0
      simp only [h00, ← hl1, ← hl2]; ring
    · exact absurd rfl hk
  have h1 : c 0 2 ≠ 0 := by
    show (P 0 1 0 - P 0 0 0) * (P 0 2 1 - P 0 0 1) - (P 0 1 1 - P 0 0 1) * (P 0 2 0 - P 0 0 0) ≠ 0
    simp only [h00]
    exact sub_ne_zero.2 hl3
  have h := flat_deriv hc' (newPt_deriv fc.fbs fc.fb u v off p 2) h0 h1
  have hv : -along fc.n (disp d fc off v p) = ∑ i ∈ range fc.fbs, fc.fb p i 2 * v (off + i) := by
    unfold along disp
    rw [hn]
    simp only [hc, if_false, Fin.sum_univ_three]
    simp [mul_comm]
  rw [hv]
  refine h.congr_of_eventuallyEq ?_
  filter_upwards [flat_event hc' h0 h1] with t ht
  unfold gap
  rw [if_neg hc, hgeo]
  unfold computeGap
  have e : |copysign1 (dot fc.n (geo3.normal fc.pts)) * normal3 (P t) 2| = |c t 2| / norm (c t) := by
    rw [abs_mul, abs_copysign, one_mul, normal3_last]
  dsimp only
  rw [g0_eq]
  · show _ / |copysign1 (dot fc.n (geo3.normal fc.pts)) * normal3 (P t) 2| = _
    rw [e]
    rfl
  · show _ ≤ |copysign1 (dot fc.n (geo3.normal fc.pts)) * normal3 (P t) 2|
    rw [e]
    exact ht

end Verif.Contact
