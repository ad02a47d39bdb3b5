import Verif.Model.Plastic
import Verif.Spec.Plastic
import Verif.Lemmas.Mech
import Mathlib.Analysis.SpecialFunctions.Sqrt
import Mathlib.Analysis.Calculus.Deriv.Inv
import Mathlib.Tactic.LinearCombination
/-!
The return mapping of von Mises plasticity.
-/
namespace Verif.Lemmas.Plastic
open Verif.Tensor Verif.TensorConv Verif.Mech Verif.Plastic Verif.Spec Verif.Lemmas.Mech Finset

theorem tr3_eq (A : Mat ℝ 3) : tr3 A = trace A := by simp [tr3, trace, Fin.sum_univ_three]
theorem delta_eq : delta = idm 3 := rfl
theorem dev3_eq (A : Mat ℝ 3) : dev3 A = deviator A := by
  funext i j
  simp [dev3, deviator, tr3_eq, delta_eq]
theorem misesNorm_eq (A : Mat ℝ 3) : misesNorm A = sigmaeq A := rfl
theorem hooke_eq (d : Data) (e : Mat ℝ 3) : hooke d.lambda d.mu e = elasticStress d e := by
  funext i j
  simp [hooke, elasticStress, tr3_eq, delta_eq]

theorem deviator_elasticStress (d : Data) (e : Mat ℝ 3) : deviator (elasticStress d e) = (2 * d.mu) • deviator e := by
  rw [elasticStress, deviator_add, deviator_smul, deviator_smul, deviator_idm (by norm_num), smul_zero, add_zero]

theorem relStress_eq (d : Data) (ee ep : Mat ℝ 3) :
    relStress d.lambda d.mu d.K ee ep = (2 * d.mu) • deviator ee - d.K • ep := by
  funext i j
  simp only [relStress, hooke_eq, dev3_eq, deviator_elasticStress, Pi.sub_apply, Pi.smul_apply, smul_eq_mul]

theorem sigmaeq_nonneg (A : Mat ℝ 3) : 0 ≤ sigmaeq A := Real.sqrt_nonneg _

theorem sigmaeq_sq (A : Mat ℝ 3) : sigmaeq A ^ 2 = 3 / 2 * sqNorm A :=
  Real.sq_sqrt (by have := sqNorm_nonneg A; positivity)

theorem sigmaeq_smul {c : ℝ} (hc : 0 ≤ c) (A : Mat ℝ 3) : sigmaeq (c • A) = c * sigmaeq A := by
  rw [sigmaeq, sqNorm_smul, show 3 / 2 * (c ^ 2 * sqNorm A) = c ^ 2 * (3 / 2 * sqNorm A) by ring,
    Real.sqrt_mul (sq_nonneg c), Real.sqrt_sq hc, sigmaeq]

theorem not_traceBad {A : Mat ℝ 3} (h : trace A = 0) : ¬ traceBad A := by
  rw [traceBad, h, abs_zero, zero_div]
  norm_num

/-- The radial return solves the equations of the Euler step. -/
theorem euler_plastic {d : Data} {R : ℝ → ℝ} {ep0 eps se : Mat ℝ 3} {p0 dp : ℝ} (htr : trace ep0 = 0)
    (hse : se = (2 * d.mu) • deviator (eps - ep0) - d.K • ep0) (hpos : 0 < sigmaeq se) (hdp : 0 ≤ dp)
    (hR : 0 ≤ R (p0 + dp)) (heq : R (p0 + dp) + (3 * d.mu + 3 * d.K / 2) * dp = sigmaeq se) :
    EulerStep d.lambda d.mu d.K R ep0 p0 eps (eps - ep0 - dp • ((3 / (2 * sigmaeq se)) • se))
      (ep0 + dp • ((3 / (2 * sigmaeq se)) • se)) (p0 + dp) := by
  have hne := hpos.ne'
  have htse : trace se = 0 := by
    rw [hse, trace_sub, trace_smul, trace_smul, trace_deviator (by norm_num), htr]; ring
  have hdev : deviator se = se := deviator_of_trace htse
  have hrel : relStress d.lambda d.mu d.K (eps - ep0 - dp • ((3 / (2 * sigmaeq se)) • se))
      (ep0 + dp • ((3 / (2 * sigmaeq se)) • se)) = (R (p0 + dp) / sigmaeq se) • se := by
    rw [relStress_eq, deviator_sub, deviator_smul, deviator_smul, hdev]
    have h1 : (2 * d.mu) • deviator (eps - ep0) = se + d.K • ep0 := by rw [hse]; abel
    rw [smul_sub, h1]
    funext i j
    simp only [Pi.add_apply, Pi.sub_apply, Pi.smul_apply, smul_eq_mul]
    have : R (p0 + dp) = sigmaeq se - (3 * d.mu + 3 * d.K / 2) * dp := by linarith
    rw [this]
    field_simp
    ring
  have hnorm : misesNorm (relStress d.lambda d.mu d.K (eps - ep0 - dp • ((3 / (2 * sigmaeq se)) • se))
      (ep0 + dp • ((3 / (2 * sigmaeq se)) • se))) = R (p0 + dp) := by
    rw [misesNorm_eq, hrel, sigmaeq_smul (div_nonneg hR hpos.le), div_mul_cancel₀ _ hne]
  refine ⟨fun i j => ?_, hnorm.le, by linarith, by rw [hnorm]; ring, (3 / (2 * sigmaeq se)) • se, fun i j => ?_,
    fun i j => ?_⟩
  · simp only [Pi.add_apply, Pi.sub_apply]; ring
  · rw [hnorm, hrel]
    simp only [Pi.smul_apply, smul_eq_mul]
    field_simp
  · simp only [Pi.add_apply, Pi.smul_apply, smul_eq_mul]; ring

theorem euler_elastic {d : Data} {R : ℝ → ℝ} {ep0 eps se : Mat ℝ 3} {p0 : ℝ}
    (hse : se = (2 * d.mu) • deviator (eps - ep0) - d.K • ep0) (h : sigmaeq se ≤ R p0) :
    EulerStep d.lambda d.mu d.K R ep0 p0 eps (eps - ep0) ep0 p0 := by
  have hrel : relStress d.lambda d.mu d.K (eps - ep0) ep0 = se := by rw [relStress_eq, hse]
  refine ⟨fun i j => by simp only [Pi.sub_apply]; ring, ?_, le_rfl, by ring, ?_⟩
  · rw [hrel]; exact h
  · rcases (sigmaeq_nonneg se).eq_or_lt with h0 | h0
    · refine ⟨0, fun i j => ?_, fun i j => by simp⟩
      have : se = 0 := by
        rw [← sqNorm_eq_zero]
        have := sigmaeq_sq se
        rw [← h0] at this
        linarith
      rw [hrel, this]; simp
    · refine ⟨(3 / (2 * sigmaeq se)) • se, fun i j => ?_, fun i j => by ring⟩
      rw [hrel, misesNorm_eq]
      simp only [Pi.smul_apply, smul_eq_mul]
      have := h0.ne'
      field_simp

/-- What every solution of the equations of the Euler step looks like. -/
theorem euler_form {d : Data} {R : ℝ → ℝ} {ep0 eps se ee ep : Mat ℝ 3} {p0 p : ℝ} (hmu : 0 < d.mu) (hK : 0 ≤ d.K)
    (htr : trace ep0 = 0) (hse : se = (2 * d.mu) • deviator (eps - ep0) - d.K • ep0) (hRpos : 0 < R p)
    (h : EulerStep d.lambda d.mu d.K R ep0 p0 eps ee ep p) :
    (p = p0 ∧ ep = ep0 ∧ ee = eps - ep0 ∧ sigmaeq se ≤ R p0) ∨
    (p0 < p ∧ R p + (3 * d.mu + 3 * d.K / 2) * (p - p0) = sigmaeq se ∧
      ep = ep0 + (p - p0) • ((3 / (2 * sigmaeq se)) • se) ∧ ee = eps - ep) := by
  obtain ⟨hsplit, hy, hg, hc, n, hn, hf⟩ := h
  have hee : ee = eps - ep := by funext i j; simp only [Pi.sub_apply, hsplit i j]; ring
  rcases hg.eq_or_lt with h0 | h0
  · have hep : ep = ep0 := by funext i j; rw [hf i j, h0]; ring
    subst h0
    left
    refine ⟨rfl, hep, by rw [hee, hep], ?_⟩
    rw [hee, hep, relStress_eq, ← hse] at hy
    exact hy
  · right
    have hR : misesNorm (relStress d.lambda d.mu d.K ee ep) = R p := by
      rcases mul_eq_zero.mp hc with h1 | h1 <;> linarith
    set s := relStress d.lambda d.mu d.K ee ep with hs
    set dp := p - p0 with hdp
    have hdp0 : 0 < dp := by linarith
    have hn' : n = (3 / (2 * R p)) • s := by
      funext i j
      have := hn i j
      rw [hR] at this
      simp only [Pi.smul_apply, smul_eq_mul]
      field_simp
      linarith
    have hep : ep = ep0 + (dp * (3 / (2 * R p))) • s := by
      funext i j
      rw [hf i j, hn']
      simp only [Pi.add_apply, Pi.smul_apply, smul_eq_mul]; ring
    have hc0 : 0 < dp * (3 / (2 * R p)) := by positivity
    set c := dp * (3 / (2 * R p)) with hcdef
    have hs1 : s = (2 * d.mu) • deviator (eps - ep) - d.K • ep := by rw [hs, relStress_eq, hee]
    have hts : trace s = 0 := by
      have t1 : trace s = -(d.K * trace ep) := by
        rw [hs1, trace_sub, trace_smul, trace_smul, trace_deviator (by norm_num)]; ring
      have t2 : trace ep = c * trace s := by rw [hep, trace_add, htr, trace_smul]; ring
      have t3 : trace s * (1 + d.K * c) = 0 := by rw [t2] at t1; linear_combination t1
      rcases mul_eq_zero.mp t3 with h | h
      · exact h
      · exfalso; have := mul_nonneg hK hc0.le; linarith
    have hse2 : se = (1 + (2 * d.mu + d.K) * c) • s := by
      have e1 : deviator (eps - ep) = deviator (eps - ep0) - c • s := by
        rw [hep, ← sub_sub, deviator_sub, deviator_smul, deviator_of_trace hts]
      rw [e1] at hs1
      have e2 : d.K • ep = d.K • ep0 + (d.K * c) • s := by rw [hep, smul_add, smul_smul]
      rw [e2] at hs1
      funext i j
      have := congrFun (congrFun hs1 i) j
      have h2 := congrFun (congrFun hse i) j
      simp only [Pi.add_apply, Pi.sub_apply, Pi.smul_apply, smul_eq_mul] at *
      linear_combination h2 - this
    have hpos : 0 < 1 + (2 * d.mu + d.K) * c := by positivity
    have hsig : sigmaeq se = (1 + (2 * d.mu + d.K) * c) * R p := by
      rw [hse2, sigmaeq_smul hpos.le, ← hR, misesNorm_eq]
    refine ⟨h0, ?_, ?_, hee⟩
    · rw [hsig, hcdef]
      field_simp
    · rw [hep, hsig]
      conv_rhs => rw [hse2]
      rw [hcdef]
      funext i j
      simp only [Pi.add_apply, Pi.smul_apply, smul_eq_mul]
      have h1 := hpos.ne'
      rw [hcdef] at h1
      field_simp

theorem euler_unique {d : Data} {R : ℝ → ℝ} {ep0 eps ee ep ee' ep' : Mat ℝ 3} {p0 p p' : ℝ} (hmu : 0 < d.mu)
    (hK : 0 ≤ d.K) (htr : trace ep0 = 0) (hRpos : ∀ p, p0 ≤ p → 0 < R p)
    (hmono : StrictMonoOn (fun p => R p + (3 * d.mu + 3 * d.K / 2) * p) (Set.Ici p0))
    (h : EulerStep d.lambda d.mu d.K R ep0 p0 eps ee ep p) (h' : EulerStep d.lambda d.mu d.K R ep0 p0 eps ee' ep' p') :
    ee = ee' ∧ ep = ep' ∧ p = p' := by
  have f := euler_form hmu hK htr rfl (hRpos p h.grows) h
  have f' := euler_form hmu hK htr rfl (hRpos p' h'.grows) h'
  have key : ∀ {p : ℝ} {x : ℝ}, p0 < p → R p + (3 * d.mu + 3 * d.K / 2) * (p - p0) = x → ¬ x ≤ R p0 := by
    intro p x hp hx hle
    have := hmono (Set.mem_Ici.mpr le_rfl) (Set.mem_Ici.mpr hp.le) hp
    dsimp only at this
    linarith
  rcases f with ⟨a1, a2, a3, a4⟩ | ⟨a1, a2, a3, a4⟩ <;> rcases f' with ⟨b1, b2, b3, b4⟩ | ⟨b1, b2, b3, b4⟩
  · exact ⟨a3.trans b3.symm, a2.trans b2.symm, a1.trans b1.symm⟩
  · exact absurd a4 (key b1 b2)
  · exact absurd b4 (key a1 a2)
  · have hp : p = p' := by
      refine hmono.injOn (Set.mem_Ici.mpr a1.le) (Set.mem_Ici.mpr b1.le) ?_
      linarith
    have hep : ep = ep' := by rw [a3, b3, hp]
    exact ⟨by rw [a4, b4, hep], hep, hp⟩

/-! ### Derivatives along paths -/

theorem velocity_trace {D : Nat} {A : ℝ → Mat ℝ D} {H : Mat ℝ D} {t : ℝ} (h : Velocity A H t) :
    HasDerivAt (fun s => trace (A s)) (trace H) t := by
  unfold trace
  exact HasDerivAt.fun_sum fun i _ => h i i

theorem velocity_inner {D : Nat} {A B : ℝ → Mat ℝ D} {H G : Mat ℝ D} {t : ℝ} (h : Velocity A H t)
    (g : Velocity B G t) : HasDerivAt (fun s => inner (A s) (B s)) (inner H (B t) + inner (A t) G) t := by
  unfold inner
  have := HasDerivAt.fun_sum (u := univ) fun i (_ : i ∈ univ) =>
    HasDerivAt.fun_sum (u := univ) fun j (_ : j ∈ univ) => (h i j).fun_mul (g i j)
  simpa only [sum_add_distrib] using this

theorem velocity_deviator {D : Nat} {A : ℝ → Mat ℝ D} {H : Mat ℝ D} {t : ℝ} (h : Velocity A H t) :
    Velocity (fun s => deviator (A s)) (deviator H) t := fun i j =>
  (h i j).fun_sub (((velocity_trace h).div_const _).mul_const _)

theorem velocity_sqNorm {D : Nat} {A : ℝ → Mat ℝ D} {H : Mat ℝ D} {t : ℝ} (h : Velocity A H t) :
    HasDerivAt (fun s => sqNorm (A s)) (2 * inner (A t) H) t :=
  (velocity_inner h h).congr_deriv (by rw [inner_comm H]; ring)

theorem velocity_sigmaeq {A : ℝ → Mat ℝ 3} {H : Mat ℝ 3} {t : ℝ} (h : Velocity A H t) (hpos : 0 < sigmaeq (A t)) :
    HasDerivAt (fun s => sigmaeq (A s)) (3 / 2 * inner (A t) H / sigmaeq (A t)) t := by
  have h0 : 3 / 2 * sqNorm (A t) ≠ 0 := fun h0 => by
    rw [sigmaeq, h0, Real.sqrt_zero] at hpos
    exact lt_irrefl _ hpos
  refine (((velocity_sqNorm h).const_mul (3 / 2)).sqrt h0).congr_deriv ?_
  show _ / (2 * sigmaeq (A t)) = _
  have := hpos.ne'
  field_simp

theorem velocity_elasticStress (d : Data) {A : ℝ → Mat ℝ 3} {H : Mat ℝ 3} {t : ℝ} (h : Velocity A H t) :
    Velocity (fun s => elasticStress d (A s)) (elasticStress d H) t := fun i j =>
  ((h i j).const_mul (2 * d.mu)).fun_add (((velocity_trace h).const_mul d.lambda).mul_const _)

theorem tmProd_add {D : Nat} (A B : Tens ℝ D) (M : Mat ℝ D) : tmProd (A + B) M = tmProd A M + tmProd B M := by
  funext i j
  simp only [tmProd, Pi.add_apply, _root_.add_mul, sum_add_distrib]
theorem tmProd_sub {D : Nat} (A B : Tens ℝ D) (M : Mat ℝ D) : tmProd (A - B) M = tmProd A M - tmProd B M := by
  funext i j
  simp only [tmProd, Pi.sub_apply, _root_.sub_mul, sum_sub_distrib]
theorem tmProd_smul {D : Nat} (c : ℝ) (A : Tens ℝ D) (M : Mat ℝ D) : tmProd (c • A) M = c • tmProd A M := by
  funext i j
  simp only [tmProd, Pi.smul_apply, smul_eq_mul, mul_sum, _root_.mul_assoc]
theorem tmProd_zero {D : Nat} (M : Mat ℝ D) : tmProd (0 : Tens ℝ D) M = 0 := by
  funext i j
  simp [tmProd]
theorem tmProd_sym {D : Nat} (hD : D = 1 ∨ D = 2 ∨ D = 3) {M : Mat ℝ D} (h : Symm M) : tmProd (identitySym ℝ D) M = M := by
  funext i j
  show ∑ k, ∑ l, get (identitySym ℝ D) ⟨i, j, k, l⟩ * M k l = _
  simp only [get_identitySym (two_ne_zero (α := ℝ)) hD, add_div, _root_.add_mul, sum_add_distrib]
  simp only [ite_and, ite_div, ite_mul, zero_div, zero_mul]
  simp
  rw [h j i]
  ring
theorem tmProd_ixi {D : Nat} (M : Mat ℝ D) : tmProd (ixi ℝ D) M = trace M • idm D := by
  funext i j
  show ∑ k, ∑ l, get (ixi ℝ D) ⟨i, j, k, l⟩ * M k l = _
  simp only [get_ixi, ite_and, ite_mul, one_mul, zero_mul]
  by_cases h : i = j <;> simp [h, idm, trace]
theorem tmProd_kronecker {D : Nat} (A B M : Mat ℝ D) : tmProd (kronecker A B) M = inner B M • A := by
  funext i j
  show ∑ k, ∑ l, get (kronecker A B) ⟨i, j, k, l⟩ * M k l = _
  simp only [get_kronecker, inner, Pi.smul_apply, smul_eq_mul, sum_mul]
  exact sum_congr rfl fun k _ => sum_congr rfl fun l _ => by ring

theorem tmProd_elastic (d : Data) {M : Mat ℝ 3} (h : Symm M) : tmProd (elasticModulus3D d) M = elasticStress d M := by
  rw [elasticModulus3D, tmProd_add, tmProd_smul, tmProd_smul, tmProd_sym (Or.inr (Or.inr rfl)) h, tmProd_ixi, smul_smul, elasticStress]

theorem tmProd_tangentTerm (mu dp seEq dem : ℝ) (n : Mat ℝ 3) {M : Mat ℝ 3} (h : Symm M) :
    tmProd (tangentTerm mu dp seEq dem n) M =
      (4 * (mu * mu) * (dp / seEq - 1 / dem) * inner n M) • n - (6 * (mu * mu) * dp / seEq) • deviator M := by
  rw [tangentTerm]
  rw [tmProd_sub, tmProd_smul, tmProd_smul, tmProd_sub, tmProd_smul, tmProd_kronecker, tmProd_sym (Or.inr (Or.inr rfl)) h, tmProd_ixi, smul_smul,
    smul_smul]
  congr 2
  funext i j
  simp only [deviator, Pi.sub_apply, Pi.smul_apply, smul_eq_mul]
  push_cast
  ring

/-- The derivative of the stress after a radial return. -/
theorem radial_deriv (d : Data) {e : ℝ → Mat ℝ 3} {E X : Mat ℝ 3} {t R0 dem : ℝ} (h : Velocity e E t) (hE : Symm E)
    (hX : trace X = 0) (hdem : dem ≠ 0) (hpos : 0 < sigmaeq ((2 * d.mu) • deviator (e t) - X)) :
    Velocity (fun s =>
        let se := (2 * d.mu) • deviator (e s) - X
        elasticStress d (e s - ((sigmaeq se - R0) / dem) • ((3 / (2 * sigmaeq se)) • se)))
      (tmProd (elasticModulus3D d +
        let se := (2 * d.mu) • deviator (e t) - X
        tangentTerm d.mu ((sigmaeq se - R0) / dem) (sigmaeq se) dem ((3 / (2 * sigmaeq se)) • se)) E) t := by
  dsimp only
  rw [tmProd_add, tmProd_elastic d hE, tmProd_tangentTerm _ _ _ _ _ hE]
  have hse : Velocity (fun s => (2 * d.mu) • deviator (e s) - X) ((2 * d.mu) • deviator E) t := fun i j =>
    ((velocity_deviator h i j).const_mul (2 * d.mu)).sub_const (X i j)
  have hq := velocity_sigmaeq hse hpos
  have htse : ∀ s, trace ((2 * d.mu) • deviator (e s) - X) = 0 := fun s => by
    rw [trace_sub, trace_smul, trace_deviator (by norm_num), hX]; ring
  have hin : inner ((2 * d.mu) • deviator (e t) - X) (deviator E) = inner ((2 * d.mu) • deviator (e t) - X) E := by
    rw [show deviator E = E - (trace E / (3 : ℕ)) • idm 3 from rfl, inner_sub_right, inner_smul_right, inner_idm, htse]
    ring
  have hform : ∀ s, elasticStress d (e s - ((sigmaeq ((2 * d.mu) • deviator (e s) - X) - R0) / dem) •
      ((3 / (2 * sigmaeq ((2 * d.mu) • deviator (e s) - X))) • ((2 * d.mu) • deviator (e s) - X))) =
      elasticStress d (e s) - (2 * d.mu * (((sigmaeq ((2 * d.mu) • deviator (e s) - X) - R0) / dem) *
        (3 / (2 * sigmaeq ((2 * d.mu) • deviator (e s) - X))))) • ((2 * d.mu) • deviator (e s) - X) := by
    intro s
    rw [elasticStress, trace_sub, trace_smul, trace_smul, htse, elasticStress]
    funext i j
    simp only [Pi.add_apply, Pi.sub_apply, Pi.smul_apply, smul_eq_mul]
    ring
  intro i j
  simp only [hform]
  have hne := hpos.ne'
  have d1 := ((hq.sub_const R0).div_const dem).fun_mul
    ((hasDerivAt_const t (3 : ℝ)).fun_div (hq.const_mul 2) (mul_ne_zero two_ne_zero hne))
  have d2 := (velocity_elasticStress d h i j).fun_sub ((d1.const_mul (2 * d.mu)).fun_mul (hse i j))
  refine d2.congr_deriv ?_
  rw [inner_smul_right, hin]
  simp only [Pi.add_apply, Pi.sub_apply, Pi.smul_apply, smul_eq_mul]
  have e5 : inner ((3 / (2 * sigmaeq ((2 * d.mu) • deviator (e t) - X))) • ((2 * d.mu) • deviator (e t) - X)) E =
      (3 / (2 * sigmaeq ((2 * d.mu) • deviator (e t) - X))) * inner ((2 * d.mu) • deviator (e t) - X) E :=
    inner_smul_left _ _ _
  rw [e5]
  generalize sigmaeq ((2 * d.mu) • deviator (e t) - X) = q at *
  generalize inner ((2 * d.mu) • deviator (e t) - X) E = w at *
  generalize deviator E i j = u
  generalize 2 * d.mu * deviator (e t) i j - X i j = v
  field_simp
  ring

end Verif.Lemmas.Plastic
