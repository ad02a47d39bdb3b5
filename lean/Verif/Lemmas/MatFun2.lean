import Verif.Lemmas.MatFun
import Mathlib.Analysis.Analytic.IsolatedZeros
import Mathlib.Analysis.Calculus.FDeriv.Analytic
import Mathlib.Analysis.Calculus.Deriv.Inv
/-!
The second derivative of functions of symmetric matrices.
-/
namespace Verif.Lemmas.MatFun
open Finset Matrix Filter Topology

variable {n : Nat} {C B : M n} {lam mu : Fin n → ℝ} {V W : M n} {f : ℝ → ℝ}

theorem dslope_comm (f : ℝ → ℝ) (a b : ℝ) : dslope f a b = dslope f b a := by
  by_cases h : b = a
  · rw [h]
  · rw [dslope_of_ne f h, dslope_of_ne f (Ne.symm h), slope_comm]

theorem analyticAt_dslope {a b : ℝ} (ha : AnalyticAt ℝ f a) (hb : AnalyticAt ℝ f b) : AnalyticAt ℝ (dslope f a) b := by
  by_cases h : b = a
  · subst h
    obtain ⟨p, hp⟩ := ha
    exact ⟨_, hp.has_fpower_series_dslope_fslope⟩
  · refine AnalyticAt.congr ?_ (dslope_eventuallyEq_slope_of_ne f h).symm
    have : slope f a = fun x => (x - a)⁻¹ * (f x - f a) := by
      funext x
      rw [slope_def_field, div_eq_inv_mul]
    rw [this]
    exact ((analyticAt_id.sub analyticAt_const).inv (sub_ne_zero.mpr h)).mul (hb.sub analyticAt_const)

/-- The divided difference is jointly continuous. -/
theorem tendsto_dslope {ι : Type} {l : Filter ι} {g : ℝ → ℝ} {x y : ι → ℝ} {a b : ℝ} (ha : AnalyticAt ℝ g a)
    (hb : AnalyticAt ℝ g b) (hx : Tendsto x l (𝓝 a)) (hy : Tendsto y l (𝓝 b)) :
    Tendsto (fun s => dslope g (x s) (y s)) l (𝓝 (dslope g a b)) := by
  by_cases h : b = a
  · subst h
    rw [dslope_same]
    have h1 := ha.hasStrictDerivAt
    have hd : Tendsto (fun s => deriv g (x s)) l (𝓝 (deriv g b)) := ha.deriv.continuousAt.tendsto.comp hx
    rw [Metric.tendsto_nhds] at hd ⊢
    intro e he
    have h2 : ∀ᶠ s in l, ‖g (y s) - g (x s) - (y s - x s) • deriv g b‖ ≤ e / 2 * ‖y s - x s‖ :=
      (hy.prodMk_nhds hx).eventually
        (h1.isLittleO.def (half_pos he) |>.mono fun p hp => by simpa using hp)
    filter_upwards [hd e he, h2] with s hs1 hs2
    by_cases hxy : y s = x s
    · rw [hxy, dslope_same]; exact hs1
    · have hne : y s - x s ≠ 0 := sub_ne_zero.mpr hxy
      rw [dslope_of_ne g hxy, slope_def_field, Real.dist_eq]
      rw [Real.norm_eq_abs, Real.norm_eq_abs, smul_eq_mul] at hs2
      have e1 : (g (y s) - g (x s)) / (y s - x s) - deriv g b =
          (g (y s) - g (x s) - (y s - x s) * deriv g b) / (y s - x s) := by field_simp
      rw [e1, abs_div, div_lt_iff₀ (abs_pos.mpr hne)]
      have := abs_pos.mpr hne
      nlinarith
  · rw [dslope_of_ne g h, slope_def_field]
    have hd : Tendsto (fun s => (g (y s) - g (x s)) / (y s - x s)) l (𝓝 ((g b - g a) / (b - a))) :=
      ((hb.continuousAt.tendsto.comp hy).sub (ha.continuousAt.tendsto.comp hx)).div (hy.sub hx) (sub_ne_zero.mpr h)
    refine hd.congr' ?_
    have : ∀ᶠ s in l, y s - x s ≠ 0 := (hy.sub hx).eventually_ne (sub_ne_zero.mpr h)
    filter_upwards [this] with s hs
    rw [dslope_of_ne g (sub_ne_zero.mp hs), slope_def_field]

/-- The second divided difference. -/
noncomputable def dd2 (f : ℝ → ℝ) (a x y : ℝ) : ℝ := dslope (dslope f a) x y

theorem deriv_slope {a b : ℝ} (h : b ≠ a) (hb : DifferentiableAt ℝ f b) :
    deriv (dslope f a) b = (deriv f b - dslope f a b) / (b - a) := by
  have hne : b - a ≠ 0 := sub_ne_zero.mpr h
  rw [(dslope_eventuallyEq_slope_of_ne f h).deriv_eq]
  have : slope f a = fun x => (f x - f a) / (x - a) := by funext x; rw [slope_def_field]
  have hd : HasDerivAt (fun x => (f x - f a) / (x - a)) _ b :=
    (hb.hasDerivAt.sub_const (f a)).fun_div ((hasDerivAt_id' b).sub_const a) hne
  rw [this, hd.deriv, dslope_of_ne f h, slope_def_field]
  field_simp

theorem dd2_symm (f : ℝ → ℝ) (a x y : ℝ) : dd2 f a x y = dd2 f a y x := dslope_comm _ _ _

theorem dd2_swap {a x y : ℝ} (ha : DifferentiableAt ℝ f a) (hx : DifferentiableAt ℝ f x) :
    dd2 f a x y = dd2 f x a y := by
  by_cases hax : a = x
  · rw [hax]
  have hxa : x ≠ a := fun h => hax h.symm
  have d1 : x - a ≠ 0 := sub_ne_zero.mpr hxa
  have d2 : a - x ≠ 0 := sub_ne_zero.mpr hax
  by_cases hya : y = a
  · subst hya
    rw [dd2, dslope_comm, dslope_of_ne _ hxa, slope_def_field, dslope_same, dd2, dslope_same, deriv_slope hax ha,
      dslope_comm f x y]
    field_simp
    ring
  by_cases hyx : y = x
  · subst hyx
    rw [dd2, dd2, dslope_same, deriv_slope hxa hx, dslope_of_ne (dslope f y) hxa, slope_def_field, dslope_same,
      dslope_comm f y a]
  · have d3 : y - x ≠ 0 := sub_ne_zero.mpr hyx
    have d4 : y - a ≠ 0 := sub_ne_zero.mpr hya
    rw [dd2, dd2, dslope_of_ne _ hyx, dslope_of_ne _ hya, slope_def_field, slope_def_field, dslope_of_ne _ hya,
      dslope_of_ne _ hxa, dslope_of_ne _ hyx, dslope_of_ne _ hax, slope_def_field, slope_def_field, slope_def_field,
      slope_def_field]
    field_simp
    ring

/-- The Schur multiplier `G` in the eigenbasis. -/
noncomputable def schur (G : ℝ → ℝ → ℝ) (lam : Fin n → ℝ) (V T : M n) : M n :=
  V * (Matrix.of fun i j => G (lam i) (lam j) * (Vᵀ * T * V) i j) * Vᵀ

theorem mixed_transpose (G : ℝ → ℝ → ℝ) (lam mu : Fin n → ℝ) (V W T : M n) :
    (V * (Matrix.of fun i j => G (lam i) (mu j) * (Vᵀ * T * W) i j) * Wᵀ)ᵀ =
      W * (Matrix.of fun i j => G (lam j) (mu i) * (Wᵀ * Tᵀ * V) i j) * Vᵀ := by
  rw [Matrix.transpose_mul, Matrix.transpose_mul, Matrix.transpose_transpose, ← Matrix.mul_assoc]
  congr 2
  ext i j
  have : Wᵀ * Tᵀ * V = (Vᵀ * T * W)ᵀ := by
    rw [Matrix.transpose_mul, Matrix.transpose_mul, Matrix.transpose_transpose, ← Matrix.mul_assoc]
  rw [transpose_apply, of_apply, of_apply, this, transpose_apply]

theorem schur_unique (G : ℝ → ℝ → ℝ) (h : Eig C lam V) (g : Eig C mu W) (T : M n) :
    schur G lam V T = schur G mu W T := by
  have e1 := mixed_unique G h g T
  have e2 := congrArg Matrix.transpose (mixed_unique (fun x y => G y x) g h Tᵀ)
  rw [mixed_transpose (fun x y => G y x), mixed_transpose (fun x y => G y x)] at e2
  rw [schur, schur, ← e1, Matrix.transpose_transpose] at *
  exact e2

/-- The derivative of `dfcn f (C) T` in the direction `H`. -/
noncomputable def d2fcn (f : ℝ → ℝ) (lam : Fin n → ℝ) (V T H : M n) : M n :=
  V * (Matrix.of fun i j => ∑ k, dd2 f (lam i) (lam k) (lam j) *
    ((Vᵀ * T * V) i k * (Vᵀ * H * V) k j + (Vᵀ * H * V) i k * (Vᵀ * T * V) k j)) * Vᵀ

/-- Row `i` of the mixed operator is a function of the right matrix. -/
theorem mixed_row (G : ℝ → ℝ → ℝ) (lam mu : Fin n → ℝ) (V W T : M n) (i b : Fin n) :
    ((Matrix.of fun i j => G (lam i) (mu j) * (Vᵀ * T * W) i j) * Wᵀ) i b =
      ((Vᵀ * T) * fcn (G (lam i)) mu W) i b := by
  rw [fcn, ← Matrix.mul_assoc, ← Matrix.mul_assoc, Matrix.mul_apply, Matrix.mul_apply]
  exact sum_congr rfl fun j _ => by rw [mul_diagonal, of_apply]; ring

/-- Column `j` of the mixed operator is a function of the left matrix. -/
theorem mixed_col (G : ℝ → ℝ → ℝ) (lam mu : Fin n → ℝ) (V W T : M n) (a j : Fin n) :
    (V * (Matrix.of fun i j => G (lam i) (mu j) * (Vᵀ * T * W) i j)) a j =
      (fcn (fun x => G x (mu j)) lam V * (T * W)) a j := by
  rw [fcn, Matrix.mul_assoc _ Vᵀ, Matrix.mul_apply, Matrix.mul_apply, ← Matrix.mul_assoc Vᵀ]
  exact sum_congr rfl fun i _ => by rw [mul_diagonal, of_apply]; ring

theorem dfcn_tendsto {Cs : ℝ → M n} {mus : ℝ → Fin n → ℝ} {Ws : ℝ → M n} {t : ℝ} {H T : M n}
    (h : ∀ s, Eig (Cs s) (mus s) (Ws s)) (hC : Tendsto (fun s => (s - t)⁻¹ • (Cs s - Cs t)) (𝓝[≠] t) (𝓝 H))
    (hc : Tendsto Cs (𝓝[≠] t) (𝓝 (Cs t)))
    (hf : ∀ i, AnalyticAt ℝ f (mus t i)) (hfs : ∀ᶠ s in 𝓝[≠] t, ∀ i, AnalyticAt ℝ f (mus s i)) :
    Tendsto (fun s => (s - t)⁻¹ • (dfcn f (mus s) (Ws s) T - dfcn f (mus t) (Ws t) T)) (𝓝[≠] t)
      (𝓝 (d2fcn f (mus t) (Ws t) T H)) := by
  -- the mixed operator
  set Psi : ℝ → M n := fun s =>
    Ws t * (Matrix.of fun i j => dslope f (mus t i) (mus s j) * ((Ws t)ᵀ * T * Ws s) i j) * (Ws s)ᵀ with hPsi
  have hsplit : ∀ s, (s - t)⁻¹ • (dfcn f (mus s) (Ws s) T - dfcn f (mus t) (Ws t) T) =
      (s - t)⁻¹ • (Psi s - dfcn f (mus t) (Ws t) T) + (s - t)⁻¹ • (dfcn f (mus s) (Ws s) T - Psi s) := fun s => by
    rw [← smul_add]; congr 1; abel
  have hd2 : d2fcn f (mus t) (Ws t) T H =
      Ws t * (Matrix.of fun i b => ((Ws t)ᵀ * T * dfcn (dslope f (mus t i)) (mus t) (Ws t) H) i b) +
      Ws t * (Matrix.of fun i b => ((Ws t)ᵀ * H * schur (dd2 f (mus t i)) (mus t) (Ws t) T) i b) := by
    rw [d2fcn, Matrix.mul_assoc, ← Matrix.mul_add]
    congr 1
    ext i b
    rw [Matrix.add_apply, of_apply, of_apply, dfcn, schur]
    simp only [← Matrix.mul_assoc]
    rw [Matrix.mul_apply, Matrix.mul_apply, Matrix.mul_apply, ← sum_add_distrib]
    refine sum_congr rfl fun j _ => ?_
    rw [← add_mul, of_apply, Matrix.mul_apply, Matrix.mul_apply, ← sum_add_distrib]
    congr 1
    refine sum_congr rfl fun k _ => ?_
    rw [of_apply, of_apply]
    show dslope (dslope f (mus t i)) (mus t k) (mus t j) * _ = _ * (dslope (dslope f (mus t i)) (mus t k) (mus t j) * _) +
      _ * (dslope (dslope f (mus t i)) (mus t k) (mus t j) * _)
    ring
  simp only [hsplit]
  rw [hd2]
  refine Tendsto.add ?_ ?_
  · have e : ∀ s, (s - t)⁻¹ • (Psi s - dfcn f (mus t) (Ws t) T) =
        Ws t * (Matrix.of fun i b => ((Ws t)ᵀ * T * ((s - t)⁻¹ • (fcn (dslope f (mus t i)) (mus s) (Ws s) -
          fcn (dslope f (mus t i)) (mus t) (Ws t)))) i b) := by
      intro s
      rw [hPsi]
      dsimp only
      rw [dfcn, Matrix.mul_assoc (Ws t) _ (Ws s)ᵀ, Matrix.mul_assoc (Ws t) _ (Ws t)ᵀ, ← Matrix.mul_sub, ← Matrix.mul_smul]
      congr 1
      ext i b
      rw [Matrix.smul_apply, Matrix.sub_apply, mixed_row, mixed_row, of_apply, Matrix.mul_smul, Matrix.mul_sub,
        Matrix.smul_apply, Matrix.sub_apply]
    simp only [e]
    refine tendsto_const_nhds.mul (tendsto_pi_nhds.mpr fun i => tendsto_pi_nhds.mpr fun b => ?_)
    have hh := fcn_tendsto (f := dslope f (mus t i)) h hC hc fun k =>
      (analyticAt_dslope (hf i) (hf k)).differentiableAt
    exact tendsto_pi_nhds.mp (tendsto_pi_nhds.mp ((tendsto_const_nhds (x := (Ws t)ᵀ * T)).mul hh) i) b
  · rw [tendsto_iff_ultrafilter]
    intro U hU
    obtain ⟨mu, W, hE, hW, hmu⟩ := eig_limit (U := U) h (hc.mono_left hU)
    have hT : Tendsto (fun s => (Ws s)ᵀ) U (𝓝 Wᵀ) := (continuous_id.matrix_transpose.tendsto _).comp hW
    have hfa : ∀ j, AnalyticAt ℝ f (mu j) := fun j => by
      obtain ⟨k, hk⟩ := (h t).mem hE j
      exact hk ▸ hf k
    -- column by column
    have e : ∀ s, (∀ i, AnalyticAt ℝ f (mus s i)) → (s - t)⁻¹ • (dfcn f (mus s) (Ws s) T - Psi s) =
        (Matrix.of fun a j => (Ws t * (Matrix.of fun i k => dd2 f (mus t i) (mus s k) (mus s j) *
          ((Ws t)ᵀ * ((s - t)⁻¹ • (Cs s - Cs t)) * Ws s) i k) * (Ws s)ᵀ * (T * Ws s)) a j) * (Ws s)ᵀ := by
      intro s hs'
      rw [hPsi]
      dsimp only
      rw [dfcn, ← Matrix.sub_mul, ← Matrix.smul_mul]
      congr 1
      ext a j
      rw [Matrix.smul_apply, Matrix.sub_apply, mixed_col, mixed_col, of_apply, ← Matrix.sub_apply, ← Matrix.sub_mul,
        ← Matrix.smul_apply, ← Matrix.smul_mul]
      refine congrFun (congrFun (congrArg (· * (T * Ws s)) ?_) a) j
      have hs : (fun x => dslope f x (mus s j)) = dslope f (mus s j) := funext fun x => dslope_comm _ _ _
      rw [hs, ← neg_sub (fcn _ (mus t) (Ws t)), fcn_sub _ (h t) (h s), ← neg_sub (Cs t)]
      rw [smul_neg, ← neg_smul, ← Matrix.smul_mul, ← Matrix.mul_smul]
      congr 2
      ext i k
      simp only [smul_neg, Matrix.mul_neg, Matrix.neg_mul, Matrix.mul_smul, Matrix.smul_mul, Matrix.neg_apply,
        Matrix.smul_apply, smul_eq_mul, of_apply]
      have : dslope (dslope f (mus s j)) (mus t i) (mus s k) = dd2 f (mus t i) (mus s k) (mus s j) := by
        show dd2 f (mus s j) (mus t i) (mus s k) = _
        rw [dd2_swap (hs' j).differentiableAt (hf i).differentiableAt, dd2_symm]
      rw [this]
      ring
    refine Tendsto.congr' ((hfs.filter_mono hU).mono fun s hs => (e s hs).symm) ?_
    have hlim : Ws t * (Matrix.of fun i b => ((Ws t)ᵀ * H * schur (dd2 f (mus t i)) (mus t) (Ws t) T) i b) =
        (Matrix.of fun a j => (Ws t * (Matrix.of fun i k => dd2 f (mus t i) (mu k) (mu j) *
          ((Ws t)ᵀ * H * W) i k) * Wᵀ * (T * W)) a j) * Wᵀ := by
      have hsu : ∀ i, schur (dd2 f (mus t i)) (mus t) (Ws t) T =
          W * (Matrix.of fun k j => dd2 f (mus t i) (mu k) (mu j) * (Wᵀ * T * W) k j) * Wᵀ := fun i =>
        schur_unique _ (h t) hE T
      ext a b
      rw [Matrix.mul_apply, Matrix.mul_apply]
      simp only [of_apply, hsu, ← Matrix.mul_assoc]
      simp only [Matrix.mul_apply (M := (Ws t)ᵀ * H * W * _) (N := Wᵀ)]
      rw [sum_congr rfl fun j _ => mul_sum _ _ _, sum_comm]
      refine sum_congr rfl fun j _ => ?_
      rw [Matrix.mul_assoc (Ws t * _) Wᵀ T, Matrix.mul_assoc (Ws t * _) (Wᵀ * T) W, Matrix.mul_assoc (Ws t),
        Matrix.mul_apply (M := Ws t), sum_mul]
      refine sum_congr rfl fun i _ => ?_
      rw [Matrix.mul_apply, Matrix.mul_apply]
      have hk : ∀ k, ((Ws t)ᵀ * H * W) i k * of (fun k j => dd2 f (mus t i) (mu k) (mu j) * (Wᵀ * T * W) k j) k j =
          of (fun i k => dd2 f (mus t i) (mu k) (mu j) * ((Ws t)ᵀ * H * W) i k) i k * (Wᵀ * T * W) k j := fun k => by
        rw [of_apply, of_apply]
        ring
      refine Eq.trans (congrArg (fun z => Ws t a i * (z * Wᵀ j b)) (sum_congr rfl fun k _ => hk k)) ?_
      ring
    rw [hlim]
    refine Tendsto.mul (tendsto_pi_nhds.mpr fun a => tendsto_pi_nhds.mpr fun j => ?_) hT
    suffices hX : Tendsto (fun s => (Matrix.of fun i k => dd2 f (mus t i) (mus s k) (mus s j) *
          ((Ws t)ᵀ * ((s - t)⁻¹ • (Cs s - Cs t)) * Ws s) i k : M n)) U
          (𝓝 (Matrix.of fun i k => dd2 f (mus t i) (mu k) (mu j) * ((Ws t)ᵀ * H * W) i k)) by
      exact tendsto_pi_nhds.mp (tendsto_pi_nhds.mp ((((tendsto_const_nhds (x := Ws t)).mul hX).mul hT).mul
        ((tendsto_const_nhds (x := T)).mul hW)) a) j
    refine tendsto_pi_nhds.mpr fun i => tendsto_pi_nhds.mpr fun k => ?_
    refine Tendsto.mul ?_ (tendsto_pi_nhds.mp (tendsto_pi_nhds.mp ((tendsto_const_nhds.mul (hC.mono_left hU)).mul hW) i) k)
    exact tendsto_dslope (analyticAt_dslope (hf i) (hfa k)) (analyticAt_dslope (hf i) (hfa j)) (hmu k) (hmu j)

end Verif.Lemmas.MatFun
