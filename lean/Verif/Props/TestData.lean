import Verif.Lemmas.TestObstacle
import Verif.Lemmas.TestElastic
/-!
Properties C172–C174: the test problems of the applications.
-/
namespace Verif.Props.TestData
open Verif.TestData Verif.Spec.TestData Verif.Lemmas.TestData Real Set

/-! ### C172: scalar problems -/

/-- Two dimensions: solution, gradient and load belong together for every diffusion tensor. -/
theorem c172_diffusion2 (D : Fin 2 → Fin 2 → ℝ) : Diffusion univ D 0 sol2 grad2 (rhs2 D) := fun p _ =>
  ⟨isGrad2 p, by simpa using divRhs2 D p⟩

/-- One and three dimensions: they belong together for the identity. -/
theorem c172_diffusion_partial (D1 : Fin 1 → Fin 1 → ℝ) (D3 : Fin 3 → Fin 3 → ℝ) :
    Diffusion univ idMat 0 sol1 grad1 (rhs1 D1) ∧ Diffusion univ idMat 0 sol3 grad3 (rhs3 D3) :=
  ⟨fun p _ => ⟨isGrad1 p, by simpa using divRhs1 p D1⟩, fun p _ => ⟨isGrad3 p, by simpa using divRhs3 p D3⟩⟩

/-- In one and three dimensions the load ignores the tensor it is given. -/
theorem c172_tensor_violation :
    ¬ Solves univ (fun _ _ => 2) 0 sol1 (rhs1 fun _ _ => 2) ∧
      ¬ Solves univ (fun i j => 2 * idMat i j) 0 sol3 (rhs3 fun i j => 2 * idMat i j) := by
  have hpi : π ≠ 0 := Real.pi_ne_zero
  constructor
  · rintro ⟨g, hg⟩
    have hgg : g = grad1 := funext fun p => isGrad_unique (hg p trivial).1 (isGrad1 p)
    subst hgg
    have h := (hg ![1 / 2] trivial).2
    have h' : IsDivAt (fun q i => ∑ j : Fin 1, (fun _ _ => (2 : ℝ)) i j * grad1 q j) ![1 / 2] (-(2 * (π * π))) := by
      apply isDiv_one
      · simp only [Finset.univ_unique, Fin.default_eq_zero, Finset.sum_singleton, grad1, Matrix.cons_val]
        pd
      · simp only [Matrix.cons_val]
        rw [show π * (1 / 2) = π / 2 by ring, Real.sin_pi_div_two, Real.cos_pi_div_two]
        ring
    have := isDiv_unique h h'
    simp only [rhs1, Matrix.cons_val] at this
    rw [show π * (1 / 2) = π / 2 by ring, Real.sin_pi_div_two] at this
    exact hpi (mul_self_eq_zero.1 (by linarith))
  · rintro ⟨g, hg⟩
    have hgg : g = grad3 := funext fun p => isGrad_unique (hg p trivial).1 (isGrad3 p)
    subst hgg
    have h := (hg ![1 / 2, 1 / 2, 1 / 2] trivial).2
    have h' : IsDivAt (fun q i => ∑ j : Fin 3, (fun i j => 2 * idMat i j) i j * grad3 q j) ![1 / 2, 1 / 2, 1 / 2]
        (-(6 * (π * π))) := by
      apply isDiv_three
      · simp only [Fin.sum_univ_three, grad3, idMat, Matrix.cons_val]
        pd
      · simp only [Fin.sum_univ_three, grad3, idMat, Matrix.cons_val]
        pd
      · simp only [Fin.sum_univ_three, grad3, idMat, Matrix.cons_val]
        pd
      · simp only [Matrix.cons_val]
        rw [show π * (1 / 2) = π / 2 by ring, Real.sin_pi_div_two, Real.cos_pi_div_two]
        simp
        ring
    have := isDiv_unique h h'
    simp only [rhs3, Matrix.cons_val] at this
    rw [show π * (1 / 2) = π / 2 by ring, Real.sin_pi_div_two] at this
    exact hpi (mul_self_eq_zero.1 (by linarith))

/-- The program with a full tensor. -/
theorem c172_variable : Diffusion univ varTens2 0 sol2 grad2 varRhs2 ∧ Diffusion univ varTens3 0 sol3 grad3 varRhs3 :=
  ⟨fun p _ => ⟨isGrad2 p, by simpa using divVar2 p⟩, fun p _ => ⟨isGrad3 p, by simpa using divVar3 p⟩⟩

/-- The Helmholtz program, `-Δ u - ω² u = f`. -/
theorem c172_helmholtz : Diffusion univ idMat (-(helmOmega * helmOmega)) sol2 grad2 helmRhs2 ∧
    Diffusion univ idMat (-(helmOmega * helmOmega)) sol3 grad3 helmRhs3 :=
  ⟨fun p _ => ⟨isGrad2 p, divHelm2 p⟩, fun p _ => ⟨isGrad3 p, divHelm3 p⟩⟩

/-- The Nitsche program: load, and Neumann data on the sides with outer normals `(-1, 0)` and `(1, 0)`. -/
theorem c172_nitsche : Solves univ idMat 0 nitSol nitRhs ∧
    ∀ p, Partial nitSol 0 p (-nitLeft p) ∧ Partial nitSol 0 p (nitRight p) := by
  refine ⟨⟨nitGrad, fun p _ => ⟨isGradNit p, by simpa using divNit p⟩⟩, fun p => ⟨?_, ?_⟩⟩
  · pdone [nitSol, nitLeft]
  · pdone [nitSol, nitRight]

/-- The transmission program; in two dimensions away from the origin. -/
theorem c172_transmission (aa : ℝ) : Diffusion {0}ᶜ idMat 0 (traU aa) traG traF ∧
    Diffusion univ idMat 0 traU1 traG1 traF1 ∧ Diffusion univ idMat 0 traU2 traG2 traF2 :=
  ⟨fun _ hp => ⟨isGradTra aa hp, by simpa using divTra hp⟩, fun p _ => ⟨isGradTra1 p, by simpa using divTra1 p⟩,
    fun p _ => ⟨isGradTra2 p, by simpa using divTra2 p⟩⟩

/-- The heat programs: the equation without source, the initial value, and zero on the boundary of the unit square. -/
theorem c172_heat (K : ℤ) : Heat (heatSol K) ∧ heatSol K 0 = heatInit K ∧
    ∀ t p, p 0 = 0 ∨ p 0 = 1 ∨ p 1 = 0 ∨ p 1 = 1 → heatSol K t p = 0 := by
  refine ⟨⟨heatGrad K, fun t p => isGradHeat K t p, fun t p => ⟨_, timeHeat K t p, divHeat K t p⟩⟩, ?_, ?_⟩
  · funext p
    simp [heatSol, heatInit]
  · intro t p h
    have hs : sin (π * K) = 0 := by rw [mul_comm]; exact Real.sin_int_mul_pi K
    rcases h with h | h | h | h <;> simp [heatSol, h, hs]

/-- The obstacle program. -/
theorem c172_obstacle : Obstacle obsSol2 obsRhs2 ∧ Obstacle obsSol3 obsRhs3 := ⟨obstacle2, obstacle3⟩

/-- The gradient of the tutorial is short of a factor `π`. -/
theorem c172_tutorial_violation : ¬ IsGradAt sol2 (tutGrad2 ![0, 1 / 2]) ![0, 1 / 2] ∧
    ¬ IsGradAt sol3 (tutGrad3 ![0, 1 / 2, 1 / 2]) ![0, 1 / 2, 1 / 2] := by
  have hpi : π ≠ 1 := by linarith [Real.two_le_pi]
  have hs : sin (π * 2⁻¹) = 1 := by rw [show π * 2⁻¹ = π / 2 by ring, Real.sin_pi_div_two]
  constructor
  · intro h
    have h1 := congrFun (isGrad_unique (isGrad2 _) h) 0
    simp [grad2, tutGrad2, hs] at h1
    exact hpi h1
  · intro h
    have h1 := congrFun (isGrad_unique (isGrad3 _) h) 0
    simp [grad3, tutGrad3, hs] at h1
    exact hpi h1

/-- It is the gradient up to that factor. -/
theorem c172_tutorial_partial : (∀ p, IsGradAt sol2 (fun i => π * tutGrad2 p i) p) ∧
    ∀ p, IsGradAt sol3 (fun i => π * tutGrad3 p i) p := by
  constructor
  · intro p
    refine isGrad_two ?_ ?_ <;> pdone [sol2, tutGrad2]
  · intro p
    refine isGrad_three ?_ ?_ ?_ <;> pdone [sol3, tutGrad3]

example : rhs2 idMat ![1 / 2, 1 / 2] = 2 * (π * π) := by
  simp only [rhs2, idMat, Matrix.cons_val]
  rw [show π * (1 / 2) = π / 2 by ring, Real.sin_pi_div_two, Real.cos_pi_div_two]
  simp
  ring

/-! ### C173: solid mechanics -/

/-- The load of the elasticity programs is minus the divergence of the stress of their solution. -/
theorem c173_load {lam : ℝ} (mu : ℝ) (hl : lam + 1 ≠ 0) :
    (∃ S, IsStress lam mu (elaSol2 lam) S ∧ Balance S (elaLoad2 lam mu)) ∧
      ∃ S, IsStress lam mu (elaSol3 lam) S ∧ Balance S (elaLoad3 lam mu) :=
  ⟨⟨_, fun p => ⟨_, elaJac2 lam p, rfl⟩, elaBal2 mu hl⟩, ⟨_, fun p => ⟨_, elaJac3 lam p, rfl⟩, elaBal3 mu hl⟩⟩

/-- The stress with which the computed one is compared is not the stress of the solution, whatever the material. -/
theorem c173_sigma_violation {lam mu : ℝ} (hl : lam + 1 ≠ 0) (hm : mu ≠ 0) :
    ¬ IsStress lam mu (elaSol2 lam) (elaSigma2 lam mu) ∧ ¬ IsStress lam mu (elaSol3 lam) (elaSigma3 lam mu) :=
  ⟨elaSigma2_wrong hl hm, elaSigma3_wrong hl hm⟩

/-- Its diagonal is right, and the shear stress is off by `4πμ/(λ+1) (cos 2πy - 1) cos 2πx`. -/
theorem c173_sigma_partial {lam : ℝ} (mu : ℝ) (hl : lam + 1 ≠ 0) :
    (∃ S, IsStress lam mu (elaSol2 lam) S ∧ ∀ p i j, elaSigma2 lam mu p i j = S p i j +
        if i = j then 0 else mu * (4 * π / (lam + 1)) * (cos (2 * π * p 1) - 1) * cos (2 * π * p 0)) ∧
      ∃ S, IsStress lam mu (elaSol3 lam) S ∧ ∀ p i j, elaSigma3 lam mu p i j = S p i j +
        if i = j ∨ i = 2 ∨ j = 2 then 0
        else mu * (4 * π / (lam + 1)) * (cos (2 * π * p 1) - 1) * cos (2 * π * p 0) :=
  ⟨⟨_, fun p => ⟨_, elaJac2 lam p, rfl⟩, elaSigma2_eq mu hl⟩, ⟨_, fun p => ⟨_, elaJac3 lam p, rfl⟩, elaSigma3_eq mu hl⟩⟩

/-- The elastodynamic program compares with a displacement at rest but starts with a velocity. -/
theorem c173_velocity_violation (lam : ℝ) :
    ¬ ∀ p i, HasDerivAt (fun _ : ℝ => elaSol2 lam p i) (dynVel2 lam p i) 0 := by
  intro h
  have h1 := (h ![1 / 2, 1 / 4] 0).unique (hasDerivAt_const _ _)
  have h2 := (h ![1 / 2, 3 / 4] 0).unique (hasDerivAt_const _ _)
  simp only [dynVel2, elaUx, Matrix.cons_val] at h1 h2
  rw [show 2 * π * (1 / 4) = π / 2 by ring, show 2 * π * (1 / 2) = π by ring, Real.sin_pi_div_two, Real.cos_pi] at h1
  rw [show 2 * π * (3 / 4) = π / 2 + π by ring, show 2 * π * (1 / 2) = π by ring, Real.sin_add_pi, Real.sin_pi_div_two,
    Real.cos_pi, show π * (3 / 4) = π - π * (1 / 4) by ring, Real.sin_pi_sub] at h2
  linarith

/-- The contact program: equilibrium. -/
theorem c173_contact_load {lam : ℝ} (mu : ℝ) (hl : 1 + lam ≠ 0) :
    (∃ S, IsStress lam mu (conSol2 lam) S ∧ Balance S (conLoad2 lam mu 1)) ∧
      ∃ S, IsStress lam mu (conSol3 lam) S ∧ Balance S (conLoad3 lam mu 1) :=
  ⟨⟨_, fun p => ⟨_, conJac2 lam p, rfl⟩, conBal2 mu hl⟩, ⟨_, fun p => ⟨_, conJac3 lam p, rfl⟩, conBal3 mu hl⟩⟩

/-- The contact program: contact and friction on the face `y = 0`, with outer normal `(0, -1)`. -/
theorem c173_contact {lam mu : ℝ} (hl : 0 ≤ lam) (hm : 1 ≤ mu) : ∃ S, IsStress lam mu (conSol2 lam) S ∧
    ∀ p : Pt 2, p 1 = 0 → 0 ≤ p 0 →
      Tresca (-conSol2 lam p 1) (S p 1 1) (conSol2 lam p 0) (-S p 0 1) (conS lam mu (p 0)) := by
  refine ⟨_, fun p => ⟨_, conJac2 lam p, rfl⟩, fun p hy hx => ?_⟩
  have hl1 : (0 : ℝ) < 1 + lam := by linarith
  have hl3 : (0 : ℝ) < 3 * lam + 3 := by linarith
  have hn : elastic lam mu (conJ2 lam p) 1 1 = lam * (1 - mu) / (3 * (1 + lam)) := by
    simp [elastic, conJ2, conJxx, conJyy, hy]
    field_simp
    ring
  have ht : elastic lam mu (conJ2 lam p) 0 1 = conS lam mu (p 0) := by
    simp [elastic, conJ2, conJxy, conJyx, hy, conS]
    field_simp
    ring
  have hu : conSol2 lam p 1 = 0 := by simp [conSol2, conU, hy]
  have hux : 0 ≤ conSol2 lam p 0 := by
    simp only [conSol2, conU, Matrix.cons_val]
    positivity
  have hs : 0 ≤ conS lam mu (p 0) := by
    unfold conS
    have : (0 : ℝ) ≤ mu := by linarith
    positivity
  refine ⟨by simp [hu], ?_, by simp [hu], ?_, ?_⟩
  · rw [hn]
    exact div_nonpos_of_nonpos_of_nonneg (by nlinarith) (by linarith)
  · rw [ht, abs_neg, abs_of_nonneg hs]
  · rw [ht, abs_of_nonneg hux]

/-- The same in three dimensions, on the face `z = 0`; the second tangential component of displacement and stress is zero. -/
theorem c173_contact3 {lam mu : ℝ} (hl : 0 ≤ lam) (hm : 1 ≤ mu) : ∃ S, IsStress lam mu (conSol3 lam) S ∧
    ∀ p : Pt 3, p 2 = 0 → 0 ≤ p 0 →
      Tresca (-conSol3 lam p 2) (S p 2 2) (conSol3 lam p 0) (-S p 0 2) (conS lam mu (p 0)) ∧ conSol3 lam p 1 = 0 ∧
        S p 1 2 = 0 := by
  refine ⟨_, fun p => ⟨_, conJac3 lam p, rfl⟩, fun p hy hx => ?_⟩
  have hl1 : (0 : ℝ) < 1 + lam := by linarith
  have hl3 : (0 : ℝ) < 3 * lam + 3 := by linarith
  have hn : elastic lam mu (conJ3 lam p) 2 2 = lam * (1 - mu) / (3 * (1 + lam)) := by
    simp [elastic, Fin.sum_univ_three, conJ3, conJxx, conJyy, hy]
    field_simp
    ring
  have ht : elastic lam mu (conJ3 lam p) 0 2 = conS lam mu (p 0) := by
    simp [elastic, conJ3, conJxy, conJyx, hy, conS]
    field_simp
    ring
  have hu : conSol3 lam p 2 = 0 := by simp [conSol3, conU, hy]
  have hux : 0 ≤ conSol3 lam p 0 := by
    simp only [conSol3, conU, Matrix.cons_val]
    positivity
  have hs : 0 ≤ conS lam mu (p 0) := by
    unfold conS
    have : (0 : ℝ) ≤ mu := by linarith
    positivity
  refine ⟨⟨by simp [hu], ?_, by simp [hu], ?_, ?_⟩, by simp [conSol3], by simp [elastic, conJ3]⟩
  · rw [hn]
    exact div_nonpos_of_nonpos_of_nonneg (by nlinarith) (by linarith)
  · rw [ht, abs_neg, abs_of_nonneg hs]
  · rw [ht, abs_of_nonneg hux]

example : ∃ S, IsStress 10 2 (conSol2 10) S ∧ ∀ p : Pt 2, p 1 = 0 → 0 ≤ p 0 →
    Tresca (-conSol2 10 p 1) (S p 1 1) (conSol2 10 p 0) (-S p 0 1) (conS 10 2 (p 0)) :=
  c173_contact (by norm_num) (by norm_num)

/-- The condition on the shear modulus is needed: with a smaller one the solution pulls on the contact face. -/
theorem c173_contact_sharp {lam mu : ℝ} (hl : 0 < lam) (hm : mu < 1) {S} (hS : IsStress lam mu (conSol2 lam) S) {p : Pt 2}
    (hp : p 1 = 0) : 0 < S p 1 1 := by
  obtain ⟨G, hG, h⟩ := hS p
  rw [h, isJac_unique hG (conJac2 lam p)]
  have hl1 : (0 : ℝ) < 1 + lam := by linarith
  have hn : elastic lam mu (conJ2 lam p) 1 1 = lam * (1 - mu) / (3 * (1 + lam)) := by
    simp [elastic, conJ2, conJxx, conJyy, hp]
    field_simp
    ring
  rw [hn]
  exact div_pos (mul_pos hl (by linarith)) (by linarith)

/-- The hyperelastic program: equilibrium for every law of the form. -/
theorem c173_hyperelastic (lam mu : ℝ) (κ : ℝ → ℝ) :
    Piola2 mu κ (hypSol2 lam) (hypLoad2 mu) ∧ Piola3 mu κ (hypSol3 lam) (hypLoad3 mu) := by
  constructor
  · refine ⟨fun p i j => idMat i j + hypJ2 lam p i j, fun p => by simpa using hypJac2 lam p, fun p i => ?_⟩
    simp only [hypDet2]
    exact hypBal2 lam mu _ p i
  · refine ⟨fun p i j => idMat i j + hypJ3 lam p i j, fun p => by simpa using hypJac3 lam p, fun p i => ?_⟩
    simp only [hypDet3]
    exact hypBal3 lam mu _ p i

/-- The deformation preserves the orientation, in three dimensions for `λ > 1.21` (the program has `λ = 10`). -/
theorem c173_orientation {lam : ℝ} (hl : 0 < lam) :
    (∀ p G, IsJacAt (hypSol2 lam) G p → 0 < det2 fun a b => idMat a b + G a b) ∧
      ∀ p G, IsJacAt (hypSol3 lam) G p → ((0 < det3 fun a b => idMat a b + G a b) ↔ 121 / 100 < lam) := by
  have hi : 0 < 1 / lam := by positivity
  constructor
  · intro p G hG
    rw [isJac_unique hG (hypJac2 lam p), hypDet2]
    unfold hypAlpha
    have h11 : (1 : ℝ) / 10 / (1 + 1 / 10) = 1 / 11 := by norm_num
    have : (0 : ℝ) < 1 + (1 / lam - 1 / 10 / (1 + 1 / 10)) := by rw [h11]; linarith
    positivity
  · intro p G hG
    rw [isJac_unique hG (hypJac3 lam p), hypDet3]
    have ha : (0 : ℝ) < 1 + (1 / lam + hypAlpha) := by unfold hypAlpha; positivity
    rw [mul_pos_iff_of_pos_right ha, mul_pos_iff_of_pos_left ha]
    have hq : (hypAlpha + hypAlpha + hypAlpha * hypAlpha) / (1 + hypAlpha + hypAlpha + hypAlpha * hypAlpha) = 21 / 121 := by
      norm_num [hypAlpha]
    rw [hq]
    constructor
    · intro h
      have h1 : 1 / lam < 100 / 121 := by linarith
      rw [div_lt_div_iff₀ hl (by norm_num)] at h1
      linarith
    · intro h
      have h1 : 1 / lam < 100 / 121 := by
        rw [div_lt_div_iff₀ hl (by norm_num)]
        linarith
      linarith

example : ∃ S, IsStress 1 1 (elaSol2 1) S ∧ Balance S (elaLoad2 1 1) := (c173_load 1 (by norm_num)).1

example : ¬ IsStress 1 1 (elaSol2 1) (elaSigma2 1 1) := (c173_sigma_violation (by norm_num) (by norm_num)).1

/-! ### C174: vector Laplacian, Stokes, Maxwell -/

/-- The vector Laplacian program. -/
theorem c174_vector_laplacian (lam : ℝ) :
    ((∀ p, IsJacAt vlapSol2 (vlapGrad2 p) p) ∧ Balance (fun p i j => lam * vlapGrad2 p i j) (vlapLoad2 lam)) ∧
      (∀ p, IsJacAt vlapSol3 (vlapGrad3 p) p) ∧ Balance (fun p i j => lam * vlapGrad3 p i j) (vlapLoad3 lam) :=
  ⟨⟨vlapJac2, fun p => vlapDiv2 lam p⟩, vlapJac3, fun p => vlapDiv3 lam p⟩

/-- The Stokes program, with the gradient and with twice the symmetric gradient. -/
theorem c174_stokes : (Stokes stk0V stk0P stk0Rhs ∧ StokesSym stk0V stk0P stk0Rhs) ∧
    Stokes stk1V stk1P stk1Rhs ∧ StokesSym stk1V stk1P stk1Rhs := by
  have h0 : ∀ p, ∑ k, stk0G p k k = 0 := fun p => by simp [stk0G]; ring
  have h1 : ∀ p, ∑ k, stk1G p k k = 0 := fun p => by simp [stk1G]; ring
  exact ⟨⟨⟨stk0G, stk0dP, stk0Jac, stk0Grad, stk0Div, h0⟩, ⟨stk0G, stk0dP, stk0Jac, stk0Grad, stk0DivSym, h0⟩⟩,
    ⟨stk1G, fun _ => 0, stk1Jac, stk1Grad, stk1Div, h1⟩, ⟨stk1G, fun _ => 0, stk1Jac, stk1Grad, stk1DivSym, h1⟩⟩

/-- The velocity of `diffusion_low_grad_vector`: minus its Laplacian is the load. -/
theorem c174_low_grad : ∃ G, (∀ p, IsJacAt stk0V (G p) p) ∧ Balance G lowRhs := ⟨stk0G, stk0Jac, lowDiv⟩

/-- The Maxwell program in three dimensions: `curl curl E - ω² E = f` and the curl itself. -/
theorem c174_maxwell3 (omega : ℝ) :
    IsCurl mxSol mxCurl ∧ IsCurl mxCurl fun p i => mxRhs omega p i + omega * omega * mxSol p i :=
  ⟨mx_isCurl, mx_curlcurl omega⟩

/-- The Maxwell program in two dimensions: `-Δ E - ω² E = f` and the vector curl `(∂y E, -∂x E)`. -/
theorem c174_maxwell2 (omega : ℝ) : Solves univ idMat (-(omega * omega)) (mx2Sol omega) (mx2Rhs omega) ∧
    ∀ p, Partial (mx2Sol omega) 1 p (mx2Curl omega p 0) ∧ Partial (mx2Sol omega) 0 p (-mx2Curl omega p 1) := by
  refine ⟨⟨mx2G omega, fun p _ => ⟨mx2Grad omega p, mx2Div omega p⟩⟩, fun p => ⟨?_, ?_⟩⟩
  · pdone [mx2Sol, mx2Curl]
  · pdone [mx2Sol, mx2Curl]

end Verif.Props.TestData
