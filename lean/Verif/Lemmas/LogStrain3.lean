import Verif.Lemmas.LogStrain2
/-!
The tangent of the logarithmic strain framework.
-/
namespace Verif.Lemmas.LogStrain
open Verif.Tensor Verif.TensorConv Verif.Mech Verif.LogStrain Verif.Spec Verif.Lemmas.Mech Verif.Lemmas.Plastic
  Verif.Lemmas.MatFun Finset Filter Topology

/-- The second derivative of the strain, contracted with `T`. -/
noncomputable def d2E (lam : Vec3) (V T Y : Mat ℝ 3) : Mat ℝ 3 :=
  conj V (fun i j => ∑ k, scaleDiff2 (lam i) (lam k) (lam j) *
    (pull V T i k * pull V Y k j + pull V Y i k * pull V T k j))

theorem of_d2E (lam : Vec3) (V T Y : Mat ℝ 3) :
    Matrix.of (d2E lam V T Y) = d2fcn henckyScale lam (Matrix.of V) (Matrix.of T) (Matrix.of Y) := by
  rw [d2E, of_conj, d2fcn]
  congr 2
  ext i j
  rw [← of_pull, ← of_pull]
  rfl

theorem zeta_eq (T V : Mat ℝ 3) : zeta T (Ni V) = pull V T := by
  funext i j
  simp only [zeta, Tensor.inner, outer, Ni, pull]
  exact sum_congr rfl fun a _ => sum_congr rfl fun b _ => by ring

theorem tl_algebra (V Y z x : Mat ℝ 3) (f : Vec3) (eta : ℝ) (g : Fin 3 → Fin 3 → Fin 3 → ℝ) (hY : Symm Y) (hz : Symm z)
    (h1 : ∀ i, g i i i = f i / 8) (h2 : ∀ i j, i ≠ j → g i j j = x i j) (h3 : ∀ i j, i ≠ j → g j i j = x i j)
    (h4 : ∀ i j, i ≠ j → g j j i = x i j) (h5 : ∀ i j k, i ≠ j → j ≠ k → i ≠ k → g i j k = eta) :
    (∑ i, ((f i / 4 * z i i) • (Y i i • Mij (Ni V) (Ni V) i i) +
      ∑ j, if j ≠ i then
        (2 * x i j) • (z i j • (Y j j • Mij (Ni V) (Ni V) i j + Y i j • Mij (Ni V) (Ni V) j j) +
          z j j • (Y i j • Mij (Ni V) (Ni V) i j)) +
        ∑ k, if k ≠ i ∧ k ≠ j then (2 * eta * z i j) • (Y j k • Mij (Ni V) (Ni V) i k) else 0
      else 0 : Mat ℝ 3)) =
    (2 : ℝ) • conj V (fun i j => ∑ k, g i k j * (z i k * Y k j + Y i k * z k j)) := by
  funext a b
  have y10 := hY 1 0
  have y20 := hY 2 0
  have y21 := hY 2 1
  have z10 := hz 1 0
  have z20 := hz 2 0
  have z21 := hz 2 1
  have e3 : ∀ i j, i ≠ j → g j i j = x i j := h3
  simp only [Finset.sum_apply, Pi.smul_apply, Pi.add_apply, smul_eq_mul, conj, Fin.sum_univ_three, Mij, Ni, ne_eq,
    Fin.isValue, not_true_eq_false, if_false, Pi.zero_apply, zero_add, add_zero,
    (by decide : ¬ (1 : Fin 3) = 0), (by decide : ¬ (2 : Fin 3) = 0), (by decide : ¬ (0 : Fin 3) = 1),
    (by decide : ¬ (2 : Fin 3) = 1), (by decide : ¬ (0 : Fin 3) = 2), (by decide : ¬ (1 : Fin 3) = 2),
    not_false_eq_true, if_true, and_self, and_true, and_false, true_and, false_and, h1,
    h2 0 1 (by decide), h2 0 2 (by decide), h2 1 0 (by decide), h2 1 2 (by decide), h2 2 0 (by decide), h2 2 1 (by decide),
    h3 0 1 (by decide), h3 0 2 (by decide), h3 1 0 (by decide), h3 1 2 (by decide), h3 2 0 (by decide), h3 2 1 (by decide),
    h4 0 1 (by decide), h4 0 2 (by decide), h4 1 0 (by decide), h4 1 2 (by decide), h4 2 0 (by decide), h4 2 1 (by decide),
    h5 0 1 2 (by decide) (by decide) (by decide), h5 0 2 1 (by decide) (by decide) (by decide),
    h5 1 0 2 (by decide) (by decide) (by decide), h5 1 2 0 (by decide) (by decide) (by decide),
    h5 2 0 1 (by decide) (by decide) (by decide), h5 2 1 0 (by decide) (by decide) (by decide),
    y10, y20, y21, z10, z20, z21]
  ring

theorem tmProd_tl {eps tiny : ℝ} {lam : Vec3} (hp : ∀ i, 0 < lam i) (hc : CoefSpec lam (coefficient eps tiny lam))
    {T : Mat ℝ 3} (hT : Symm T) (V X : Mat ℝ 3) :
    tmProd (tlPK2 eps tiny T lam V) X = (2 : ℝ) • d2E lam V T (tpose X + X) := by
  have hY : Symm (pull V (tpose X + X)) := pull_symm V (fun i j => by
    show X j i + X i j = X i j + X j i
    rw [add_comm])
  have key := tl_algebra V (pull V (tpose X + X)) (pull V T) (coefficient eps tiny lam).xi (fi lam)
    (coefficient eps tiny lam).eta (fun i k j => scaleDiff2 (lam i) (lam k) (lam j)) hY (pull_symm V hT)
    (fun i => by rw [scale2_same (hp i), fi])
    (fun i j h => (hc.xi i j h).symm)
    (fun i j h => by rw [hc.xi i j h, scale2_rot (hp j) (hp i)])
    (fun i j h => by rw [hc.xi i j h, scale2_symm, scale2_rot (hp j) (hp i)])
    (fun i j k h1 h2 h3 => by
      rw [hc.eta]
      fin_cases i <;> fin_cases j <;> fin_cases k <;>
        first
        | exact absurd rfl h1 | exact absurd rfl h2 | exact absurd rfl h3 | rfl
        | exact scale2_symm _ _ _
        | exact scale2_rot (hp _) (hp _)
        | exact (scale2_symm _ _ _).trans (scale2_rot (hp _) (hp _))
        | exact (scale2_rot (hp _) (hp _)).trans (scale2_symm _ _ _)
        | exact ((scale2_rot (hp _) (hp _)).trans (scale2_symm _ _ _)).trans (scale2_rot (hp _) (hp _)))
  rw [d2E, ← key, tlPK2, tmProd_sum]
  simp only [tmProd_add, tmProd_smul, tmProd_kronecker, inner_Mij', tmProd_sum, tmProd_ite, zeta_eq]

theorem dE_add (lam : Vec3) (V X Y : Mat ℝ 3) : dE lam V (X + Y) = dE lam V X + dE lam V Y := by
  funext a b
  simp only [dE, conj, pull, Pi.add_apply, Fin.sum_univ_three]
  ring

theorem dE_smul (lam : Vec3) (V Y : Mat ℝ 3) (c : ℝ) : dE lam V (c • Y) = c • dE lam V Y := by
  funext a b
  simp only [dE, conj, pull, Pi.smul_apply, smul_eq_mul, mul_sum, sum_mul]
  exact sum_congr rfl fun i _ => sum_congr rfl fun j _ => sum_congr rfl fun k _ => sum_congr rfl fun l _ => by ring

theorem get_tadd (A B : Tens ℝ 3) (t : Idx 3) : get (A + B) t = get A t + get B t := rfl
theorem get_tsmul (c : ℝ) (A : Tens ℝ 3) (t : Idx 3) : get (c • A) t = c * get A t := rfl
theorem get_tsum {ι : Type} (u : Finset ι) (f : ι → Tens ℝ 3) (t : Idx 3) :
    get (∑ i ∈ u, f i) t = ∑ i ∈ u, get (f i) t := by
  unfold Tensor.get
  rw [Finset.sum_apply, Finset.sum_apply]
theorem get_tite {p : Prop} [Decidable p] (A : Tens ℝ 3) (t : Idx 3) :
    get (if p then A else 0) t = if p then get A t else 0 := by
  split <;> rfl

/-- Major symmetry. -/
def Major (A : Tens ℝ 3) : Prop := ∀ i j k l, get A ⟨i, j, k, l⟩ = get A ⟨k, l, i, j⟩

theorem tl_major {eps tiny : ℝ} {lam : Vec3} {T : Mat ℝ 3} (hT : Symm T) (V : Mat ℝ 3) :
    Major (tlPK2 eps tiny T lam V) := by
  intro i j k l
  have hz := pull_symm V hT
  have z10 := hz 1 0
  have z20 := hz 2 0
  have z21 := hz 2 1
  rw [tlPK2]
  generalize coefficient eps tiny lam = c
  simp only [get_tadd, get_tsmul, get_tsum, get_tite, get_kronecker, zeta_eq]
  generalize pull V T = z at *
  simp only [Fin.sum_univ_three, Mij, Ni, ne_eq,
    Fin.isValue, not_true_eq_false, if_false, zero_add, add_zero,
    (by decide : ¬ (1 : Fin 3) = 0), (by decide : ¬ (2 : Fin 3) = 0), (by decide : ¬ (0 : Fin 3) = 1),
    (by decide : ¬ (2 : Fin 3) = 1), (by decide : ¬ (0 : Fin 3) = 2), (by decide : ¬ (1 : Fin 3) = 2),
    not_false_eq_true, if_true, and_self, and_true, and_false, true_and, false_and, z10, z20, z21]
  ring

theorem get_transpose (A : Tens ℝ 3) (t : Idx 3) : get (Tensor.transpose zero A) t = get A ⟨t.k, t.l, t.i, t.j⟩ :=
  (Verif.Props.TensorAlg.c45_transpose zero zero A).1 t.i t.j t.k t.l

theorem c2_major {Ct P TL : Tens ℝ 3} (h : Major Ct) (hTL : Major TL) :
    Major (contracted (Tensor.transpose zero P) (contracted Ct P) + TL) := by
  intro i j k l
  rw [get_tadd, get_tadd, hTL i j k l]
  congr 1
  simp only [get_contracted, get_transpose, mul_sum]
  have sw : ∀ f : Fin 3 → Fin 3 → Fin 3 → Fin 3 → ℝ,
      ∑ p, ∑ q, ∑ r, ∑ s, f p q r s = ∑ r, ∑ s, ∑ p, ∑ q, f p q r s := by
    intro f
    calc _ = ∑ p, ∑ r, ∑ q, ∑ s, f p q r s := sum_congr rfl fun p _ => sum_comm
      _ = ∑ r, ∑ p, ∑ q, ∑ s, f p q r s := sum_comm
      _ = ∑ r, ∑ p, ∑ s, ∑ q, f p q r s := sum_congr rfl fun r _ => sum_congr rfl fun p _ => sum_comm
      _ = _ := sum_congr rfl fun r _ => sum_comm
  rw [sw]
  refine sum_congr rfl fun p _ => sum_congr rfl fun q _ => sum_congr rfl fun r _ => sum_congr rfl fun s _ => ?_
  rw [h r s p q]
  ring

theorem tmProd_ctoa {C2 : Tens ℝ 3} (hC : Major C2) {S : Mat ℝ 3} (hS : Symm S) (F H : Mat ℝ 3) :
    tmProd (ctoa C2 S F) H = mul F (tmProd C2 (mul (tpose F) H)) + mul H S := by
  funext i J
  show ∑ k, ∑ L, get (ctoa C2 S F) ⟨i, J, k, L⟩ * H k L = ∑ M, F i M * ∑ N, ∑ L, get C2 ⟨M, J, N, L⟩ *
    ∑ k, F k N * H k L + ∑ L, H i L * S L J
  simp only [Verif.Props.Mgis.c46_formula C2 S F hC hS i J, _root_.add_mul, sum_add_distrib]
  congr 1
  · simp only [sum_mul, mul_sum]
    rw [sum_congr rfl fun k _ => sum_comm, sum_comm]
    refine sum_congr rfl fun M _ => ?_
    rw [sum_congr rfl fun k _ => sum_comm, sum_comm]
    refine sum_congr rfl fun N _ => ?_
    rw [sum_comm]
    refine sum_congr rfl fun L _ => sum_congr rfl fun k _ => by ring
  · simp only [ite_mul, zero_mul]
    rw [sum_comm]
    simp only [sum_ite_eq, mem_univ, if_true]
    exact sum_congr rfl fun L _ => by rw [hS J L, mul_comm]

theorem cdot_eq (F H : Mat ℝ 3) : tpose (mul (tpose F) H) + mul (tpose F) H = cdot F H := by
  rw [cdot, tpose_mul, tpose_tpose]

/-- The tangent returned for exact coefficients. -/
theorem tangent_spec {eps tiny : ℝ} {lam : Vec3} (hp : ∀ i, 0 < lam i) (hc : CoefSpec lam (coefficient eps tiny lam))
    {T : Mat ℝ 3} (hT : Symm T) {Ct : Tens ℝ 3} (hCt : Major Ct) (V F H : Mat ℝ 3)
    (hT' : Symm (tmProd Ct (dE lam V (cdot F H)))) :
    tmProd (ctoa (contracted (Tensor.transpose zero (projectorPK2 eps tiny lam V))
        (contracted Ct (projectorPK2 eps tiny lam V)) + tlPK2 eps tiny T lam V)
        (mtProd T (projectorPK2 eps tiny lam V)) F) H =
      mul F ((2 : ℝ) • (dE lam V (tmProd Ct (dE lam V (cdot F H))) + d2E lam V T (cdot F H))) +
        mul H ((2 : ℝ) • dE lam V T) := by
  rw [mtProd_projectorPK2 hp hc hT, tmProd_ctoa (c2_major hCt (tl_major hT V))
    (fun i j => by simp only [Pi.smul_apply, dE_symm lam V hT i j])]
  congr 2
  rw [tmProd_add, (Verif.Props.TensorAlg.c45_contracted _ _ zero _).2.2, (Verif.Props.TensorAlg.c45_contracted _ _ zero _).2.2,
    tmProd_tl hp hc hT, ← (Verif.Props.TensorAlg.c45_mt_prod zero _ _).2, projectorPK2_eq, projector_spec hp hc, cdot_idm, cdot_eq,
    mtProd_projector hp hc hT', pk1, idm_mul, smul_add]

end Verif.Lemmas.LogStrain
