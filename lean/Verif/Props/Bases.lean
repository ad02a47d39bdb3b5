import Verif.Lemmas.Bases
import Mathlib.Analysis.Calculus.Deriv.Pow
import Mathlib.Analysis.Calculus.Deriv.Mul
import Mathlib.Analysis.Calculus.Deriv.Add
/-! C10, C11, C54, C55: monomial bases. -/
namespace Verif.Bases
open Verif.Util Verif.Spec Matrix

/-- C10 (enumeration): the 2D loop visits every exponent pair of total degree ≤ K exactly once, in
order of increasing total degree. -/
theorem c10_exps2 (K : Nat) :
    {e | e ∈ exps2 K} = monomials2 K ∧ (exps2 K).Nodup ∧
    (exps2 K).Pairwise (fun a b => a.1 + a.2 ≤ b.1 + b.2) := by
  refine ⟨?_, ?_, ?_⟩
  · ext ⟨a, b⟩; exact mem_exps2 K a b
  · refine (exps2_sorted K).imp ?_
    intro a b h hab; subst hab; omega
  · refine (exps2_sorted K).imp ?_
    intro a b h; omega

/-- C10 (enumeration), 3D. -/
theorem c10_exps3 (K : Nat) :
    {e | e ∈ exps3 K} = monomials3 K ∧ (exps3 K).Nodup ∧
    (exps3 K).Pairwise (fun a b => a.1 + a.2.1 + a.2.2 ≤ b.1 + b.2.1 + b.2.2) := by
  refine ⟨?_, ?_, ?_⟩
  · ext ⟨a, b, c⟩; exact mem_exps3 K a b c
  · refine (exps3_sorted K).imp ?_
    intro a b h hab; subst hab; omega
  · refine (exps3_sorted K).imp ?_
    intro a b h; omega

example : exps2 2 = [(0,0),(1,0),(0,1),(2,0),(1,1),(0,2)] := by decide

section
variable {R : Type} [CommRing R]

/-- C10 (2D evaluation): all writes are in range, exactly `size` entries are written, and entry j is
the j-th monomial, for every ring, point and frame; old and new bases agree. -/
theorem c10_eval2 (K : Nat) (P : Matrix (Fin 2) (Fin 2) R) (bar pt : Fin 2 → R) :
    eval2 K P bar pt = .ok ((exps2 K).map fun e =>
      (P *ᵥ (pt - bar)) 0 ^ e.1 * (P *ᵥ (pt - bar)) 1 ^ e.2) ∧
    newEval2 K P bar pt = eval2 K P bar pt ∧
    evalFace3 K (P *ᵥ (pt - bar)) = eval2 K P bar pt ∧
    (exps2 K).length = scalarBasisSize K 2 := by
  have h1 : eval2 K P bar pt = .ok ((exps2 K).map fun e =>
      (P *ᵥ (pt - bar)) 0 ^ e.1 * (P *ᵥ (pt - bar)) 1 ^ e.2) := by
    unfold eval2
    rw [fillVec_eq _ _ _ (by simp [size2])]
    simp only [c07_iexp_pow, scalingPoint]
  refine ⟨h1, ?_, rfl, (size2 K).symm⟩
  rw [h1]
  unfold newEval2
  obtain ⟨tx, hx, hx', hx''⟩ := powTable_spec (sizeOfDegree2 K) (scalingPoint P bar pt 0) K (lt_size2 K)
  obtain ⟨ty, hy, hy', hy''⟩ := powTable_spec (sizeOfDegree2 K) (scalingPoint P bar pt 1) K (lt_size2 K)
  simp only [hx, hy, Outcome.bind_ok]
  rw [seqAll_map _ _ (fun e => scalingPoint P bar pt 0 ^ e.1 * scalingPoint P bar pt 1 ^ e.2)]
  · rw [Outcome.bind_ok, fillVec_eq _ _ _ (by simp [sizeN2])]; rfl
  · rintro ⟨a, b⟩ hab
    rw [mem_exps2] at hab
    rw [rd_eq (hx'' a (by omega)), rd_eq (hy'' b (by omega))]
    rfl

/-- C10 (3D evaluation). -/
theorem c10_eval3 (K : Nat) (P : Matrix (Fin 3) (Fin 3) R) (bar pt : Fin 3 → R) :
    eval3 K P bar pt = .ok ((exps3 K).map fun e =>
      (P *ᵥ (pt - bar)) 0 ^ e.1 * (P *ᵥ (pt - bar)) 1 ^ e.2.1 * (P *ᵥ (pt - bar)) 2 ^ e.2.2) ∧
    newEval3 K P bar pt = eval3 K P bar pt ∧
    (exps3 K).length = scalarBasisSize K 3 := by
  have h1 : eval3 K P bar pt = .ok ((exps3 K).map fun e =>
      (P *ᵥ (pt - bar)) 0 ^ e.1 * (P *ᵥ (pt - bar)) 1 ^ e.2.1 * (P *ᵥ (pt - bar)) 2 ^ e.2.2) := by
    unfold eval3
    rw [fillVec_eq _ _ _ (by simp [size3])]
    simp only [c07_iexp_pow, scalingPoint]
  refine ⟨h1, ?_, (size3 K).symm⟩
  rw [h1]
  unfold newEval3
  obtain ⟨tx, hx, hx', hx''⟩ := powTable_spec (sizeOfDegree3 K) (scalingPoint P bar pt 0) K (lt_size3 K)
  obtain ⟨ty, hy, hy', hy''⟩ := powTable_spec (sizeOfDegree3 K) (scalingPoint P bar pt 1) K (lt_size3 K)
  obtain ⟨tz, hz, hz', hz''⟩ := powTable_spec (sizeOfDegree3 K) (scalingPoint P bar pt 2) K (lt_size3 K)
  simp only [hx, hy, hz, Outcome.bind_ok]
  rw [seqAll_map _ _ (fun e => scalingPoint P bar pt 0 ^ e.1 * scalingPoint P bar pt 1 ^ e.2.1 *
    scalingPoint P bar pt 2 ^ e.2.2)]
  · rw [Outcome.bind_ok, fillVec_eq _ _ _ (by simp [sizeN3])]; rfl
  · rintro ⟨a, b, c⟩ hab
    rw [mem_exps3] at hab
    rw [rd_eq (hx'' a (by omega)), rd_eq (hy'' b (by omega)), rd_eq (hz'' c (by omega))]
    rfl

/-- C10 (barycenter): at the barycenter the first function is 1 and all others are 0. -/
theorem c10_barycenter [Nontrivial R] (K : Nat) (P2 : Matrix (Fin 2) (Fin 2) R) (b2 : Fin 2 → R)
    (P3 : Matrix (Fin 3) (Fin 3) R) (b3 : Fin 3 → R) :
    eval2 K P2 b2 b2 = .ok (1 :: List.replicate (scalarBasisSize K 2 - 1) 0) ∧
    eval3 K P3 b3 b3 = .ok (1 :: List.replicate (scalarBasisSize K 3 - 1) 0) := by
  constructor
  · rw [(c10_eval2 K P2 b2 b2).1, size2]
    congr 1
    rcases hl : exps2 K with _ | ⟨e, l⟩
    · have := exps2_length K; rw [hl] at this
      have : 0 < (K+2).choose 2 := Nat.choose_pos (by omega)
      simp_all
    · have hs := exps2_sorted K
      rw [hl, List.pairwise_cons] at hs
      have h0 : (0, 0) ∈ exps2 K := by rw [mem_exps2]; omega
      rw [hl, List.mem_cons] at h0
      have he : e = (0, 0) := by
        rcases h0 with h0 | h0
        · exact h0.symm
        · have := hs.1 _ h0
          simp only at this; omega
      subst he
      simp only [List.map_cons, sub_self, mulVec_zero, Pi.zero_apply, pow_zero, mul_one,
        List.length_cons, Nat.add_sub_cancel]
      congr 1
      rw [List.eq_replicate_iff]
      refine ⟨by simp, ?_⟩
      intro b hb
      rw [List.mem_map] at hb
      obtain ⟨f, hf, rfl⟩ := hb
      have := hs.1 f hf
      simp only at this
      by_cases h1 : f.1 = 0
      · rw [zero_pow (show f.2 ≠ 0 by omega), mul_zero]
      · rw [zero_pow h1, zero_mul]
  · rw [(c10_eval3 K P3 b3 b3).1, size3]
    congr 1
    rcases hl : exps3 K with _ | ⟨e, l⟩
    · have := exps3_length K; rw [hl] at this
      have : 0 < (K+3).choose 3 := Nat.choose_pos (by omega)
      simp_all
    · have hs := exps3_sorted K
      rw [hl, List.pairwise_cons] at hs
      have h0 : (0, 0, 0) ∈ exps3 K := by rw [mem_exps3]; omega
      rw [hl, List.mem_cons] at h0
      have he : e = (0, 0, 0) := by
        rcases h0 with h0 | h0
        · exact h0.symm
        · have := hs.1 _ h0
          simp only at this; omega
      subst he
      simp only [List.map_cons, sub_self, mulVec_zero, Pi.zero_apply, pow_zero, mul_one,
        List.length_cons, Nat.add_sub_cancel]
      congr 1
      rw [List.eq_replicate_iff]
      refine ⟨by simp, ?_⟩
      intro b hb
      rw [List.mem_map] at hb
      obtain ⟨f, hf, rfl⟩ := hb
      have := hs.1 f hf
      simp only at this
      by_cases h1 : f.1 = 0
      · by_cases h2 : f.2.1 = 0
        · rw [zero_pow (show f.2.2 ≠ 0 by omega), mul_zero]
        · rw [zero_pow h2, mul_zero, zero_mul]
      · rw [zero_pow h1, zero_mul, zero_mul]

end

example : eval2 2 (1 : Matrix (Fin 2) (Fin 2) Int) ![1, 1] ![3, 4] = .ok [1, 2, 3, 4, 6, 9] := by
  rw [(c10_eval2 _ _ _ _).1]; decide

/-- C11 (2D): values and gradients are returned without error for every point, and the j-th returned
row is the gradient of the j-th function, for every frame matrix; the new basis returns the same rows. -/
theorem c11_grad2 (K : Nat) (P : Matrix (Fin 2) (Fin 2) ℝ) (bar : Fin 2 → ℝ) :
    ∃ φ : List ((Fin 2 → ℝ) → ℝ), φ.length = scalarBasisSize K 2 ∧
      (∀ p, eval2 K P bar p = .ok (φ.map fun f => f p)) ∧
      ∀ pt, ∃ g, grad2 K P bar pt = .ok g ∧ newGrad2 K P bar pt = .ok g ∧
        List.Forall₂ (fun f v => HasGrad f v pt) φ g := by
  refine ⟨(exps2 K).map fun e p => scalingPoint P bar p 0 ^ e.1 * scalingPoint P bar p 1 ^ e.2,
    by simp [size2], fun p => by rw [(c10_eval2 K P bar p).1, List.map_map]; rfl, fun pt => ?_⟩
  have hnew : newGrad2 K P bar pt = grad2 K P bar pt := by
    unfold newGrad2 grad2
    obtain ⟨tx, hx, hx', hx''⟩ := powTable_spec (sizeOfDegree2 K) (scalingPoint P bar pt 0) K (lt_size2 K)
    obtain ⟨ty, hy, hy', hy''⟩ := powTable_spec (sizeOfDegree2 K) (scalingPoint P bar pt 1) K (lt_size2 K)
    simp only [hx, hy, Outcome.bind_ok]
    rw [seqAll_map _ _ (fun e => Pᵀ *ᵥ ![dfac (scalingPoint P bar pt 0) e.1 * iexpPow (scalingPoint P bar pt 1) e.2,
                                    iexpPow (scalingPoint P bar pt 0) e.1 * dfac (scalingPoint P bar pt 1) e.2])]
    · rw [Outcome.bind_ok, sizeN2, size2]
    · rintro ⟨a, b⟩ hab
      rw [mem_exps2] at hab
      rw [rd_eq (hx'' a (by omega)), rd_eq (hy'' b (by omega))]
      have da : rdDfac tx a = .ok (dfac (scalingPoint P bar pt 0) a) := by
        unfold rdDfac dfac; split
        · rfl
        · rw [rd_eq (hx'' (a - 1) (by omega)), c07_iexp_pow]; rfl
      have db : rdDfac ty b = .ok (dfac (scalingPoint P bar pt 1) b) := by
        unfold rdDfac dfac; split
        · rfl
        · rw [rd_eq (hy'' (b - 1) (by omega)), c07_iexp_pow]; rfl
      simp only [Outcome.bind_ok, da, db, c07_iexp_pow, mulVec_transpose]
  have hg : grad2 K P bar pt = .ok _ := fillVec_eq _ _ _ (by simp [size2])
  refine ⟨_, hg, hnew.trans hg, ?_⟩
  rw [List.forall₂_map_left_iff, List.forall₂_map_right_iff, List.forall₂_same]
  intro e _
  refine HasGrad.congr_grad (((HasGrad.coord P bar pt 0).pow e.1).mul ((HasGrad.coord P bar pt 1).pow e.2)) ?_
  funext j
  simp only [dfac_eq, c07_iexp_pow, mulVec, dotProduct, Fin.sum_univ_two, transpose_apply,
    Pi.add_apply, Pi.smul_apply, smul_eq_mul, cons_val_zero, cons_val_one]
  ring

/-- C11 (3D). -/
theorem c11_grad3 (K : Nat) (P : Matrix (Fin 3) (Fin 3) ℝ) (bar : Fin 3 → ℝ) :
    ∃ φ : List ((Fin 3 → ℝ) → ℝ), φ.length = scalarBasisSize K 3 ∧
      (∀ p, eval3 K P bar p = .ok (φ.map fun f => f p)) ∧
      ∀ pt, ∃ g, grad3 K P bar pt = .ok g ∧ newGrad3 K P bar pt = .ok g ∧
        List.Forall₂ (fun f v => HasGrad f v pt) φ g := by
  refine ⟨(exps3 K).map fun e p => scalingPoint P bar p 0 ^ e.1 * scalingPoint P bar p 1 ^ e.2.1 *
      scalingPoint P bar p 2 ^ e.2.2,
    by simp [size3], fun p => by rw [(c10_eval3 K P bar p).1, List.map_map]; rfl, fun pt => ?_⟩
  have hnew : newGrad3 K P bar pt = grad3 K P bar pt := by
    unfold newGrad3 grad3
    obtain ⟨tx, hx, hx', hx''⟩ := powTable_spec (sizeOfDegree3 K) (scalingPoint P bar pt 0) K (lt_size3 K)
    obtain ⟨ty, hy, hy', hy''⟩ := powTable_spec (sizeOfDegree3 K) (scalingPoint P bar pt 1) K (lt_size3 K)
    obtain ⟨tz, hz, hz', hz''⟩ := powTable_spec (sizeOfDegree3 K) (scalingPoint P bar pt 2) K (lt_size3 K)
    simp only [hx, hy, hz, Outcome.bind_ok]
    rw [seqAll_map _ _ (fun e =>
      Pᵀ *ᵥ ![dfac (scalingPoint P bar pt 0) e.1 * iexpPow (scalingPoint P bar pt 1) e.2.1 * iexpPow (scalingPoint P bar pt 2) e.2.2,
              iexpPow (scalingPoint P bar pt 0) e.1 * dfac (scalingPoint P bar pt 1) e.2.1 * iexpPow (scalingPoint P bar pt 2) e.2.2,
              iexpPow (scalingPoint P bar pt 0) e.1 * iexpPow (scalingPoint P bar pt 1) e.2.1 * dfac (scalingPoint P bar pt 2) e.2.2])]
    · rw [Outcome.bind_ok, sizeN3, size3]
    · rintro ⟨a, b, c⟩ hab
      rw [mem_exps3] at hab
      rw [rd_eq (hx'' a (by omega)), rd_eq (hy'' b (by omega)), rd_eq (hz'' c (by omega))]
      have da : rdDfac tx a = .ok (dfac (scalingPoint P bar pt 0) a) := by
        unfold rdDfac dfac; split
        · rfl
        · rw [rd_eq (hx'' (a - 1) (by omega)), c07_iexp_pow]; rfl
      have db : rdDfac ty b = .ok (dfac (scalingPoint P bar pt 1) b) := by
        unfold rdDfac dfac; split
        · rfl
        · rw [rd_eq (hy'' (b - 1) (by omega)), c07_iexp_pow]; rfl
      have dc : rdDfac tz c = .ok (dfac (scalingPoint P bar pt 2) c) := by
        unfold rdDfac dfac; split
        · rfl
        · rw [rd_eq (hz'' (c - 1) (by omega)), c07_iexp_pow]; rfl
      simp only [Outcome.bind_ok, da, db, dc, c07_iexp_pow, mulVec_transpose]
      congr 2
      ext i
      fin_cases i <;> simp only [cons_val, Fin.zero_eta, Fin.mk_one, Fin.reduceFinMk] <;> ring
  have hg : grad3 K P bar pt = .ok _ := fillVec_eq _ _ _ (by simp [size3])
  refine ⟨_, hg, hnew.trans hg, ?_⟩
  rw [List.forall₂_map_left_iff, List.forall₂_map_right_iff, List.forall₂_same]
  intro e _
  refine HasGrad.congr_grad ((((HasGrad.coord P bar pt 0).pow e.1).mul
    ((HasGrad.coord P bar pt 1).pow e.2.1)).mul ((HasGrad.coord P bar pt 2).pow e.2.2)) ?_
  funext j
  simp only [dfac_eq, c07_iexp_pow, mulVec, dotProduct, Fin.sum_univ_three, transpose_apply,
    Pi.add_apply, Pi.smul_apply, smul_eq_mul, cons_val_zero, cons_val_one, cons_val]
  ring

/-- C11 (1D). -/
theorem c11_grad1 (K : Nat) (bar h : ℝ) :
    ∃ φ : Nat → ℝ → ℝ, (∀ p, eval1 K bar h p = .ok ((List.range (K + 1)).map fun k => φ k p)) ∧
      ∀ pt, (grad1 K bar h pt).length = K + 1 ∧
        ∀ k (hk : k < (grad1 K bar h pt).length), HasDerivAt (φ k) ((grad1 K bar h pt)[k]) pt := by
  refine ⟨fun k p => (2 * (p - bar) / h) ^ k, fun p => ?_, fun pt => ⟨by simp [grad1], fun k hk => ?_⟩⟩
  · obtain ⟨t, h1, h2, h3⟩ := powTable_spec (K + 1) (2 * (p - bar) / h) K (by omega)
    rw [eval1, h1]
    congr 1
    apply List.ext_getElem?
    intro i
    by_cases hi : i ≤ K
    · rw [h3 i hi, List.getElem?_map, List.getElem?_range (by omega)]; rfl
    · rw [List.getElem?_eq_none (by omega), List.getElem?_eq_none (by simp; omega)]
  · have hbase : HasDerivAt (fun p => 2 * (p - bar) / h) (2 / h) pt := by
      have := (((hasDerivAt_id pt).sub_const bar).const_mul 2).div_const h
      simpa using this
    have := hbase.pow k
    refine this.congr_deriv ?_
    simp only [grad1, List.getElem_map, List.getElem_range]
    split
    · next h0 => simp [h0]
    · rw [c07_iexp_pow]; ring

example : grad1 2 (1 : ℚ) 2 3 = [0, 1, 4] := by
  simp only [grad1, List.range, List.range.loop, List.map, c07_iexp_pow]; norm_num

/-- C54 (3D, degree ≥ 2): the basis consists of the vector monomials of degree ≤ K-1 followed by
`(x - bar) * m` for exactly the monomials m of degree K-1; as many functions as the reported size. -/
theorem c54_rt3_partial {R : Type} [CommRing R] (K : Nat) (hK : 2 ≤ K)
    (P : Matrix (Fin 3) (Fin 3) R) (bar pt : Fin 3 → R) :
    ∃ phi l, eval3 (K - 1) P bar pt = .ok phi ∧ rtEval3 K P bar pt = .ok l ∧
      l = vecRows 3 phi ++ ((exps3 (K - 1)).filter fun e => e.1 + e.2.1 + e.2.2 = K - 1).map
        (fun e => ((P *ᵥ (pt - bar)) 0 ^ e.1 * (P *ᵥ (pt - bar)) 1 ^ e.2.1 *
          (P *ᵥ (pt - bar)) 2 ^ e.2.2) • (pt - bar)) ∧
      vectorBasisSizeRT K 3 3 = .ok l.length := by
  obtain ⟨j, rfl⟩ : ∃ j, K = j + 2 := ⟨K - 2, by omega⟩
  have he := (c10_eval3 (j + 1) P bar pt).1
  have hsize := (c09_raviart_thomas (j + 1)).2.1
  have hbeg : (if j + 2 > 2 then j + 2 - 2 else 0) = j := by split <;> omega
  have hs1 := exps3_length (j + 1)
  have hs0 : scalarBasisSize j 3 = (j + 3).choose 3 := (basisLoop_div j 3).2
  have hpas : (j + 1 + 3).choose 3 = (j + 3).choose 2 + (j + 3).choose 3 :=
    Nat.choose_succ_succ' (j + 3) 2
  have hfill := rtFill_eq (3 * (j + 1 + 3).choose 3 + (j + 1 + 2).choose 2)
    (scalarBasisSize j 3) (pt - bar) ((exps3 (j + 1)).map fun e =>
      (P *ᵥ (pt - bar)) 0 ^ e.1 * (P *ᵥ (pt - bar)) 1 ^ e.2.1 * (P *ᵥ (pt - bar)) 2 ^ e.2.2)
    (by rw [List.length_map, hs1, hs0, hpas, show j + 1 + 2 = j + 3 by omega]; omega)
  have hz : 3 * (j + 1 + 3).choose 3 + (j + 1 + 2).choose 2 -
      (3 * (exps3 (j + 1)).length + ((exps3 (j + 1)).length - scalarBasisSize j 3)) = 0 := by
    rw [hs1, hs0, hpas, show j + 1 + 2 = j + 3 by omega]; omega
  rw [List.length_map, hz, List.replicate_zero, List.append_nil, ← List.map_drop, exps3_drop,
    List.map_map] at hfill
  refine ⟨_, _, he, ?_, rfl, ?_⟩
  · unfold rtEval3
    simp only [show j + 2 - 1 = j + 1 by omega, show j + 2 = j + 1 + 1 by omega, hsize, he,
      Outcome.bind_ok]
    rw [show (if j + 1 + 1 > 2 then j + 1 + 1 - 2 else 0) = j from hbeg, hfill]
    rfl
  · rw [show j + 2 = j + 1 + 1 by omega, hsize]
    congr 1
    rw [show j + 1 + 1 - 1 = j + 1 by omega, ← exps3_drop]
    rw [List.length_append, vecRows_length, List.length_map, List.length_map, List.length_drop, hs1,
      hs0, hpas, show j + 1 + 2 = j + 3 by omega]; omega

/-- C54 (2D): the same statement, for every degree 1 ≤ K ≤ 2^31. For K = 1 the `size_t`
wrap-around of `K - 2` gives size 0, which is what is needed. -/
theorem c54_rt2 {R : Type} [CommRing R] (K : Nat) (hK : 1 ≤ K) (hK' : K ≤ 2 ^ 31)
    (P : Matrix (Fin 2) (Fin 2) R) (bar pt : Fin 2 → R) :
    ∃ phi l, eval2 (K - 1) P bar pt = .ok phi ∧ rtEval2 K P bar pt = .ok l ∧
      l = vecRows 2 phi ++ ((exps2 (K - 1)).filter fun e => e.1 + e.2 = K - 1).map
        (fun e => ((P *ᵥ (pt - bar)) 0 ^ e.1 * (P *ᵥ (pt - bar)) 1 ^ e.2) • (pt - bar)) ∧
      vectorBasisSizeRT K 2 2 = .ok l.length := by
  obtain ⟨j, rfl⟩ : ∃ j, K = j + 1 := ⟨K - 1, by omega⟩
  have he := (c10_eval2 j P bar pt).1
  have hsize := (c09_raviart_thomas j).1
  have hs1 := exps2_length j
  have key : ∃ beg, scalarBasisSize64_2 ((j + 1 + 2 ^ 64 - 2) % 2 ^ 64) = beg ∧
      (exps2 j).drop beg = (exps2 j).filter (fun e => e.1 + e.2 = j) ∧
      beg + (j + 1) = (j + 2).choose 2 := by
    rcases j with _ | j
    · exact ⟨0, by decide +kernel, by decide +kernel, by decide⟩
    · refine ⟨scalarBasisSize j 2, ?_, exps2_drop j, ?_⟩
      · have : (j + 1 + 1 + 2 ^ 64 - 2) % 2 ^ 64 = j := by omega
        rw [this, scalarBasisSize64_2_eq j (by omega)]
      · rw [show scalarBasisSize j 2 = (j + 2).choose 2 from (basisLoop_div j 2).2,
          show j + 1 + 2 = (j + 2) + 1 by omega, Nat.choose_succ_succ' (j + 2) 1,
          Nat.choose_one_right, Nat.add_comm]
  obtain ⟨beg, hb1, hb2, hb3⟩ := key
  rw [Nat.choose_one_right] at hsize
  have hfill := rtFill_eq (2 * (j + 2).choose 2 + (j + 1))
    beg (pt - bar) ((exps2 j).map fun e =>
      (P *ᵥ (pt - bar)) 0 ^ e.1 * (P *ᵥ (pt - bar)) 1 ^ e.2)
    (by rw [List.length_map, hs1]; omega)
  have hz : 2 * (j + 2).choose 2 + (j + 1) -
      (2 * (exps2 j).length + ((exps2 j).length - beg)) = 0 := by
    rw [hs1]; omega
  rw [List.length_map, hz, List.replicate_zero, List.append_nil, ← List.map_drop, hb2,
    List.map_map] at hfill
  refine ⟨_, _, he, ?_, rfl, ?_⟩
  · unfold rtEval2
    simp only [show j + 1 - 1 = j by omega, hsize, he, Outcome.bind_ok]
    rw [hb1, hfill]
    rfl
  · rw [hsize]
    congr 1
    rw [show j + 1 - 1 = j by omega, ← hb2]
    rw [List.length_append, vecRows_length, List.length_map, List.length_map, List.length_drop, hs1]
    omega

/-- C54 (violation): in 3D at degree 1 the reported size is 4, but the fourth function is zero at
every point, for every frame. -/
theorem c54_rt3_violation {R : Type} [CommRing R] (P : Matrix (Fin 3) (Fin 3) R) (bar pt : Fin 3 → R) :
    vectorBasisSizeRT 1 3 3 = .ok 4 ∧
    rtEval3 1 P bar pt = .ok [Pi.single 0 1, Pi.single 1 1, Pi.single 2 1, 0] := by
  refine ⟨by decide, ?_⟩
  have he := (c10_eval3 0 P bar pt).1
  have h0 : exps3 0 = [(0, 0, 0)] := by decide
  rw [h0] at he
  simp only [List.map_cons, pow_zero, mul_one, List.map_nil] at he
  unfold rtEval3
  rw [show vectorBasisSizeRT 1 3 3 = .ok 4 by decide]
  simp only [Outcome.bind_ok, show 1 - 1 = 0 by omega, he]
  rw [show scalarBasisSize (if 1 > 2 then 1 - 2 else 0) 3 = 1 by decide, rtFill_eq _ _ _ _ (by simp)]
  simp [vecRows, List.finRange_succ]

/-- C55 (new 1D basis, degree ≥ 1, default scale 2, end points in increasing order): the gradient is
the derivative. -/
theorem c55_grad1_partial (K : Nat) (hK : 1 ≤ K) (pa pb : ℝ) (hab : pa < pb) :
    ∃ φ : Nat → ℝ → ℝ,
      (∀ p, newEval1 K pb ((pa + pb) / 2) (pb - pa) 2 p = .ok ((List.range (K + 1)).map fun k => φ k p)) ∧
      ∀ pt, ∃ g, newGrad1 K pb ((pa + pb) / 2) (pb - pa) 2 pt = .ok g ∧ g.length = K + 1 ∧
        ∀ k (hk : k < g.length), HasDerivAt (φ k) g[k] pt := by
  set bar := (pa + pb) / 2 with hbar
  set h := pb - pa with hh
  have hpos : h ≠ 0 := (sub_pos.mpr hab).ne'
  have hpb : pb - bar = h / 2 := by rw [hbar, hh]; ring
  have hx : ∀ p, (pb - bar) * (p - bar) / ((h / 2) * (h / 2)) = 2 * (p - bar) / h := by
    intro p; rw [hpb]; field_simp
  refine ⟨fun k p => (2 * (p - bar) / h) ^ k, fun p => ?_, fun pt => ?_⟩
  · obtain ⟨t, h1, h2, h3⟩ := powTable_spec (K + 1) (2 * (p - bar) / h) K (by omega)
    rw [newEval1, hx, sizeOfDegree1, h1]
    congr 1
    apply List.ext_getElem?
    intro i
    by_cases hi : i ≤ K
    · rw [h3 i hi, List.getElem?_map, List.getElem?_range (by omega)]; rfl
    · rw [List.getElem?_eq_none (by omega), List.getElem?_eq_none (by simp; omega)]
  · have loop : ∀ (x s : ℝ) (n : Nat), n + 1 ≤ K → ∃ t, newGrad1Loop (K + 1) x s n = .ok t ∧
        t.length = K + 1 ∧ ∀ k ≤ n + 1, t[k]? = some ((k : ℝ) * s * x ^ (k - 1)) := by
      intro x s n hn
      induction n with
      | zero =>
        refine ⟨_, if_pos (by omega), by simp, ?_⟩
        intro k hk
        obtain rfl | rfl : k = 0 ∨ k = 1 := by omega
        · simp
        · rw [List.getElem?_set_self (by simp; omega)]; simp
      | succ n ih =>
        obtain ⟨t, h1, h2, h3⟩ := ih (by omega)
        refine ⟨t.set (n + 2) (((n + 2 : Nat) : ℝ) * s * x ^ (n + 1)), ?_, by simpa using h2, ?_⟩
        · simp only [newGrad1Loop, h1, Outcome.bind_ok, h3 (n + 1) le_rfl, h2]
          rw [if_pos (by omega)]
          congr 2
          have : ((n + 1 : Nat) : ℝ) ≠ 0 := by positivity
          rw [show n + 1 - 1 = n by omega]
          field_simp
          ring
        · intro k hk
          by_cases hk2 : k = n + 2
          · subst hk2
            rw [List.getElem?_set_self (by omega), show n + 2 - 1 = n + 1 by omega]
          · rw [List.getElem?_set_ne (by omega)]; exact h3 k (by omega)
    obtain ⟨t, h1, h2, h3⟩ := loop (2 * (pt - bar) / h) (2 / h) (K - 1) (by omega)
    refine ⟨t, by rw [newGrad1, hx, sizeOfDegree1, h1], h2, fun k hk => ?_⟩
    have hbase : HasDerivAt (fun p => 2 * (p - bar) / h) (2 / h) pt := by
      have := (((hasDerivAt_id pt).sub_const bar).const_mul 2).div_const h
      simpa using this
    refine (hbase.pow k).congr_deriv ?_
    have := h3 k (by omega)
    rw [List.getElem?_eq_getElem hk, Option.some.injEq] at this
    rw [this]; ring

/-- C55 (violation, degree 0): the gradient of the constant basis writes outside its result. -/
theorem c55_degree0_violation {R : Type} [Field R] (pb bar h s pt : R) :
    (newGrad1 0 pb bar h s pt).IsUB := by
  simp [newGrad1, newGrad1Loop, sizeOfDegree1, Outcome.IsUB]

/-- C55 (violation, scale factor): with a user scale factor of 1 on the cell [0,2] the second basis
function is `(x-1)/4`, but its reported derivative is 1/2. -/
theorem c55_scale_violation (pt : ℚ) :
    newEval1 1 2 1 2 1 pt = .ok [1, (pt - 1) / 4] ∧ newGrad1 1 2 1 2 1 pt = .ok [0, 1 / 2] := by
  constructor
  · simp [newEval1, powTable, sizeOfDegree1, List.replicate]; ring
  · simp [newGrad1, newGrad1Loop, sizeOfDegree1, List.replicate]

end Verif.Bases
