import Verif.Lemmas.TensorConv
import Verif.Spec.Mandel
/-!
C44, C46, C69, C70: conversions between matrices, tensors and the vectors of the material library.
-/
namespace Verif.Props.Mgis
open Verif Verif.Spec Verif.Tensor Verif.TensorConv Finset

/-- C44: sizes 5 and 9 round-trip: size 9 for every matrix, size 5 for those without out-of-plane shear. -/
theorem c44_full (M : Mat ℝ 3) :
    ((matrixToMgis M 9).bind matrixFromMgis = .ok M) ∧
      (M 0 2 = 0 → M 2 0 = 0 → M 1 2 = 0 → M 2 1 = 0 → (matrixToMgis M 5).bind matrixFromMgis = .ok M) := by
  refine ⟨?_, fun h1 h2 h3 h4 => ?_⟩ <;>
  · simp only [matrixToMgis, Outcome.bind_ok, matrixFromMgis, matrixWrites, List.length_cons, List.length_nil]
    congr 1
    funext i j
    fin_cases i <;> fin_cases j <;> simp [setM, Fac.val, *]

/-- C44: size 4 round-trips for symmetric matrices without out-of-plane shear. -/
theorem c44_four_partial (M : Mat ℝ 3) (hs : Symm M) (h1 : M 0 2 = 0) (h2 : M 1 2 = 0) :
    (matrixToMgis M 4).bind matrixFromMgis = .ok M := by
  have e1 := hs 1 0
  have e2 := hs 2 0
  have e3 := hs 2 1
  simp only [matrixToMgis, Outcome.bind_ok, matrixFromMgis, matrixWrites, List.length_cons, List.length_nil]
  congr 1
  funext i j
  fin_cases i <;> fin_cases j <;> simp [setM, Fac.val, sqrt2_mul_div, e1, e2, e3, h1, h2]

/-- C44 fails for size 6: what comes back has the `(1, 2)` entry in the place of `(0, 1)` and zero at `(1, 2)` and
`(2, 1)`. -/
theorem c44_six (M : Mat ℝ 3) : ∃ N, (matrixToMgis M 6).bind matrixFromMgis = .ok N ∧
    N 0 1 = M 1 2 ∧ N 1 0 = M 0 1 ∧ N 1 2 = 0 ∧ N 2 1 = 0 := by
  refine ⟨_, rfl, ?_, ?_, ?_, ?_⟩ <;> simp [setM, Fac.val, matrixWrites, sqrt2_mul_div]

/-- C44, the negation: a symmetric matrix that does not survive the conversion to size 6 and back. -/
theorem c44_violation : ∃ M : Mat ℝ 3, Symm M ∧ (matrixToMgis M 6).bind matrixFromMgis ≠ .ok M := by
  refine ⟨fun i j => if i = j then 0 else if i.val + j.val = 3 then 1 else 0, ?_, ?_⟩
  · intro i j
    simp only [eq_comm (a := i), add_comm i.val]
  · intro h
    obtain ⟨N, hN, _, _, h12, _⟩ := c44_six (fun i j => if i = j then 0 else if i.val + j.val = 3 then 1 else 0)
    rw [hN] at h
    injection h with h
    rw [h] at h12
    norm_num at h12
    exact absurd h12 (by decide)

/-- C44: for size 6, exactly the symmetric matrices whose `(0, 1)` and `(1, 2)` entries vanish come back. -/
theorem c44_six_partial (M : Mat ℝ 3) (hs : Symm M) :
    (matrixToMgis M 6).bind matrixFromMgis = .ok M ↔ M 0 1 = 0 ∧ M 1 2 = 0 := by
  constructor
  · intro h
    obtain ⟨N, hN, h01, _, h12, _⟩ := c44_six M
    rw [hN] at h
    injection h with h
    rw [h] at h01 h12
    exact ⟨by rw [h01, h12], h12⟩
  · rintro ⟨h1, h2⟩
    have e1 := hs 1 0
    have e2 := hs 2 0
    have e3 := hs 2 1
    simp only [matrixToMgis, Outcome.bind_ok, matrixFromMgis, matrixWrites, List.length_cons, List.length_nil]
    congr 1
    funext i j
    fin_cases i <;> fin_cases j <;> simp [setM, Fac.val, sqrt2_mul_div, e1, e2, e3, h1, h2]

/-- C44: other sizes are refused with an exception, in both directions. -/
theorem c44_sizes (M : Mat ℝ 3) (n : Nat) (v : List ℝ) :
    ((matrixToMgis M n).Throws ↔ n ≠ 4 ∧ n ≠ 5 ∧ n ≠ 6 ∧ n ≠ 9) ∧
      ((matrixFromMgis v).Throws ↔ v.length ≠ 4 ∧ v.length ≠ 5 ∧ v.length ≠ 6 ∧ v.length ≠ 9) := by
  constructor
  · unfold matrixToMgis
    split <;> simp_all
  · unfold matrixFromMgis
    generalize v.length = m
    unfold matrixWrites
    split
    · rename_i h
      split at h <;> simp_all
    · rename_i h
      split at h <;> simp_all

/-- C44: embedding a 2x2 matrix in 3x3 and restricting it again is the identity, and the determinant is kept when the
last diagonal entry is one. -/
theorem c44_plane (M : Mat ℝ 2) : matrix2 (matrix3D M) = M ∧ matrix2 (matrix3DOne M) = M ∧
    let N := matrix3DOne M
    N 0 0 * (N 1 1 * N 2 2 - N 1 2 * N 2 1) - N 0 1 * (N 1 0 * N 2 2 - N 1 2 * N 2 0) +
      N 0 2 * (N 1 0 * N 2 1 - N 1 1 * N 2 0) = M 0 0 * M 1 1 - M 0 1 * M 1 0 := by
  refine ⟨?_, ?_, ?_⟩
  · funext i j
    fin_cases i <;> fin_cases j <;> simp [matrix2, matrix3D]
  · funext i j
    fin_cases i <;> fin_cases j <;> simp [matrix2, matrix3DOne]
  · simp [matrix3DOne]

/-- C46: the converted modulus has major symmetry for every input. -/
theorem c46_symmetric (C : Tens ℝ 3) (S F : Mat ℝ 3) (i J k L : Fin 3) :
    get (ctoa C S F) ⟨i, J, k, L⟩ = get (ctoa C S F) ⟨k, L, i, J⟩ :=
  (ctoa_fold (ctoaTerm C S F) (quads 3) zero (fun _ => rfl)).1 ⟨i, J, k, L⟩

/-- C46: every coefficient is `F_iM C_MJNL F_kN + δ_ik S_JL` for the given indices or for the exchanged pairs. -/
theorem c46_value (C : Tens ℝ 3) (S F : Mat ℝ 3) (i J k L : Fin 3) :
    get (ctoa C S F) ⟨i, J, k, L⟩ = (∑ M, ∑ N, F i M * get C ⟨M, J, N, L⟩ * F k N) + (if i = k then S J L else 0) ∨
    get (ctoa C S F) ⟨i, J, k, L⟩ = (∑ M, ∑ N, F k M * get C ⟨M, L, N, J⟩ * F i N) + (if k = i then S L J else 0) := by
  have e : ∀ t : Idx 3, ctoaTerm C S F t =
      (∑ M, ∑ N, F t.i M * get C ⟨M, t.j, N, t.l⟩ * F t.k N) + (if t.i = t.k then S t.j t.l else 0) := by
    intro t
    unfold ctoaTerm
    congr 1
    refine sum_congr rfl fun M _ => ?_
    rw [sum_mul]
    exact sum_congr rfl fun N _ => by ring
  have h := (ctoa_fold (ctoaTerm C S F) (quads 3) zero (fun _ => rfl)).2 ⟨i, J, k, L⟩ (Or.inl (mem_quads _))
  rwa [e, e] at h

/-- C46: for a tangent with major symmetry and a symmetric stress, the result is `F_iM C_MJNL F_kN + δ_ik S_JL`. -/
theorem c46_formula (C : Tens ℝ 3) (S F : Mat ℝ 3) (hC : ∀ M J N L, get C ⟨M, J, N, L⟩ = get C ⟨N, L, M, J⟩)
    (hS : Symm S) (i J k L : Fin 3) :
    get (ctoa C S F) ⟨i, J, k, L⟩ = (∑ M, ∑ N, F i M * get C ⟨M, J, N, L⟩ * F k N) + (if i = k then S J L else 0) := by
  rcases c46_value C S F i J k L with h | h
  · exact h
  · rw [h]
    congr 1
    · rw [sum_comm]
      refine sum_congr rfl fun M _ => sum_congr rfl fun N _ => ?_
      rw [hC N L M J]; ring
    · simp only [eq_comm (a := k), hS L J]

example : (∀ M J N L, get (ixi ℝ 3) ⟨M, J, N, L⟩ = get (ixi ℝ 3) ⟨N, L, M, J⟩) ∧ Symm (D := 3) (fun _ _ => 1) := by
  refine ⟨fun M J N L => ?_, fun _ _ => rfl⟩
  rw [get_ixi, get_ixi]
  simp only [and_comm]

/-- C69: a 4 × 4 tangent: applying the converted tensor is the same as multiplying the vectors by the matrix. -/
theorem c69_four (v : Vec) (hv : v.size = 16) (E : Mat ℝ 3) (hE : E 0 1 = E 1 0) :
    ∃ A x, tensorFromMgis v = .ok A ∧ matrixToMgis E 4 = .ok x ∧
      matrixToMgis (tmProd A E) 4 = .ok (matTimes 4 v.at' x) := by
  refine ⟨exec writes16 v, _, by unfold tensorFromMgis; rw [hv]; rfl, rfl, ?_⟩
  have g : ∀ i j, tmProd (exec writes16 v) E i j = ∑ k, ∑ l, valOf v (place4 4 ⟨i, j, k, l⟩) * E k l := by
    intro i j
    show ∑ k, ∑ l, get (exec writes16 v) ⟨i, j, k, l⟩ * E k l = _
    simp only [get_exec, symb16]
  have hs := sqrt2_sq
  simp only [matrixToMgis, matTimes, rowTimes, List.range, List.range.loop, List.map, g, Fin.sum_univ_three, place4, place]
  simp [valOf, Fac.mul, Fac.val, div_sqrt2, ← hE]
  refine ⟨by ring, by ring, by ring, ?_⟩
  linear_combination (v.at' 12 * E 0 0 + v.at' 13 * E 1 1 + v.at' 14 * E 2 2) / 2 * hs

/-- C69: a 5 × 5 tangent, for every matrix. -/
theorem c69_five (v : Vec) (hv : v.size = 25) (E : Mat ℝ 3) :
    ∃ A x, tensorFromMgis v = .ok A ∧ matrixToMgis E 5 = .ok x ∧
      matrixToMgis (tmProd A E) 5 = .ok (matTimes 5 v.at' x) := by
  refine ⟨exec writes25 v, _, by unfold tensorFromMgis; rw [hv]; rfl, rfl, ?_⟩
  have g : ∀ i j, tmProd (exec writes25 v) E i j = ∑ k, ∑ l, valOf v (place4 5 ⟨i, j, k, l⟩) * E k l := by
    intro i j
    show ∑ k, ∑ l, get (exec writes25 v) ⟨i, j, k, l⟩ * E k l = _
    simp only [get_exec, symb25]
  simp only [matrixToMgis, matTimes, rowTimes, List.range, List.range.loop, List.map, g, Fin.sum_univ_three, place4, place]
  simp [valOf, Fac.mul, Fac.val]
  refine ⟨?_, ?_, ?_, ?_, ?_⟩ <;> ring

/-- C69: a 9 × 9 tangent, for every matrix. -/
theorem c69_nine (v : Vec) (hv : v.size = 81) (E : Mat ℝ 3) :
    ∃ A x, tensorFromMgis v = .ok A ∧ matrixToMgis E 9 = .ok x ∧
      matrixToMgis (tmProd A E) 9 = .ok (matTimes 9 v.at' x) := by
  refine ⟨exec writes81 v, _, by unfold tensorFromMgis; rw [hv]; rfl, rfl, ?_⟩
  have g : ∀ i j, tmProd (exec writes81 v) E i j = ∑ k, ∑ l, valOf v (place4 9 ⟨i, j, k, l⟩) * E k l := by
    intro i j
    show ∑ k, ∑ l, get (exec writes81 v) ⟨i, j, k, l⟩ * E k l = _
    simp only [get_exec, symb81]
  simp only [matrixToMgis, matTimes, rowTimes, List.range, List.range.loop, List.map, g, Fin.sum_univ_three, place4, place]
  simp [valOf, Fac.mul, Fac.val]
  refine ⟨?_, ?_, ?_, ?_, ?_, ?_, ?_, ?_, ?_⟩ <;> ring

/-- C69: a 6 × 6 tangent that does not couple normal and shear components and has one shear modulus is converted
correctly. -/
theorem c69_six_partial (v : Vec) (hv : v.size = 36) (E : Mat ℝ 3) (hE : Symm E)
    (hz : ∀ a b, a < 6 → b < 6 → 3 ≤ a ∨ 3 ≤ b → a ≠ b → v.at' (6 * a + b) = 0)
    (hd : v.at' 21 = v.at' 28 ∧ v.at' 28 = v.at' 35) :
    ∃ A x, tensorFromMgis v = .ok A ∧ matrixToMgis E 6 = .ok x ∧
      matrixToMgis (tmProd A E) 6 = .ok (matTimes 6 v.at' x) := by
  refine ⟨exec writes36 v, _, by unfold tensorFromMgis; rw [hv]; rfl, rfl, ?_⟩
  have z : ∀ n, n < 36 → (3 ≤ n / 6 ∨ 3 ≤ n % 6) → n / 6 ≠ n % 6 → v.at' n = 0 := by
    intro n hn h1 h2
    have := hz (n / 6) (n % 6) (by omega) (by omega) h1 h2
    rwa [Nat.div_add_mod] at this
  have z3 := z 3 (by omega) (by omega) (by omega)
  have z4 := z 4 (by omega) (by omega) (by omega)
  have z5 := z 5 (by omega) (by omega) (by omega)
  have z9 := z 9 (by omega) (by omega) (by omega)
  have z10 := z 10 (by omega) (by omega) (by omega)
  have z11 := z 11 (by omega) (by omega) (by omega)
  have z15 := z 15 (by omega) (by omega) (by omega)
  have z16 := z 16 (by omega) (by omega) (by omega)
  have z17 := z 17 (by omega) (by omega) (by omega)
  have z18 := z 18 (by omega) (by omega) (by omega)
  have z19 := z 19 (by omega) (by omega) (by omega)
  have z20 := z 20 (by omega) (by omega) (by omega)
  have z22 := z 22 (by omega) (by omega) (by omega)
  have z23 := z 23 (by omega) (by omega) (by omega)
  have z24 := z 24 (by omega) (by omega) (by omega)
  have z25 := z 25 (by omega) (by omega) (by omega)
  have z26 := z 26 (by omega) (by omega) (by omega)
  have z27 := z 27 (by omega) (by omega) (by omega)
  have z29 := z 29 (by omega) (by omega) (by omega)
  have z30 := z 30 (by omega) (by omega) (by omega)
  have z31 := z 31 (by omega) (by omega) (by omega)
  have z32 := z 32 (by omega) (by omega) (by omega)
  have z33 := z 33 (by omega) (by omega) (by omega)
  have z34 := z 34 (by omega) (by omega) (by omega)
  have e1 := hE 1 0
  have e2 := hE 2 0
  have e3 := hE 2 1
  simp only [matrixToMgis, matTimes, rowTimes, List.range, List.range.loop, List.map, tmProd36, Fin.sum_univ_three,
    place36, placeRot]
  simp [valOf, Fac.mul, Fac.val, e1, e2, e3, z3, z4, z5, z9, z10, z11, z15, z16, z17, z18, z19, z20, z22, z23, z24, z25,
    z26, z27, z29, z30, z31, z32, z33, z34, hd.1, hd.2]
  refine ⟨?_, ?_, ?_, ?_, ?_, ?_⟩ <;> ring

example : ∃ v : Vec, v.size = 36 ∧ (∀ a b, a < 6 → b < 6 → 3 ≤ a ∨ 3 ≤ b → a ≠ b → v.at' (6 * a + b) = 0) ∧
    (v.at' 21 = v.at' 28 ∧ v.at' 28 = v.at' 35) ∧ v.at' 21 = 1 := by
  refine ⟨⟨36, fun n => if n % 7 = 0 then 1 else 0⟩, rfl, ?_, by norm_num, by norm_num⟩
  intro a b ha hb _ hn
  exact if_neg (by omega)

/-- C69 fails for a 6 × 6 tangent: the order of the shear components in the tangent is not the one used for vectors. -/
theorem c69_violation : ∃ (v : Vec) (E : Mat ℝ 3), v.size = 36 ∧ Symm E ∧ ∀ A x, tensorFromMgis v = .ok A →
    matrixToMgis E 6 = .ok x → matrixToMgis (tmProd A E) 6 ≠ .ok (matTimes 6 v.at' x) := by
  refine ⟨⟨36, fun n => if n = 3 then 1 else 0⟩, fun i j => if i.val + j.val = 1 then 1 else 0, rfl, ?_, ?_⟩
  · intro i j; simp only [add_comm]
  · intro A x hA hx h
    simp only [tensorFromMgis] at hA
    injection hA with hA
    simp only [matrixToMgis] at hx
    injection hx with hx
    subst hA hx
    simp only [matrixToMgis, matTimes, rowTimes, List.range, List.range.loop, List.map, tmProd36, Fin.sum_univ_three,
      place36, placeRot] at h
    injection h with h
    have h0 := (List.cons.inj h).1
    simp [valOf, Fac.mul, Fac.val] at h0
    exact sqrt2_ne h0.symm

/-- C69 also fails for the order 11, 22, 33, 23, 31, 12 that `case 36` itself follows: entry 32 is divided by 2 instead
of the square root of 2. -/
theorem c69_order_violation : ∃ (v : Vec) (E : Mat ℝ 3), v.size = 36 ∧ Symm E ∧ ∀ A, tensorFromMgis v = .ok A →
    let S := tmProd A E
    [S 0 0, S 1 1, S 2 2, Real.sqrt 2 * S 1 2, Real.sqrt 2 * S 0 2, Real.sqrt 2 * S 0 1] ≠
      matTimes 6 v.at' [E 0 0, E 1 1, E 2 2, Real.sqrt 2 * E 1 2, Real.sqrt 2 * E 0 2, Real.sqrt 2 * E 0 1] := by
  refine ⟨⟨36, fun n => if n = 32 then 1 else 0⟩, fun i j => if i.val + j.val = 4 then 1 else 0, rfl, ?_, ?_⟩
  · intro i j; simp only [add_comm]
  · intro A hA
    simp only [tensorFromMgis] at hA
    injection hA with hA
    subst hA
    simp only [matTimes, rowTimes, List.range, List.range.loop, List.map, tmProd36, Fin.sum_univ_three, place36, placeRot]
    simp [valOf, Fac.mul, Fac.val]
    intro h
    have hs := sqrt2_sq
    have : Real.sqrt 2 = 2 := by linarith
    rw [this] at hs
    norm_num at hs

/-- C69: other sizes are refused. -/
theorem c69_sizes (v : Vec) :
    (tensorFromMgis v).Throws ↔ v.size ≠ 16 ∧ v.size ≠ 25 ∧ v.size ≠ 36 ∧ v.size ≠ 81 := by
  unfold tensorFromMgis
  split <;> simp_all

/-- C70: the Mandel matrix of a tensor with the second minor symmetry acts on Mandel vectors like the tensor on
symmetric matrices. -/
theorem c70_mandel (A : Tens ℝ 3) (hA : ∀ i j k l, get A ⟨i, j, k, l⟩ = get A ⟨i, j, l, k⟩) (E : Mat ℝ 3) (hE : Symm E) :
    ∃ x y, matrixToMgis E 6 = .ok x ∧ matrixToMgis (tmProd A E) 6 = .ok y ∧
      ∀ r : Fin 6, ∑ c : Fin 6, mandel A r c * x.getD c 0 = y.getD r 0 := by
  refine ⟨_, _, rfl, rfl, ?_⟩
  have g : ∀ i j, tmProd A E i j = ∑ k, ∑ l, get A ⟨i, j, k, l⟩ * E k l := fun i j => rfl
  have e1 := hE 1 0
  have e2 := hE 2 0
  have e3 := hE 2 1
  have hs := sqrt2_sq
  have m1 := fun i j => hA i j 1 0
  have m2 := fun i j => hA i j 2 0
  have m3 := fun i j => hA i j 2 1
  intro r
  simp only [mandel_entry, g, Fin.sum_univ_six, Fin.sum_univ_three, m1, m2, m3, e1, e2, e3]
  fin_cases r <;> simp [pair, pairFac, Fac.val]
  · linear_combination (get A ⟨0, 0, 0, 1⟩ * E 0 1 + get A ⟨0, 0, 0, 2⟩ * E 0 2 + get A ⟨0, 0, 1, 2⟩ * E 1 2) * hs
  · linear_combination (get A ⟨1, 1, 0, 1⟩ * E 0 1 + get A ⟨1, 1, 0, 2⟩ * E 0 2 + get A ⟨1, 1, 1, 2⟩ * E 1 2) * hs
  · linear_combination (get A ⟨2, 2, 0, 1⟩ * E 0 1 + get A ⟨2, 2, 0, 2⟩ * E 0 2 + get A ⟨2, 2, 1, 2⟩ * E 1 2) * hs
  · ring
  · ring
  · ring

example : ∀ i j k l, get (identitySym ℝ 3) ⟨i, j, k, l⟩ = get (identitySym ℝ 3) ⟨i, j, l, k⟩ := by
  intro i j k l
  rw [get_identitySym (by norm_num) (by omega), get_identitySym (by norm_num) (by omega), add_comm]

/-- C70: restricting a 3D tensor to 2D keeps the coefficients with indices 0 and 1. -/
theorem c70_restrict (A : Tens ℝ 3) (i j k l : Fin 2) :
    get (tensor2 A) ⟨i, j, k, l⟩ = get A ⟨⟨i, by omega⟩, ⟨j, by omega⟩, ⟨k, by omega⟩, ⟨l, by omega⟩⟩ := by
  fin_cases i <;> fin_cases j <;> fin_cases k <;> fin_cases l <;> rfl

/-- C70: so it acts on plane matrices like the 3D tensor on their extensions by zero. -/
theorem c70_plane (A : Tens ℝ 3) (M : Mat ℝ 2) : tmProd (tensor2 A) M = matrix2 (tmProd A (matrix3D M)) := by
  funext i j
  show ∑ k, ∑ l, get (tensor2 A) ⟨i, j, k, l⟩ * M k l =
    ∑ k, ∑ l, get A ⟨⟨i, by omega⟩, ⟨j, by omega⟩, k, l⟩ * matrix3D M k l
  simp only [c70_restrict, Fin.sum_univ_two, Fin.sum_univ_three, matrix3D]
  simp

end Verif.Props.Mgis
