import Verif.Model.Dga
import Mathlib.Algebra.BigOperators.Fin
import Mathlib.Tactic.LinearCombination
import Mathlib.Tactic.FieldSimp
import Mathlib.Tactic.FinCases
import Mathlib.Tactic.Linarith
/-!
Helper lemmas for the discrete geometric approach.
-/
namespace Verif.Lemmas.Dga
open Verif.Spec Verif.Simplex Verif.Dga

variable {K : Type} [Field K] [LinearOrder K] [IsStrictOrderedRing K]

theorem dot_comm (a b : P3 K) : dot a b = dot b a := by simp only [dot]; ring
theorem dot_add (a b c : P3 K) : dot a (add b c) = dot a b + dot a c := by simp only [dot, add]; ring
theorem dot_sub (a b c : P3 K) : dot a (sub b c) = dot a b - dot a c := by simp only [dot, sub]; ring
theorem dot_smul (a b : P3 K) (s : K) : dot a (smul s b) = s * dot a b := by simp only [dot, smul]; ring
theorem add_dot (a b c : P3 K) : dot (add b c) a = dot b a + dot c a := by simp only [dot, add]; ring
theorem sub_dot (a b c : P3 K) : dot (sub b c) a = dot b a - dot c a := by simp only [dot, sub]; ring
theorem smul_dot (a b : P3 K) (s : K) : dot (smul s b) a = s * dot b a := by simp only [dot, smul]; ring

theorem dot_self_nonneg (a : P3 K) : 0 ≤ dot a a := by
  simp only [dot]
  nlinarith [mul_self_nonneg a.x, mul_self_nonneg a.y, mul_self_nonneg a.z]

theorem dot_self_eq_zero {a : P3 K} (h : dot a a = 0) : a = ⟨0, 0, 0⟩ := by
  simp only [dot] at h
  have hx := mul_self_nonneg a.x
  have hy := mul_self_nonneg a.y
  have hz := mul_self_nonneg a.z
  ext
  · exact mul_self_eq_zero.1 (by linarith)
  · exact mul_self_eq_zero.1 (by linarith)
  · exact mul_self_eq_zero.1 (by linarith)

/-- Fields with the same products with all vectors are the same. -/
theorem ext_dot {a b : P3 K} (h : ∀ v, dot v a = dot v b) : a = b := by
  have hx := h ⟨1, 0, 0⟩
  have hy := h ⟨0, 1, 0⟩
  have hz := h ⟨0, 0, 1⟩
  simp only [dot, one_mul, zero_mul, add_zero, zero_add] at hx hy hz
  ext <;> assumption

/-! ### Volumes -/

theorem vol_eq (p : Fin 4 → P3 K) : volUnsigned p = |volSigned p| := rfl
theorem vol6_eq (p : Fin 4 → P3 K) : vol6 (p 0) (p 1) (p 2) (p 3) = 6 * volSigned p := by
  simp only [vol6, volSigned, dot, cross, sub]; ring

/-- The sign of the volume. -/
def sgn (p : Fin 4 → P3 K) : K := if volSigned p < 0 then -1 else 1

theorem sgn_mul (p : Fin 4 → P3 K) : sgn p * volSigned p = volUnsigned p := by
  rw [vol_eq, sgn]
  split_ifs with h
  · rw [abs_of_neg h]; ring
  · rw [abs_of_nonneg (not_lt.1 h)]; ring

theorem sgn_sq (p : Fin 4 → P3 K) : sgn p * sgn p = 1 := by
  rw [sgn]
  split_ifs <;> ring

theorem vol_pos {p : Fin 4 → P3 K} (h : volSigned p ≠ 0) : 0 < volUnsigned p := by
  rw [vol_eq]; exact abs_pos.2 h

/-! ### Primal vectors -/

theorem forall4 {P : Fin 4 → Prop} (h0 : P 0) (h1 : P 1) (h2 : P 2) (h3 : P 3) (i : Fin 4) : P i := by
  fin_cases i
  exacts [h0, h1, h2, h3]
theorem forall6 {P : Fin 6 → Prop} (h0 : P 0) (h1 : P 1) (h2 : P 2) (h3 : P 3) (h4 : P 4) (h5 : P 5) (i : Fin 6) :
    P i := by
  fin_cases i
  exacts [h0, h1, h2, h3, h4, h5]

theorem forall3 {P : Fin 3 → Prop} (h0 : P 0) (h1 : P 1) (h2 : P 2) (i : Fin 3) : P i := by
  fin_cases i
  exacts [h0, h1, h2]

section values
variable (p : Fin 4 → P3 K)
theorem pev_0 : pev p 0 = sub (p 1) (p 0) := rfl
theorem pev_1 : pev p 1 = sub (p 2) (p 0) := rfl
theorem pev_2 : pev p 2 = sub (p 3) (p 0) := rfl
theorem pev_3 : pev p 3 = sub (p 2) (p 1) := rfl
theorem pev_4 : pev p 4 = sub (p 3) (p 1) := rfl
theorem pev_5 : pev p 5 = sub (p 3) (p 2) := rfl
theorem pav_0 : pav p 0 = smul (1 / 2) (cross (sub (p 2) (p 1)) (sub (p 3) (p 1))) := rfl
theorem pav_1 : pav p 1 = smul (1 / 2) (cross (sub (p 2) (p 0)) (sub (p 3) (p 0))) := rfl
theorem pav_2 : pav p 2 = smul (1 / 2) (cross (sub (p 1) (p 0)) (sub (p 3) (p 0))) := rfl
theorem pav_3 : pav p 3 = smul (1 / 2) (cross (sub (p 1) (p 0)) (sub (p 2) (p 0))) := rfl
theorem faceBar_0 : faceBar p 0 = bar3 (p 1) (p 2) (p 3) := rfl
theorem faceBar_1 : faceBar p 1 = bar3 (p 0) (p 2) (p 3) := rfl
theorem faceBar_2 : faceBar p 2 = bar3 (p 0) (p 1) (p 3) := rfl
theorem faceBar_3 : faceBar p 3 = bar3 (p 0) (p 1) (p 2) := rfl
theorem edgeBar_0 : edgeBar p 0 = bar2 (p 0) (p 1) := rfl
theorem edgeBar_1 : edgeBar p 1 = bar2 (p 0) (p 2) := rfl
theorem edgeBar_2 : edgeBar p 2 = bar2 (p 0) (p 3) := rfl
theorem edgeBar_3 : edgeBar p 3 = bar2 (p 1) (p 2) := rfl
theorem edgeBar_4 : edgeBar p 4 = bar2 (p 1) (p 3) := rfl
theorem edgeBar_5 : edgeBar p 5 = bar2 (p 2) (p 3) := rfl
end values

theorem pev3 (p : Fin 4 → P3 K) : pev p 3 = sub (pev p 1) (pev p 0) := by
  rw [pev_0, pev_1, pev_3]; ext <;> simp only [sub] <;> ring
theorem pev4 (p : Fin 4 → P3 K) : pev p 4 = sub (pev p 2) (pev p 0) := by
  rw [pev_0, pev_2, pev_4]; ext <;> simp only [sub] <;> ring
theorem pev5 (p : Fin 4 → P3 K) : pev p 5 = sub (pev p 2) (pev p 1) := by
  rw [pev_1, pev_2, pev_5]; ext <;> simp only [sub] <;> ring

theorem pev_edge (p : Fin 4 → P3 K) (i : Fin 6) : pev p i = sub (p (edge i).2) (p (edge i).1) := by
  fin_cases i <;> rfl

theorem pav0 (p : Fin 4 → P3 K) : pav p 0 = add (sub (pav p 1) (pav p 2)) (pav p 3) := by
  rw [pav_0, pav_1, pav_2, pav_3]
  ext <;> simp only [sub, add, smul, cross] <;> ring

/-- The products of area vectors and edges from the first point. -/
theorem pev_pav (p : Fin 4 → P3 K) :
    dot (pev p 0) (pav p 1) = 3 * volSigned p ∧ dot (pev p 1) (pav p 1) = 0 ∧ dot (pev p 2) (pav p 1) = 0 ∧
    dot (pev p 0) (pav p 2) = 0 ∧ dot (pev p 1) (pav p 2) = -(3 * volSigned p) ∧ dot (pev p 2) (pav p 2) = 0 ∧
    dot (pev p 0) (pav p 3) = 0 ∧ dot (pev p 1) (pav p 3) = 0 ∧ dot (pev p 2) (pav p 3) = 3 * volSigned p := by
  simp only [pev_0, pev_1, pev_2, pav_1, pav_2, pav_3, sub, smul, cross, dot, volSigned]
  refine ⟨?_, ?_, ?_, ?_, ?_, ?_, ?_, ?_, ?_⟩ <;> ring

/-- The combinations of area vectors at the four points. -/
def wE (P : Fin 4 → P3 K) (x : Fin 6 → K) : Fin 4 → P3 K :=
  ![add (sub (smul (x 0) (P 1)) (smul (x 1) (P 2))) (smul (x 2) (P 3)),
    add (sub (smul (x 0) (P 0)) (smul (x 3) (P 2))) (smul (x 4) (P 3)),
    add (sub (smul (x 1) (P 0)) (smul (x 3) (P 1))) (smul (x 5) (P 3)),
    add (sub (smul (x 2) (P 0)) (smul (x 4) (P 1))) (smul (x 5) (P 2))]

/-- The combinations of edges at the four points. -/
def wF (P : Fin 6 → P3 K) (y : Fin 4 → K) : Fin 4 → P3 K :=
  ![add (sub (smul (y 1) (P 0)) (smul (y 2) (P 1))) (smul (y 3) (P 2)),
    add (sub (smul (y 0) (P 0)) (smul (y 2) (P 3))) (smul (y 3) (P 4)),
    add (sub (smul (y 0) (P 1)) (smul (y 1) (P 3))) (smul (y 3) (P 5)),
    add (sub (smul (y 0) (P 2)) (smul (y 1) (P 4))) (smul (y 2) (P 5))]

/-- Of the circulations of a constant field, all are three times the volume times the field. -/
theorem wE_const (p : Fin 4 → P3 K) (f : P3 K) (v : Fin 4) :
    wE (pav p) (onPrimalEdges p f) v = smul (3 * volSigned p) f := by
  have h0 : add (sub (smul (dot f (pev p 0)) (pav p 1)) (smul (dot f (pev p 1)) (pav p 2)))
      (smul (dot f (pev p 2)) (pav p 3)) = smul (3 * volSigned p) f := by
    rw [pev_0, pev_1, pev_2, pav_1, pav_2, pav_3]
    ext <;> simp only [sub, add, smul, cross, dot, volSigned] <;> ring
  have h3 := pev3 p
  have h4 := pev4 p
  have h5 := pev5 p
  have ha := pav0 p
  revert v
  refine forall4 ?_ ?_ ?_ ?_
  · exact h0
  · show add (sub (smul (dot f (pev p 0)) (pav p 0)) (smul (dot f (pev p 3)) (pav p 2))) (smul (dot f (pev p 4)) (pav p 3)) = _
    rw [← h0, ha, h3, h4]
    simp only [dot_sub]
    ext <;> simp only [add, sub, smul] <;> ring
  · show add (sub (smul (dot f (pev p 1)) (pav p 0)) (smul (dot f (pev p 3)) (pav p 1))) (smul (dot f (pev p 5)) (pav p 3)) = _
    rw [← h0, ha, h3, h5]
    simp only [dot_sub]
    ext <;> simp only [add, sub, smul] <;> ring
  · show add (sub (smul (dot f (pev p 2)) (pav p 0)) (smul (dot f (pev p 4)) (pav p 1))) (smul (dot f (pev p 5)) (pav p 2)) = _
    rw [← h0, ha, h4, h5]
    simp only [dot_sub]
    ext <;> simp only [add, sub, smul] <;> ring

/-- Of the fluxes of a constant field, all are three times the volume times the field. -/
theorem wF_const (p : Fin 4 → P3 K) (f : P3 K) (v : Fin 4) :
    wF (pev p) (fun i => dot f (pav p i)) v = smul (3 * volSigned p) f := by
  have h0 : add (sub (smul (dot f (pav p 1)) (pev p 0)) (smul (dot f (pav p 2)) (pev p 1)))
      (smul (dot f (pav p 3)) (pev p 2)) = smul (3 * volSigned p) f := by
    rw [pev_0, pev_1, pev_2, pav_1, pav_2, pav_3]
    ext <;> simp only [sub, add, smul, cross, dot, volSigned] <;> ring
  have h3 := pev3 p
  have h4 := pev4 p
  have h5 := pev5 p
  have ha := pav0 p
  revert v
  refine forall4 ?_ ?_ ?_ ?_
  · exact h0
  · show add (sub (smul (dot f (pav p 0)) (pev p 0)) (smul (dot f (pav p 2)) (pev p 3))) (smul (dot f (pav p 3)) (pev p 4)) = _
    rw [← h0, ha, h3, h4]
    simp only [dot_sub, dot_add]
    ext <;> simp only [add, sub, smul] <;> ring
  · show add (sub (smul (dot f (pav p 0)) (pev p 1)) (smul (dot f (pav p 1)) (pev p 3))) (smul (dot f (pav p 3)) (pev p 5)) = _
    rw [← h0, ha, h3, h5]
    simp only [dot_sub, dot_add]
    ext <;> simp only [add, sub, smul] <;> ring
  · show add (sub (smul (dot f (pav p 0)) (pev p 2)) (smul (dot f (pav p 1)) (pev p 4))) (smul (dot f (pav p 2)) (pev p 5)) = _
    rw [← h0, ha, h4, h5]
    simp only [dot_sub, dot_add]
    ext <;> simp only [add, sub, smul] <;> ring

/-! ### Dual vectors -/

/-- The sums of area vectors of the two faces at an edge. -/
def pairE (a : Fin 4 → P3 K) : Fin 6 → P3 K :=
  ![add (a 0) (a 1), sub (a 0) (a 2), add (a 0) (a 3), smul (-1) (add (a 1) (a 2)), sub (a 3) (a 1), add (a 2) (a 3)]

/-- The sums of the three edges out of a face. -/
def tripF (e : Fin 6 → P3 K) : Fin 4 → P3 K :=
  ![add (add (e 0) (e 1)) (e 2), sub (sub (e 0) (e 3)) (e 4), smul (-1) (sub (add (e 1) (e 3)) (e 5)),
    add (add (e 2) (e 4)) (e 5)]

/-- `dav` with the sign taken out. -/
def davS (s : K) (p : Fin 4 → P3 K) : Fin 6 → P3 K :=
  ![smul s (cross (sub (bar4 p) (edgeBar p 0)) (sub (faceBar p 2) (faceBar p 3))),
    smul s (cross (sub (bar4 p) (edgeBar p 1)) (sub (faceBar p 3) (faceBar p 1))),
    smul s (cross (sub (bar4 p) (edgeBar p 2)) (sub (faceBar p 1) (faceBar p 2))),
    smul s (cross (sub (bar4 p) (edgeBar p 3)) (sub (faceBar p 0) (faceBar p 3))),
    smul s (cross (sub (bar4 p) (edgeBar p 4)) (sub (faceBar p 2) (faceBar p 0))),
    smul s (cross (sub (bar4 p) (edgeBar p 5)) (sub (faceBar p 0) (faceBar p 1)))]

theorem davS_eq (s : K) (p : Fin 4 → P3 K) (i : Fin 6) : davS s p i = smul (s / 6) (pairE (pav p) i) := by
  revert i
  refine forall6 ?_ ?_ ?_ ?_ ?_ ?_
  · show smul s (cross (sub (bar4 p) (edgeBar p 0)) (sub (faceBar p 2) (faceBar p 3))) =
      smul (s / 6) (add (pav p 0) (pav p 1))
    rw [pav_0, pav_1, edgeBar_0, faceBar_2, faceBar_3]
    ext <;> simp only [bar2, bar3, bar4, sub, add, smul, cross] <;> ring
  · show smul s (cross (sub (bar4 p) (edgeBar p 1)) (sub (faceBar p 3) (faceBar p 1))) =
      smul (s / 6) (sub (pav p 0) (pav p 2))
    rw [pav_0, pav_2, edgeBar_1, faceBar_1, faceBar_3]
    ext <;> simp only [bar2, bar3, bar4, sub, add, smul, cross] <;> ring
  · show smul s (cross (sub (bar4 p) (edgeBar p 2)) (sub (faceBar p 1) (faceBar p 2))) =
      smul (s / 6) (add (pav p 0) (pav p 3))
    rw [pav_0, pav_3, edgeBar_2, faceBar_1, faceBar_2]
    ext <;> simp only [bar2, bar3, bar4, sub, add, smul, cross] <;> ring
  · show smul s (cross (sub (bar4 p) (edgeBar p 3)) (sub (faceBar p 0) (faceBar p 3))) =
      smul (s / 6) (smul (-1) (add (pav p 1) (pav p 2)))
    rw [pav_1, pav_2, edgeBar_3, faceBar_0, faceBar_3]
    ext <;> simp only [bar2, bar3, bar4, sub, add, smul, cross] <;> ring
  · show smul s (cross (sub (bar4 p) (edgeBar p 4)) (sub (faceBar p 2) (faceBar p 0))) =
      smul (s / 6) (sub (pav p 3) (pav p 1))
    rw [pav_1, pav_3, edgeBar_4, faceBar_0, faceBar_2]
    ext <;> simp only [bar2, bar3, bar4, sub, add, smul, cross] <;> ring
  · show smul s (cross (sub (bar4 p) (edgeBar p 5)) (sub (faceBar p 0) (faceBar p 1))) =
      smul (s / 6) (add (pav p 2) (pav p 3))
    rw [pav_2, pav_3, edgeBar_5, faceBar_0, faceBar_1]
    ext <;> simp only [bar2, bar3, bar4, sub, add, smul, cross] <;> ring

theorem dav_eq (p : Fin 4 → P3 K) (i : Fin 6) : dav p i = smul (sgn p / 12) (pairE (pav p) i) := by
  have : (if volSigned p < 0 then (-1 / 2 : K) else 1 / 2) = sgn p / 2 := by
    rw [sgn]; split_ifs <;> ring
  have h : dav p = davS (if volSigned p < 0 then (-1 / 2 : K) else 1 / 2) p := rfl
  rw [h, davS_eq, this]
  congr 1
  ring

/-- `dev` with the sign taken out. -/
def devS (s : K) (p : Fin 4 → P3 K) : Fin 4 → P3 K :=
  ![smul s (sub (faceBar p 0) (bar4 p)), smul s (sub (bar4 p) (faceBar p 1)),
    smul s (sub (faceBar p 2) (bar4 p)), smul s (sub (bar4 p) (faceBar p 3))]

theorem devS_eq (s : K) (p : Fin 4 → P3 K) (i : Fin 4) : devS s p i = smul (s / 12) (tripF (pev p) i) := by
  revert i
  refine forall4 ?_ ?_ ?_ ?_
  · show smul s (sub (faceBar p 0) (bar4 p)) = smul (s / 12) (add (add (pev p 0) (pev p 1)) (pev p 2))
    rw [pev_0, pev_1, pev_2, faceBar_0]
    ext <;> simp only [bar3, bar4, sub, add, smul] <;> ring
  · show smul s (sub (bar4 p) (faceBar p 1)) = smul (s / 12) (sub (sub (pev p 0) (pev p 3)) (pev p 4))
    rw [pev_0, pev_3, pev_4, faceBar_1]
    ext <;> simp only [bar3, bar4, sub, add, smul] <;> ring
  · show smul s (sub (faceBar p 2) (bar4 p)) = smul (s / 12) (smul (-1) (sub (add (pev p 1) (pev p 3)) (pev p 5)))
    rw [pev_1, pev_3, pev_5, faceBar_2]
    ext <;> simp only [bar3, bar4, sub, add, smul] <;> ring
  · show smul s (sub (bar4 p) (faceBar p 3)) = smul (s / 12) (add (add (pev p 2) (pev p 4)) (pev p 5))
    rw [pev_2, pev_4, pev_5, faceBar_3]
    ext <;> simp only [bar3, bar4, sub, add, smul] <;> ring

theorem dev_eq (p : Fin 4 → P3 K) (i : Fin 4) : dev p i = smul (sgn p / 12) (tripF (pev p) i) :=
  devS_eq (sgn p) p i

/-! ### Material matrices -/

theorem sum6 (f : Fin 6 → K) : ∑ j, f j = f 0 + f 1 + f 2 + f 3 + f 4 + f 5 := Fin.sum_univ_six f
theorem sum4 (f : Fin 4 → K) : ∑ j, f j = f 0 + f 1 + f 2 + f 3 := Fin.sum_univ_four f

/-- A row of the edge matrix as combinations at the two points of the edge. -/
def rowE (a : Fin 4 → P3 K) (w : Fin 4 → P3 K) : Fin 6 → K :=
  ![dot (a 1) (w 0) + dot (a 0) (w 1), -dot (a 2) (w 0) + dot (a 0) (w 2), dot (a 3) (w 0) + dot (a 0) (w 3),
    -dot (a 2) (w 1) - dot (a 1) (w 2), dot (a 3) (w 1) - dot (a 1) (w 3), dot (a 3) (w 2) + dot (a 2) (w 3)]

theorem apply_edgeElement (a P : Fin 4 → P3 K) (h : ∀ i j, dot (a i) (P j) = dot (a j) (P i)) (x : Fin 6 → K)
    (i : Fin 6) : apply (edgeElement a P) x i = rowE a (wE P x) i := by
  have w0 : wE P x 0 = add (sub (smul (x 0) (P 1)) (smul (x 1) (P 2))) (smul (x 2) (P 3)) := rfl
  have w1 : wE P x 1 = add (sub (smul (x 0) (P 0)) (smul (x 3) (P 2))) (smul (x 4) (P 3)) := rfl
  have w2 : wE P x 2 = add (sub (smul (x 1) (P 0)) (smul (x 3) (P 1))) (smul (x 5) (P 3)) := rfl
  have w3 : wE P x 3 = add (sub (smul (x 2) (P 0)) (smul (x 4) (P 1))) (smul (x 5) (P 2)) := rfl
  revert i
  refine forall6 ?_ ?_ ?_ ?_ ?_ ?_ <;> rw [apply, sum6]
  · show (dot (a 0) (P 0) + dot (a 1) (P 1)) * x 0 + -dot (a 1) (P 2) * x 1 + dot (a 1) (P 3) * x 2 +
      -dot (a 0) (P 2) * x 3 + dot (a 0) (P 3) * x 4 + 0 * x 5 = dot (a 1) (wE P x 0) + dot (a 0) (wE P x 1)
    rw [w0, w1]
    simp only [dot_add, dot_sub, dot_smul]
    ring
  · show -dot (a 1) (P 2) * x 0 + (dot (a 0) (P 0) + dot (a 2) (P 2)) * x 1 + -dot (a 2) (P 3) * x 2 +
      -dot (a 0) (P 1) * x 3 + 0 * x 4 + dot (a 0) (P 3) * x 5 = -dot (a 2) (wE P x 0) + dot (a 0) (wE P x 2)
    rw [w0, w2]
    simp only [dot_add, dot_sub, dot_smul]
    linear_combination -x 0 * h 1 2
  · show dot (a 1) (P 3) * x 0 + -dot (a 2) (P 3) * x 1 + (dot (a 0) (P 0) + dot (a 3) (P 3)) * x 2 +
      0 * x 3 + -dot (a 0) (P 1) * x 4 + dot (a 0) (P 2) * x 5 = dot (a 3) (wE P x 0) + dot (a 0) (wE P x 3)
    rw [w0, w3]
    simp only [dot_add, dot_sub, dot_smul]
    linear_combination x 0 * h 1 3 - x 1 * h 2 3
  · show -dot (a 0) (P 2) * x 0 + -dot (a 0) (P 1) * x 1 + 0 * x 2 + (dot (a 1) (P 1) + dot (a 2) (P 2)) * x 3 +
      -dot (a 2) (P 3) * x 4 + -dot (a 1) (P 3) * x 5 = -dot (a 2) (wE P x 1) - dot (a 1) (wE P x 2)
    rw [w1, w2]
    simp only [dot_add, dot_sub, dot_smul]
    linear_combination -x 0 * h 0 2 - x 1 * h 0 1
  · show dot (a 0) (P 3) * x 0 + 0 * x 1 + -dot (a 0) (P 1) * x 2 + -dot (a 2) (P 3) * x 3 +
      (dot (a 1) (P 1) + dot (a 3) (P 3)) * x 4 + -dot (a 1) (P 2) * x 5 = dot (a 3) (wE P x 1) - dot (a 1) (wE P x 3)
    rw [w1, w3]
    simp only [dot_add, dot_sub, dot_smul]
    linear_combination x 0 * h 0 3 - x 2 * h 0 1 - x 3 * h 2 3
  · show 0 * x 0 + dot (a 0) (P 3) * x 1 + dot (a 0) (P 2) * x 2 + -dot (a 1) (P 3) * x 3 + -dot (a 1) (P 2) * x 4 +
      (dot (a 2) (P 2) + dot (a 3) (P 3)) * x 5 = dot (a 3) (wE P x 2) + dot (a 2) (wE P x 3)
    rw [w2, w3]
    simp only [dot_add, dot_sub, dot_smul]
    linear_combination x 1 * h 0 3 + x 2 * h 0 2 - x 3 * h 1 3 - x 4 * h 1 2

/-- A row of the face matrix as combinations at the three points of the face. -/
def rowF (e : Fin 6 → P3 K) (w : Fin 4 → P3 K) : Fin 4 → K :=
  ![dot (e 0) (w 1) + dot (e 1) (w 2) + dot (e 2) (w 3), dot (e 0) (w 0) - dot (e 3) (w 2) - dot (e 4) (w 3),
    -dot (e 1) (w 0) - dot (e 3) (w 1) + dot (e 5) (w 3), dot (e 2) (w 0) + dot (e 4) (w 1) + dot (e 5) (w 2)]

theorem apply_faceElement (e P : Fin 6 → P3 K) (h : ∀ i j, dot (e i) (P j) = dot (e j) (P i)) (y : Fin 4 → K)
    (i : Fin 4) : apply (faceElement e P) y i = rowF e (wF P y) i := by
  have w0 : wF P y 0 = add (sub (smul (y 1) (P 0)) (smul (y 2) (P 1))) (smul (y 3) (P 2)) := rfl
  have w1 : wF P y 1 = add (sub (smul (y 0) (P 0)) (smul (y 2) (P 3))) (smul (y 3) (P 4)) := rfl
  have w2 : wF P y 2 = add (sub (smul (y 0) (P 1)) (smul (y 1) (P 3))) (smul (y 3) (P 5)) := rfl
  have w3 : wF P y 3 = add (sub (smul (y 0) (P 2)) (smul (y 1) (P 4))) (smul (y 2) (P 5)) := rfl
  revert i
  refine forall4 ?_ ?_ ?_ ?_ <;> rw [apply, sum4]
  · show (dot (e 0) (P 0) + dot (e 1) (P 1) + dot (e 2) (P 2)) * y 0 + (-dot (e 3) (P 1) - dot (e 4) (P 2)) * y 1 +
      (-dot (e 3) (P 0) + dot (e 5) (P 2)) * y 2 + (dot (e 4) (P 0) + dot (e 5) (P 1)) * y 3 =
      dot (e 0) (wF P y 1) + dot (e 1) (wF P y 2) + dot (e 2) (wF P y 3)
    rw [w1, w2, w3]
    simp only [dot_add, dot_sub, dot_smul]
    linear_combination -y 1 * h 3 1 - y 1 * h 4 2 - y 2 * h 3 0 + y 2 * h 5 2 + y 3 * h 4 0 + y 3 * h 5 1
  · show (-dot (e 3) (P 1) - dot (e 4) (P 2)) * y 0 + (dot (e 0) (P 0) + dot (e 3) (P 3) + dot (e 4) (P 4)) * y 1 +
      (-dot (e 1) (P 0) - dot (e 5) (P 4)) * y 2 + (dot (e 2) (P 0) - dot (e 3) (P 5)) * y 3 =
      dot (e 0) (wF P y 0) - dot (e 3) (wF P y 2) - dot (e 4) (wF P y 3)
    rw [w0, w2, w3]
    simp only [dot_add, dot_sub, dot_smul]
    linear_combination -y 2 * h 1 0 - y 2 * h 5 4 + y 3 * h 2 0
  · show (-dot (e 3) (P 0) + dot (e 5) (P 2)) * y 0 + (-dot (e 1) (P 0) - dot (e 5) (P 4)) * y 1 +
      (dot (e 1) (P 1) + dot (e 3) (P 3) + dot (e 5) (P 5)) * y 2 + (-dot (e 2) (P 1) - dot (e 4) (P 3)) * y 3 =
      -dot (e 1) (wF P y 0) - dot (e 3) (wF P y 1) + dot (e 5) (wF P y 3)
    rw [w0, w1, w3]
    simp only [dot_add, dot_sub, dot_smul]
    linear_combination -y 3 * h 2 1 - y 3 * h 4 3
  · show (dot (e 4) (P 0) + dot (e 5) (P 1)) * y 0 + (dot (e 2) (P 0) - dot (e 3) (P 5)) * y 1 +
      (-dot (e 2) (P 1) - dot (e 4) (P 3)) * y 2 + (dot (e 2) (P 2) + dot (e 4) (P 4) + dot (e 5) (P 5)) * y 3 =
      dot (e 2) (wF P y 0) + dot (e 4) (wF P y 1) + dot (e 5) (wF P y 2)
    rw [w0, w1, w2]
    simp only [dot_add, dot_sub, dot_smul]
    linear_combination -y 1 * h 3 5

/-- The symmetric bilinear forms. -/
theorem form_edgeElement (a P : Fin 4 → P3 K) (h : ∀ i j, dot (a i) (P j) = dot (a j) (P i)) (x y : Fin 6 → K) :
    ∑ i, y i * apply (edgeElement a P) x i = ∑ v, dot (wE a y v) (wE P x v) := by
  simp only [apply_edgeElement a P h]
  rw [sum6, sum4]
  have w0 : wE a y 0 = add (sub (smul (y 0) (a 1)) (smul (y 1) (a 2))) (smul (y 2) (a 3)) := rfl
  have w1 : wE a y 1 = add (sub (smul (y 0) (a 0)) (smul (y 3) (a 2))) (smul (y 4) (a 3)) := rfl
  have w2 : wE a y 2 = add (sub (smul (y 1) (a 0)) (smul (y 3) (a 1))) (smul (y 5) (a 3)) := rfl
  have w3 : wE a y 3 = add (sub (smul (y 2) (a 0)) (smul (y 4) (a 1))) (smul (y 5) (a 2)) := rfl
  rw [w0, w1, w2, w3]
  generalize wE P x = w
  simp only [add_dot, sub_dot, smul_dot]
  show y 0 * (dot (a 1) (w 0) + dot (a 0) (w 1)) + y 1 * (-dot (a 2) (w 0) + dot (a 0) (w 2)) +
    y 2 * (dot (a 3) (w 0) + dot (a 0) (w 3)) + y 3 * (-dot (a 2) (w 1) - dot (a 1) (w 2)) +
    y 4 * (dot (a 3) (w 1) - dot (a 1) (w 3)) + y 5 * (dot (a 3) (w 2) + dot (a 2) (w 3)) = _
  ring

theorem form_faceElement (e P : Fin 6 → P3 K) (h : ∀ i j, dot (e i) (P j) = dot (e j) (P i)) (x y : Fin 4 → K) :
    ∑ i, y i * apply (faceElement e P) x i = ∑ v, dot (wF e y v) (wF P x v) := by
  simp only [apply_faceElement e P h]
  rw [sum4, sum4]
  have w0 : wF e y 0 = add (sub (smul (y 1) (e 0)) (smul (y 2) (e 1))) (smul (y 3) (e 2)) := rfl
  have w1 : wF e y 1 = add (sub (smul (y 0) (e 0)) (smul (y 2) (e 3))) (smul (y 3) (e 4)) := rfl
  have w2 : wF e y 2 = add (sub (smul (y 0) (e 1)) (smul (y 1) (e 3))) (smul (y 3) (e 5)) := rfl
  have w3 : wF e y 3 = add (sub (smul (y 0) (e 2)) (smul (y 1) (e 4))) (smul (y 2) (e 5)) := rfl
  rw [w0, w1, w2, w3]
  generalize wF P x = w
  simp only [add_dot, sub_dot, smul_dot]
  show y 0 * (dot (e 0) (w 1) + dot (e 1) (w 2) + dot (e 2) (w 3)) +
    y 1 * (dot (e 0) (w 0) - dot (e 3) (w 2) - dot (e 4) (w 3)) +
    y 2 * (-dot (e 1) (w 0) - dot (e 3) (w 1) + dot (e 5) (w 3)) +
    y 3 * (dot (e 2) (w 0) + dot (e 4) (w 1) + dot (e 5) (w 2)) = _
  ring

/-! ### Tensors -/

/-- The tensor is symmetric. -/
def SymT (T : Fin 3 → P3 K) : Prop := ∀ v w, dot v (mulVec T w) = dot w (mulVec T v)

theorem mulVec_add (T : Fin 3 → P3 K) (v w : P3 K) : mulVec T (add v w) = add (mulVec T v) (mulVec T w) := by
  simp only [mulVec, dot_add]
  simp only [add]
theorem mulVec_sub (T : Fin 3 → P3 K) (v w : P3 K) : mulVec T (sub v w) = sub (mulVec T v) (mulVec T w) := by
  simp only [mulVec, dot_sub]
  simp only [sub]
theorem mulVec_smul (T : Fin 3 → P3 K) (s : K) (v : P3 K) : mulVec T (smul s v) = smul s (mulVec T v) := by
  simp only [mulVec, dot_smul]
  simp only [smul]
theorem smul_mulVec (T : Fin 3 → P3 K) (s : K) (v : P3 K) : mulVec (fun i => smul s (T i)) v = smul s (mulVec T v) := by
  simp only [mulVec, smul_dot]
  simp only [smul]

theorem symT_smul {T : Fin 3 → P3 K} (h : SymT T) (s : K) : SymT fun i => smul s (T i) := by
  intro v w
  rw [smul_mulVec, smul_mulVec, dot_smul, dot_smul, h v w]

theorem wE_mulVec (T : Fin 3 → P3 K) (a : Fin 4 → P3 K) (x : Fin 6 → K) (v : Fin 4) :
    wE (fun i => mulVec T (a i)) x v = mulVec T (wE a x v) := by
  revert v
  refine forall4 ?_ ?_ ?_ ?_ <;> simp only [wE, Matrix.cons_val, mulVec_add, mulVec_sub, mulVec_smul]

theorem wF_mulVec (T : Fin 3 → P3 K) (e : Fin 6 → P3 K) (y : Fin 4 → K) (v : Fin 4) :
    wF (fun i => mulVec T (e i)) y v = mulVec T (wF e y v) := by
  revert v
  refine forall4 ?_ ?_ ?_ ?_ <;> simp only [wF, Matrix.cons_val, mulVec_add, mulVec_sub, mulVec_smul]

/-- The scalar `s` as a tensor. -/
def scalarT (s : K) : Fin 3 → P3 K := ![⟨s, 0, 0⟩, ⟨0, s, 0⟩, ⟨0, 0, s⟩]

theorem mulVec_scalarT (s : K) (v : P3 K) : mulVec (scalarT s) v = smul s v := by
  ext <;> simp [mulVec, scalarT, dot, smul]

theorem symT_scalarT (s : K) : SymT (scalarT s) := by
  intro v w
  rw [mulVec_scalarT, mulVec_scalarT, dot_smul, dot_smul, dot_comm]

theorem edgeMatrix_eq (p : Fin 4 → P3 K) (s : K) : edgeMatrix p s = edgeMatrixT p (scalarT s) := by
  have h : (fun i => smul (s / (36 * volUnsigned p)) (pav p i)) =
      fun i => mulVec (fun i => smul (1 / (36 * volUnsigned p)) (scalarT s i)) (pav p i) := by
    funext i
    rw [smul_mulVec, mulVec_scalarT]
    ext <;> simp only [smul] <;> ring
  simp only [edgeMatrix, edgeMatrixT]
  rw [h]

theorem faceMatrix_eq (p : Fin 4 → P3 K) (s : K) : faceMatrix p s = faceMatrixT p (scalarT s) := by
  have h : (fun i => smul (s / (36 * volUnsigned p)) (pev p i)) =
      fun i => mulVec (fun i => smul (1 / (36 * volUnsigned p)) (scalarT s i)) (pev p i) := by
    funext i
    rw [smul_mulVec, mulVec_scalarT]
    ext <;> simp only [smul] <;> ring
  simp only [faceMatrix, faceMatrixT]
  rw [h]

theorem edge_form (p : Fin 4 → P3 K) {T : Fin 3 → P3 K} (hT : SymT T) (x y : Fin 6 → K) :
    ∑ i, y i * apply (edgeMatrixT p T) x i =
      1 / (36 * volUnsigned p) * ∑ v, dot (wE (pav p) y v) (mulVec T (wE (pav p) x v)) := by
  have h := form_edgeElement (pav p) (fun i => mulVec (fun i => smul (1 / (36 * volUnsigned p)) (T i)) (pav p i))
    (fun i j => symT_smul hT _ (pav p i) (pav p j)) x y
  refine h.trans ?_
  rw [Finset.mul_sum]
  refine Finset.sum_congr rfl fun v _ => ?_
  rw [wE_mulVec, smul_mulVec, dot_smul]

theorem face_form (p : Fin 4 → P3 K) {T : Fin 3 → P3 K} (hT : SymT T) (x y : Fin 4 → K) :
    ∑ i, y i * apply (faceMatrixT p T) x i =
      1 / (36 * volUnsigned p) * ∑ v, dot (wF (pev p) y v) (mulVec T (wF (pev p) x v)) := by
  have h := form_faceElement (pev p) (fun i => mulVec (fun i => smul (1 / (36 * volUnsigned p)) (T i)) (pev p i))
    (fun i j => symT_smul hT _ (pev p i) (pev p j)) x y
  refine h.trans ?_
  rw [Finset.mul_sum]
  refine Finset.sum_congr rfl fun v _ => ?_
  rw [wF_mulVec, smul_mulVec, dot_smul]

/-- The rows on the circulations of a constant field. -/
theorem rowE_const (a : Fin 4 → P3 K) (f : P3 K) (i : Fin 6) : rowE a (fun _ => f) i = dot f (pairE a i) := by
  revert i
  refine forall6 ?_ ?_ ?_ ?_ ?_ ?_
  · show dot (a 1) f + dot (a 0) f = dot f (add (a 0) (a 1))
    rw [dot_add, dot_comm f, dot_comm f]; ring
  · show -dot (a 2) f + dot (a 0) f = dot f (sub (a 0) (a 2))
    rw [dot_sub, dot_comm f, dot_comm f]; ring
  · show dot (a 3) f + dot (a 0) f = dot f (add (a 0) (a 3))
    rw [dot_add, dot_comm f, dot_comm f]; ring
  · show -dot (a 2) f - dot (a 1) f = dot f (smul (-1) (add (a 1) (a 2)))
    rw [dot_smul, dot_add, dot_comm f, dot_comm f]; ring
  · show dot (a 3) f - dot (a 1) f = dot f (sub (a 3) (a 1))
    rw [dot_sub, dot_comm f, dot_comm f]
  · show dot (a 3) f + dot (a 2) f = dot f (add (a 2) (a 3))
    rw [dot_add, dot_comm f, dot_comm f]; ring

theorem rowF_const (e : Fin 6 → P3 K) (f : P3 K) (i : Fin 4) : rowF e (fun _ => f) i = dot f (tripF e i) := by
  revert i
  refine forall4 ?_ ?_ ?_ ?_
  · show dot (e 0) f + dot (e 1) f + dot (e 2) f = dot f (add (add (e 0) (e 1)) (e 2))
    rw [dot_add, dot_add, dot_comm f, dot_comm f, dot_comm f]
  · show dot (e 0) f - dot (e 3) f - dot (e 4) f = dot f (sub (sub (e 0) (e 3)) (e 4))
    rw [dot_sub, dot_sub, dot_comm f, dot_comm f, dot_comm f]
  · show -dot (e 1) f - dot (e 3) f + dot (e 5) f = dot f (smul (-1) (sub (add (e 1) (e 3)) (e 5)))
    rw [dot_smul, dot_sub, dot_add, dot_comm f, dot_comm f, dot_comm f]; ring
  · show dot (e 2) f + dot (e 4) f + dot (e 5) f = dot f (add (add (e 2) (e 4)) (e 5))
    rw [dot_add, dot_add, dot_comm f, dot_comm f, dot_comm f]

theorem scale_eq {p : Fin 4 → P3 K} (h : volSigned p ≠ 0) :
    1 / (36 * volUnsigned p) * (3 * volSigned p) = sgn p / 12 := by
  have h1 := sgn_mul p
  have h2 := ne_of_gt (vol_pos h)
  have h3 := sgn_sq p
  rw [one_div_mul_eq_div, div_eq_div_iff (mul_ne_zero (by norm_num) h2) (by norm_num)]
  rw [← h1]
  linear_combination (-36 * volSigned p) * h3

theorem edge_const {p : Fin 4 → P3 K} (h : volSigned p ≠ 0) {T : Fin 3 → P3 K} (hT : SymT T) (f : P3 K) (i : Fin 6) :
    apply (edgeMatrixT p T) (onPrimalEdges p f) i = onDualFaces p (mulVec T f) i := by
  have hr := apply_edgeElement (pav p) (fun i => mulVec (fun i => smul (1 / (36 * volUnsigned p)) (T i)) (pav p i))
    (fun i j => symT_smul hT _ (pav p i) (pav p j)) (onPrimalEdges p f) i
  refine hr.trans ?_
  have hw : wE (fun i => mulVec (fun i => smul (1 / (36 * volUnsigned p)) (T i)) (pav p i)) (onPrimalEdges p f) =
      fun _ => smul (sgn p / 12) (mulVec T f) := by
    funext v
    rw [wE_mulVec, wE_const, smul_mulVec, mulVec_smul, ← scale_eq h]
    ext <;> simp only [smul] <;> ring
  rw [hw, rowE_const, onDualFaces, dav_eq, smul_dot, dot_smul]

theorem face_const {p : Fin 4 → P3 K} (h : volSigned p ≠ 0) {T : Fin 3 → P3 K} (hT : SymT T) (f : P3 K) (i : Fin 4) :
    apply (faceMatrixT p T) (fun i => dot f (pav p i)) i = onDualEdges p (mulVec T f) i := by
  have hr := apply_faceElement (pev p) (fun i => mulVec (fun i => smul (1 / (36 * volUnsigned p)) (T i)) (pev p i))
    (fun i j => symT_smul hT _ (pev p i) (pev p j)) (fun i => dot f (pav p i)) i
  refine hr.trans ?_
  have hw : wF (fun i => mulVec (fun i => smul (1 / (36 * volUnsigned p)) (T i)) (pev p i)) (fun i => dot f (pav p i)) =
      fun _ => smul (sgn p / 12) (mulVec T f) := by
    funext v
    rw [wF_mulVec, wF_const, smul_mulVec, mulVec_smul, ← scale_eq h]
    ext <;> simp only [smul] <;> ring
  rw [hw, rowF_const, onDualEdges, dev_eq, smul_dot, dot_smul]

/-- The combinations determine the circulations. -/
theorem wE_injective {p : Fin 4 → P3 K} (h : volSigned p ≠ 0) {x : Fin 6 → K}
    (hw : ∀ v, wE (pav p) x v = ⟨0, 0, 0⟩) (i : Fin 6) : x i = 0 := by
  obtain ⟨h01, h11, h21, h02, h12, h22, h03, h13, h23⟩ := pev_pav p
  have h3 := pev3 p
  have h4 := pev4 p
  have h5 := pev5 p
  have ha := pav0 p
  have hz : ∀ (v : Fin 4) (e : P3 K), dot e (wE (pav p) x v) = 0 := by
    intro v e
    rw [hw v]
    simp [dot]
  have hV : (3 : K) * volSigned p ≠ 0 := mul_ne_zero (by norm_num) h
  have k0 : ∀ e, dot e (add (sub (smul (x 0) (pav p 1)) (smul (x 1) (pav p 2))) (smul (x 2) (pav p 3))) = 0 := hz 0
  have k1 : ∀ e, dot e (add (sub (smul (x 0) (pav p 0)) (smul (x 3) (pav p 2))) (smul (x 4) (pav p 3))) = 0 := hz 1
  have k2 : ∀ e, dot e (add (sub (smul (x 1) (pav p 0)) (smul (x 3) (pav p 1))) (smul (x 5) (pav p 3))) = 0 := hz 2
  simp only [ha, dot_add, dot_sub, dot_smul] at k0 k1 k2
  have e0 : x 0 = 0 := by
    have := k0 (pev p 0)
    rw [h01, h02, h03] at this
    exact (mul_eq_zero.1 (by linear_combination this : x 0 * (3 * volSigned p) = 0)).resolve_right hV
  have e1 : x 1 = 0 := by
    have := k0 (pev p 1)
    rw [h11, h12, h13] at this
    exact (mul_eq_zero.1 (by linear_combination this : x 1 * (3 * volSigned p) = 0)).resolve_right hV
  have e2 : x 2 = 0 := by
    have := k0 (pev p 2)
    rw [h21, h22, h23] at this
    exact (mul_eq_zero.1 (by linear_combination this : x 2 * (3 * volSigned p) = 0)).resolve_right hV
  have e3 : x 3 = 0 := by
    have := k1 (pev p 1)
    rw [h11, h12, h13, e0] at this
    exact (mul_eq_zero.1 (by linear_combination this : x 3 * (3 * volSigned p) = 0)).resolve_right hV
  have e4 : x 4 = 0 := by
    have := k1 (pev p 2)
    rw [h21, h22, h23, e0] at this
    exact (mul_eq_zero.1 (by linear_combination this : x 4 * (3 * volSigned p) = 0)).resolve_right hV
  have e5 : x 5 = 0 := by
    have := k2 (pev p 2)
    rw [h21, h22, h23, e1] at this
    exact (mul_eq_zero.1 (by linear_combination this : x 5 * (3 * volSigned p) = 0)).resolve_right hV
  revert i
  exact forall6 e0 e1 e2 e3 e4 e5

theorem wF_injective {p : Fin 4 → P3 K} (h : volSigned p ≠ 0) {y : Fin 4 → K}
    (hw : ∀ v, wF (pev p) y v = ⟨0, 0, 0⟩) (i : Fin 4) : y i = 0 := by
  obtain ⟨h01, h11, h21, h02, h12, h22, h03, h13, h23⟩ := pev_pav p
  have h3 := pev3 p
  have h4 := pev4 p
  have hz : ∀ (v : Fin 4) (e : P3 K), dot (wF (pev p) y v) e = 0 := by
    intro v e
    rw [hw v]
    simp [dot]
  have hV : (3 : K) * volSigned p ≠ 0 := mul_ne_zero (by norm_num) h
  have k0 : ∀ e, dot (add (sub (smul (y 1) (pev p 0)) (smul (y 2) (pev p 1))) (smul (y 3) (pev p 2))) e = 0 := hz 0
  have k1 : ∀ e, dot (add (sub (smul (y 0) (pev p 0)) (smul (y 2) (pev p 3))) (smul (y 3) (pev p 4))) e = 0 := hz 1
  simp only [h3, h4, add_dot, sub_dot, smul_dot] at k0 k1
  have e1 : y 1 = 0 := by
    have := k0 (pav p 1)
    rw [h01, h11, h21] at this
    exact (mul_eq_zero.1 (by linear_combination this : y 1 * (3 * volSigned p) = 0)).resolve_right hV
  have e2 : y 2 = 0 := by
    have := k0 (pav p 2)
    rw [h02, h12, h22] at this
    exact (mul_eq_zero.1 (by linear_combination this : y 2 * (3 * volSigned p) = 0)).resolve_right hV
  have e3 : y 3 = 0 := by
    have := k0 (pav p 3)
    rw [h03, h13, h23] at this
    exact (mul_eq_zero.1 (by linear_combination this : y 3 * (3 * volSigned p) = 0)).resolve_right hV
  have e0 : y 0 = 0 := by
    have := k1 (pav p 1)
    rw [h01, h11, h21, e2, e3] at this
    exact (mul_eq_zero.1 (by linear_combination this : y 0 * (3 * volSigned p) = 0)).resolve_right hV
  revert i
  exact forall4 e0 e1 e2 e3

/-! ### Incidence matrices -/

/-- The differences along the edges. -/
def gradVec (u : Fin 4 → K) : Fin 6 → K := ![u 1 - u 0, u 2 - u 0, u 3 - u 0, u 2 - u 1, u 3 - u 1, u 3 - u 2]
/-- The sums around the faces. -/
def curlVec (x : Fin 6 → K) : Fin 4 → K := ![x 3 - x 4 + x 5, x 1 - x 2 + x 5, x 0 - x 2 + x 4, x 0 - x 1 + x 3]

theorem apply_grad (u : Fin 4 → K) : apply grad u = gradVec u := by
  funext j
  revert j
  refine forall6 ?_ ?_ ?_ ?_ ?_ ?_ <;> rw [apply, sum4]
  · show -1 * u 0 + 1 * u 1 + 0 * u 2 + 0 * u 3 = u 1 - u 0
    ring
  · show -1 * u 0 + 0 * u 1 + 1 * u 2 + 0 * u 3 = u 2 - u 0
    ring
  · show -1 * u 0 + 0 * u 1 + 0 * u 2 + 1 * u 3 = u 3 - u 0
    ring
  · show 0 * u 0 + -1 * u 1 + 1 * u 2 + 0 * u 3 = u 2 - u 1
    ring
  · show 0 * u 0 + -1 * u 1 + 0 * u 2 + 1 * u 3 = u 3 - u 1
    ring
  · show 0 * u 0 + 0 * u 1 + -1 * u 2 + 1 * u 3 = u 3 - u 2
    ring

theorem apply_curl (x : Fin 6 → K) : apply curl x = curlVec x := by
  funext j
  revert j
  refine forall4 ?_ ?_ ?_ ?_ <;> rw [apply, sum6]
  · show 0 * x 0 + 0 * x 1 + 0 * x 2 + 1 * x 3 + -1 * x 4 + 1 * x 5 = x 3 - x 4 + x 5
    ring
  · show 0 * x 0 + 1 * x 1 + -1 * x 2 + 0 * x 3 + 0 * x 4 + 1 * x 5 = x 1 - x 2 + x 5
    ring
  · show 1 * x 0 + 0 * x 1 + -1 * x 2 + 0 * x 3 + 1 * x 4 + 0 * x 5 = x 0 - x 2 + x 4
    ring
  · show 1 * x 0 + -1 * x 1 + 0 * x 2 + 1 * x 3 + 0 * x 4 + 0 * x 5 = x 0 - x 1 + x 3
    ring

theorem apply_congruence {m n : Nat} (A : Fin m → Fin n → K) (M : Fin m → Fin m → K) (x : Fin n → K) (i : Fin n) :
    apply (congruence A M) x i = ∑ k, A k i * apply M (apply A x) k := by
  simp only [apply, congruence, Finset.sum_mul, Finset.mul_sum]
  rw [Finset.sum_comm]
  refine Finset.sum_congr rfl fun k _ => ?_
  rw [Finset.sum_comm]
  refine Finset.sum_congr rfl fun l _ => Finset.sum_congr rfl fun j _ => ?_
  ring

/-- The form of `A.transpose() * M * A`. -/
theorem form_congruence {m n : Nat} (A : Fin m → Fin n → K) (M : Fin m → Fin m → K) (x y : Fin n → K) :
    ∑ i, y i * apply (congruence A M) x i = ∑ k, apply A y k * apply M (apply A x) k := by
  simp only [apply_congruence]
  generalize apply M (apply A x) = c
  simp only [apply, Finset.sum_mul, Finset.mul_sum]
  rw [Finset.sum_comm]
  refine Finset.sum_congr rfl fun k _ => Finset.sum_congr rfl fun j _ => ?_
  ring

/-! ### Sums of products of primal and dual vectors -/

theorem sum_pev_dav (p : Fin 4 → P3 K) (f g : P3 K) :
    ∑ i, dot f (pev p i) * dot g (dav p i) = volUnsigned p * dot f g := by
  rw [sum6]
  simp only [dav_eq, dot_smul]
  obtain ⟨h01, h11, h21, h02, h12, h22, h03, h13, h23⟩ := pev_pav p
  have hw := congrArg (dot g) (wE_const p f 0)
  have w0 : wE (pav p) (onPrimalEdges p f) 0 = add (sub (smul (dot f (pev p 0)) (pav p 1))
    (smul (dot f (pev p 1)) (pav p 2))) (smul (dot f (pev p 2)) (pav p 3)) := rfl
  rw [w0, dot_add, dot_sub, dot_smul, dot_smul, dot_smul, dot_smul] at hw
  have c0 : pairE (pav p) 0 = add (pav p 0) (pav p 1) := rfl
  have c1 : pairE (pav p) 1 = sub (pav p 0) (pav p 2) := rfl
  have c2 : pairE (pav p) 2 = add (pav p 0) (pav p 3) := rfl
  have c3 : pairE (pav p) 3 = smul (-1) (add (pav p 1) (pav p 2)) := rfl
  have c4 : pairE (pav p) 4 = sub (pav p 3) (pav p 1) := rfl
  have c5 : pairE (pav p) 5 = add (pav p 2) (pav p 3) := rfl
  rw [c0, c1, c2, c3, c4, c5, pev3, pev4, pev5, pav0]
  simp only [dot_sub, dot_add, dot_smul]
  rw [← sgn_mul, dot_comm f g]
  linear_combination (sgn p / 3) * hw

theorem sum_pav_dev (p : Fin 4 → P3 K) (f g : P3 K) :
    ∑ i, dot f (pav p i) * dot g (dev p i) = volUnsigned p * dot f g := by
  rw [sum4]
  simp only [dev_eq, dot_smul]
  have hw := congrArg (dot g) (wF_const p f 0)
  have w0 : wF (pev p) (fun i => dot f (pav p i)) 0 = add (sub (smul (dot f (pav p 1)) (pev p 0))
    (smul (dot f (pav p 2)) (pev p 1))) (smul (dot f (pav p 3)) (pev p 2)) := rfl
  rw [w0, dot_add, dot_sub, dot_smul, dot_smul, dot_smul, dot_smul] at hw
  have c0 : tripF (pev p) 0 = add (add (pev p 0) (pev p 1)) (pev p 2) := rfl
  have c1 : tripF (pev p) 1 = sub (sub (pev p 0) (pev p 3)) (pev p 4) := rfl
  have c2 : tripF (pev p) 2 = smul (-1) (sub (add (pev p 1) (pev p 3)) (pev p 5)) := rfl
  have c3 : tripF (pev p) 3 = add (add (pev p 2) (pev p 4)) (pev p 5) := rfl
  rw [c0, c1, c2, c3, pev3, pev4, pev5, pav0]
  simp only [dot_sub, dot_add, dot_smul]
  rw [← sgn_mul, dot_comm f g]
  linear_combination (sgn p / 3) * hw

/-- Every function on the points of a tetrahedron is affine. -/
theorem exists_affine {p : Fin 4 → P3 K} (h : volSigned p ≠ 0) (u : Fin 4 → K) :
    ∃ (c : K) (g : P3 K), ∀ i, u i = c + dot g (p i) := by
  obtain ⟨h01, h11, h21, h02, h12, h22, h03, h13, h23⟩ := pev_pav p
  rw [pev_0] at h01 h02 h03
  rw [pev_1] at h11 h12 h13
  rw [pev_2] at h21 h22 h23
  set g := smul (1 / (3 * volSigned p)) (add (sub (smul (u 1 - u 0) (pav p 1)) (smul (u 2 - u 0) (pav p 2)))
    (smul (u 3 - u 0) (pav p 3))) with hg
  have hV : (3 : K) * volSigned p ≠ 0 := mul_ne_zero (by norm_num) h
  refine ⟨u 0 - dot g (p 0), g, ?_⟩
  have key : ∀ e, dot g e = 1 / (3 * volSigned p) * ((u 1 - u 0) * dot e (pav p 1) - (u 2 - u 0) * dot e (pav p 2) +
      (u 3 - u 0) * dot e (pav p 3)) := by
    intro e
    rw [hg, smul_dot, add_dot, sub_dot, smul_dot, smul_dot, smul_dot, dot_comm (pav p 1), dot_comm (pav p 2),
      dot_comm (pav p 3)]
  have k1 := key (sub (p 1) (p 0))
  have k2 := key (sub (p 2) (p 0))
  have k3 := key (sub (p 3) (p 0))
  rw [h01, h02, h03] at k1
  rw [h11, h12, h13] at k2
  rw [h21, h22, h23] at k3
  have hi : 1 / (3 * volSigned p) * (3 * volSigned p) = 1 := one_div_mul_cancel hV
  rw [dot_sub] at k1 k2 k3
  refine forall4 ?_ ?_ ?_ ?_
  · ring
  · linear_combination -k1 - (u 1 - u 0) * hi
  · linear_combination -k2 - (u 2 - u 0) * hi
  · linear_combination -k3 - (u 3 - u 0) * hi

/-! ### Normals -/

theorem norm_pos_of {v e : P3 ℝ} (h : dot v e ≠ 0) : 0 < norm v := by
  have : dot v v ≠ 0 := by
    intro h0
    rw [dot_self_eq_zero h0] at h
    simp [dot] at h
  exact Real.sqrt_pos.2 (lt_of_le_of_ne (dot_self_nonneg v) (Ne.symm this))

theorem unit_dot (v e : P3 ℝ) : dot (unit v) e = dot v e / norm v := by
  simp only [unit, dot]; ring

theorem unit_norm {v : P3 ℝ} (h : 0 < norm v) : dot (unit v) (unit v) = 1 := by
  rw [unit_dot, dot_comm, unit_dot]
  have : dot v v = norm v * norm v := (Real.mul_self_sqrt (dot_self_nonneg v)).symm
  rw [this]
  field_simp

theorem cross_dot_left (a b : P3 K) : dot (cross a b) a = 0 := by simp only [dot, cross]; ring
theorem cross_dot_right (a b : P3 K) : dot (cross a b) b = 0 := by simp only [dot, cross]; ring

/-- Signs of the area vectors of the four faces. -/
def outSign : Fin 4 → K := ![1, -1, 1, -1]

theorem outSign_sq : ∀ i, outSign i * outSign i = (1 : K) := by
  refine forall4 ?_ ?_ ?_ ?_
  · exact mul_one 1
  · show (-1 : K) * -1 = 1
    ring
  · exact mul_one 1
  · show (-1 : K) * -1 = 1
    ring

/-- The area vector of a face as seen from the opposite point. -/
theorem pav_out (p : Fin 4 → P3 K) : ∀ i, dot (pav p i) (sub (p (face i 0)) (p i)) = outSign i * (3 * volSigned p) := by
  obtain ⟨h01, h11, h21, h02, h12, h22, h03, h13, h23⟩ := pev_pav p
  refine forall4 ?_ ?_ ?_ ?_
  · show dot (pav p 0) (pev p 0) = 1 * (3 * volSigned p)
    rw [pav0, add_dot, sub_dot, dot_comm _ (pev p 0), dot_comm _ (pev p 0), dot_comm _ (pev p 0), h01, h02, h03]; ring
  · show dot (pav p 1) (sub (p 0) (p 1)) = -1 * (3 * volSigned p)
    rw [pev_0] at h01
    rw [dot_sub]
    rw [dot_comm, dot_sub] at h01
    linear_combination -h01
  · show dot (pav p 2) (sub (p 0) (p 2)) = 1 * (3 * volSigned p)
    rw [pev_1] at h12
    rw [dot_sub]
    rw [dot_comm, dot_sub] at h12
    linear_combination -h12
  · show dot (pav p 3) (sub (p 0) (p 3)) = -1 * (3 * volSigned p)
    rw [pev_2] at h23
    rw [dot_sub]
    rw [dot_comm, dot_sub] at h23
    linear_combination -h23

theorem pav_face (p : Fin 4 → P3 K) : ∀ i, pav p i =
    smul (1 / 2) (cross (sub (p (face i 1)) (p (face i 0))) (sub (p (face i 2)) (p (face i 0)))) :=
  forall4 rfl rfl rfl rfl

theorem faceNumber_eq (ids : Fin 4 → Nat) (a b c : Nat) : faceNumber ids ![a, b, c] =
    if (ids 0 == a && ids 1 == b && ids 2 == c) = true then 3 else if (ids 0 == a && ids 1 == b && ids 3 == c) = true then 2
    else if (ids 0 == a && ids 2 == b && ids 3 == c) = true then 1
    else if (ids 1 == a && ids 2 == b && ids 3 == c) = true then 0 else 42 := rfl

/-- A face is found by its number. -/
theorem faceNumber_face {ids : Fin 4 → Nat} (h : Function.Injective ids) :
    ∀ f : Fin 4, faceNumber ids (fun k => ids (face f k)) = f.val := by
  have hd : ∀ i j : Fin 4, i ≠ j → (ids i == ids j) = false := fun i j hij => beq_false_of_ne fun he => hij (h he)
  have h01 := hd 0 1 (by decide)
  have h12 := hd 1 2 (by decide)
  have h23 := hd 2 3 (by decide)
  have ht : ∀ f, (fun k => ids (face f k)) = ![ids (face f 0), ids (face f 1), ids (face f 2)] := by
    intro f
    funext k
    revert k
    exact forall3 rfl rfl rfl
  refine forall4 ?_ ?_ ?_ ?_ <;> rw [ht, faceNumber_eq]
  · show (if (ids 0 == ids 1 && ids 1 == ids 2 && ids 2 == ids 3) = true then 3
      else if (ids 0 == ids 1 && ids 1 == ids 2 && ids 3 == ids 3) = true then 2
      else if (ids 0 == ids 1 && ids 2 == ids 2 && ids 3 == ids 3) = true then 1
      else if (ids 1 == ids 1 && ids 2 == ids 2 && ids 3 == ids 3) = true then 0 else 42) = 0
    simp only [h01, beq_self_eq_true, Bool.false_and, Bool.true_and, Bool.false_eq_true, if_false, if_true]
  · show (if (ids 0 == ids 0 && ids 1 == ids 2 && ids 2 == ids 3) = true then 3
      else if (ids 0 == ids 0 && ids 1 == ids 2 && ids 3 == ids 3) = true then 2
      else if (ids 0 == ids 0 && ids 2 == ids 2 && ids 3 == ids 3) = true then 1
      else if (ids 1 == ids 0 && ids 2 == ids 2 && ids 3 == ids 3) = true then 0 else 42) = 1
    simp only [h12, beq_self_eq_true, Bool.false_and, Bool.and_false, Bool.true_and, Bool.false_eq_true, if_false, if_true]
  · show (if (ids 0 == ids 0 && ids 1 == ids 1 && ids 2 == ids 3) = true then 3
      else if (ids 0 == ids 0 && ids 1 == ids 1 && ids 3 == ids 3) = true then 2
      else if (ids 0 == ids 0 && ids 2 == ids 1 && ids 3 == ids 3) = true then 1
      else if (ids 1 == ids 0 && ids 2 == ids 1 && ids 3 == ids 3) = true then 0 else 42) = 2
    simp only [h23, beq_self_eq_true, Bool.and_false, Bool.true_and, Bool.false_eq_true, if_false, if_true]
  · show (if (ids 0 == ids 0 && ids 1 == ids 1 && ids 2 == ids 2) = true then 3
      else if (ids 0 == ids 0 && ids 1 == ids 1 && ids 3 == ids 2) = true then 2
      else if (ids 0 == ids 0 && ids 2 == ids 1 && ids 3 == ids 2) = true then 1
      else if (ids 1 == ids 0 && ids 2 == ids 1 && ids 3 == ids 2) = true then 0 else 42) = 3
    simp only [beq_self_eq_true, Bool.true_and, if_true]

/-- The sign of the dual edges of a face. -/
theorem devSurf_face (pt : Nat → P3 K) {ids : Fin 4 → Nat} (h : Function.Injective ids) (f : Fin 4) :
    let s := outSign f * sgn fun i => pt (ids i)
    let q : Fin 3 → P3 K := fun k => pt (ids (face f k))
    devSurf pt ids (fun k => ids (face f k)) = .ok ![smul s (sub (bar3 (q 0) (q 1) (q 2)) (bar2 (q 0) (q 1))),
      smul s (sub (bar3 (q 0) (q 1) (q 2)) (bar2 (q 0) (q 2))),
      smul s (smul (-1) (sub (bar3 (q 0) (q 1) (q 2)) (bar2 (q 1) (q 2))))] := by
  intro s q
  have hs : s = if (!(decide (volSigned (fun i => pt (ids i)) < 0)) && (f.val == 0 || f.val == 2)) ||
      (decide (volSigned (fun i => pt (ids i)) < 0) && (f.val == 1 || f.val == 3)) then 1 else -1 := by
    show outSign f * (if volSigned (fun i => pt (ids i)) < 0 then -1 else 1) = _
    revert f
    by_cases hv : volSigned (fun i => pt (ids i)) < 0
    · simp only [hv, if_true, decide_true]
      refine forall4 ?_ ?_ ?_ ?_
      · show (1 : K) * -1 = -1
        ring
      · show (-1 : K) * -1 = 1
        ring
      · show (1 : K) * -1 = -1
        ring
      · show (-1 : K) * -1 = 1
        ring
    · simp only [hv, if_false, decide_false]
      refine forall4 ?_ ?_ ?_ ?_
      · show (1 : K) * 1 = 1
        ring
      · show (-1 : K) * 1 = -1
        ring
      · show (1 : K) * 1 = 1
        ring
      · show (-1 : K) * 1 = -1
        ring
  have hne : f.val ≠ 42 := by omega
  unfold devSurf
  simp only [faceNumber_face h f]
  rw [if_neg hne, hs]
  rfl

end Verif.Lemmas.Dga
