import Verif.Lemmas.Dga
/-!
C114: incidence matrices, normals and dual edges. C115: duality of primal and dual vectors. C116: material matrices, local
systems and recovered field of the discrete geometric approach.
-/
namespace Verif.Props.Dga
open Verif.Spec Verif.Simplex Verif.Dga Verif.Lemmas.Dga

variable {K : Type} [Field K] [LinearOrder K] [IsStrictOrderedRing K]

/-- The gradients are free of curl, and there are no others; only constants have no gradient. -/
theorem c114_exact :
    (∀ u : Fin 4 → K, ∀ i, apply curl (apply grad u) i = 0) ∧
    (∀ x : Fin 6 → K, (∀ i, apply curl x i = 0) → ∃ u : Fin 4 → K, u 0 = 0 ∧ apply grad u = x) ∧
    ∀ u : Fin 4 → K, (∀ j, apply grad u j = 0) ↔ ∀ i, u i = u 0 := by
  refine ⟨fun u => ?_, fun x hx => ?_, fun u => ?_⟩
  · rw [apply_curl, apply_grad]
    refine forall4 ?_ ?_ ?_ ?_
    · show u 2 - u 1 - (u 3 - u 1) + (u 3 - u 2) = 0
      ring
    · show u 2 - u 0 - (u 3 - u 0) + (u 3 - u 2) = 0
      ring
    · show u 1 - u 0 - (u 3 - u 0) + (u 3 - u 1) = 0
      ring
    · show u 1 - u 0 - (u 2 - u 0) + (u 2 - u 1) = 0
      ring
  · rw [apply_curl] at hx
    have h1 : x 1 - x 2 + x 5 = 0 := hx 1
    have h2 : x 0 - x 2 + x 4 = 0 := hx 2
    have h3 : x 0 - x 1 + x 3 = 0 := hx 3
    refine ⟨![0, x 0, x 1, x 2], rfl, ?_⟩
    rw [apply_grad]
    funext j
    revert j
    refine forall6 (sub_zero _) (sub_zero _) (sub_zero _) ?_ ?_ ?_
    · show x 1 - x 0 = x 3
      linear_combination -h3
    · show x 2 - x 0 = x 4
      linear_combination -h2
    · show x 2 - x 1 = x 5
      linear_combination -h1
  · rw [apply_grad]
    constructor
    · intro h
      have h0 : u 1 - u 0 = 0 := h 0
      have h1 : u 2 - u 0 = 0 := h 1
      have h2 : u 3 - u 0 = 0 := h 2
      exact forall4 rfl (by linear_combination h0) (by linear_combination h1) (by linear_combination h2)
    · intro h
      refine forall6 ?_ ?_ ?_ ?_ ?_ ?_
      · show u 1 - u 0 = 0
        rw [h 1, sub_self]
      · show u 2 - u 0 = 0
        rw [h 2, sub_self]
      · show u 3 - u 0 = 0
        rw [h 3, sub_self]
      · show u 2 - u 1 = 0
        rw [h 1, h 2, sub_self]
      · show u 3 - u 1 = 0
        rw [h 1, h 3, sub_self]
      · show u 3 - u 2 = 0
        rw [h 2, h 3, sub_self]

/-- On the values of an affine function, `grad_matrix` gives the circulations of its gradient. -/
theorem c114_grad (p : Fin 4 → P3 K) (c : K) (g : P3 K) (i : Fin 6) :
    apply grad (fun k => c + dot g (p k)) i = onPrimalEdges p g i := by
  rw [apply_grad]
  revert i
  refine forall6 ?_ ?_ ?_ ?_ ?_ ?_
  · show c + dot g (p 1) - (c + dot g (p 0)) = dot g (pev p 0)
    rw [pev_0, dot_sub]; ring
  · show c + dot g (p 2) - (c + dot g (p 0)) = dot g (pev p 1)
    rw [pev_1, dot_sub]; ring
  · show c + dot g (p 3) - (c + dot g (p 0)) = dot g (pev p 2)
    rw [pev_2, dot_sub]; ring
  · show c + dot g (p 2) - (c + dot g (p 1)) = dot g (pev p 3)
    rw [pev_3, dot_sub]; ring
  · show c + dot g (p 3) - (c + dot g (p 1)) = dot g (pev p 4)
    rw [pev_4, dot_sub]; ring
  · show c + dot g (p 3) - (c + dot g (p 2)) = dot g (pev p 5)
    rw [pev_5, dot_sub]; ring

/-- The circulations of the affine field `x ↦ a + A x`, and its curl. -/
def circulation (p : Fin 4 → P3 K) (a : P3 K) (A : Fin 3 → P3 K) (j : Fin 6) : K :=
  dot (add a (mulVec A (edgeBar p j))) (pev p j)
/-- See `circulation`. -/
def curlOf (A : Fin 3 → P3 K) : P3 K := ⟨(A 2).y - (A 1).z, (A 0).z - (A 2).x, (A 1).x - (A 0).y⟩

/-- Stokes: on the circulations of an affine field, `curl_matrix` gives the fluxes of its curl through the primal faces. -/
theorem c114_stokes (p : Fin 4 → P3 K) (a : P3 K) (A : Fin 3 → P3 K) (i : Fin 4) :
    apply curl (circulation p a A) i = dot (curlOf A) (pav p i) := by
  rw [apply_curl]
  revert i
  refine forall4 ?_ ?_ ?_ ?_
  · show circulation p a A 3 - circulation p a A 4 + circulation p a A 5 = _
    simp only [circulation, pav_0, edgeBar_3, edgeBar_4, edgeBar_5, pev_3, pev_4, pev_5]
    simp only [curlOf, dot, add, mulVec, bar2, sub, smul, cross]
    ring
  · show circulation p a A 1 - circulation p a A 2 + circulation p a A 5 = _
    simp only [circulation, pav_1, edgeBar_1, edgeBar_2, edgeBar_5, pev_1, pev_2, pev_5]
    simp only [curlOf, dot, add, mulVec, bar2, sub, smul, cross]
    ring
  · show circulation p a A 0 - circulation p a A 2 + circulation p a A 4 = _
    simp only [circulation, pav_2, edgeBar_0, edgeBar_2, edgeBar_4, pev_0, pev_2, pev_4]
    simp only [curlOf, dot, add, mulVec, bar2, sub, smul, cross]
    ring
  · show circulation p a A 0 - circulation p a A 1 + circulation p a A 3 = _
    simp only [circulation, pav_3, edgeBar_0, edgeBar_1, edgeBar_3, pev_0, pev_1, pev_3]
    simp only [curlOf, dot, add, mulVec, bar2, sub, smul, cross]
    ring

/-- The normals of a tetrahedron are orthogonal to the faces, of unit length and point away from the opposite vertex; weighted
with the areas they sum up to zero. -/
theorem c114_normals {p : Fin 4 → P3 ℝ} (h : volSigned p ≠ 0) :
    (∀ i, dot (normals p i) (sub (p (face i 1)) (p (face i 0))) = 0 ∧
      dot (normals p i) (sub (p (face i 2)) (p (face i 0))) = 0 ∧
      dot (normals p i) (normals p i) = 1 ∧ 0 < dot (normals p i) (sub (p (face i 0)) (p i))) ∧
    ∀ e, ∑ i, norm (pav p i) * dot e (normals p i) = 0 := by
  have hn : ∀ i, normals p i = smul (outSign i * sgn p) (unit (pav p i)) := by
    have h1 : ∀ v : P3 ℝ, v = smul 1 v := fun v => by simp [smul]
    rcases lt_or_gt_of_ne h with hl | hl
    · simp only [normals, if_neg (not_lt.2 hl.le), sgn, if_pos hl]
      refine forall4 ?_ ?_ ?_ ?_
      · show smul (-1) (unit (pav p 0)) = smul (1 * -1) _
        norm_num
      · show unit (pav p 1) = smul (-1 * -1) _
        rw [show (-1 : ℝ) * -1 = 1 by norm_num, ← h1]
      · show smul (-1) (unit (pav p 2)) = smul (1 * -1) _
        norm_num
      · show unit (pav p 3) = smul (-1 * -1) _
        rw [show (-1 : ℝ) * -1 = 1 by norm_num, ← h1]
    · simp only [normals, if_pos hl, sgn, if_neg (not_lt.2 hl.le)]
      refine forall4 ?_ ?_ ?_ ?_
      · show unit (pav p 0) = smul (1 * 1) _
        rw [show (1 : ℝ) * 1 = 1 by norm_num, ← h1]
      · show smul (-1) (unit (pav p 1)) = smul (-1 * 1) _
        norm_num
      · show unit (pav p 2) = smul (1 * 1) _
        rw [show (1 : ℝ) * 1 = 1 by norm_num, ← h1]
      · show smul (-1) (unit (pav p 3)) = smul (-1 * 1) _
        norm_num
  have hout := pav_out p
  have horth : ∀ i, dot (pav p i) (sub (p (face i 1)) (p (face i 0))) = 0 ∧
      dot (pav p i) (sub (p (face i 2)) (p (face i 0))) = 0 := by
    refine forall4 ?_ ?_ ?_ ?_
    · show dot (pav p 0) (pev p 3) = 0 ∧ dot (pav p 0) (pev p 4) = 0
      rw [pav_0, pev_3, pev_4]
      constructor <;> simp only [dot, smul, cross, sub] <;> ring
    · show dot (pav p 1) (pev p 1) = 0 ∧ dot (pav p 1) (pev p 2) = 0
      rw [pav_1, pev_1, pev_2]
      constructor <;> simp only [dot, smul, cross, sub] <;> ring
    · show dot (pav p 2) (pev p 0) = 0 ∧ dot (pav p 2) (pev p 2) = 0
      rw [pav_2, pev_0, pev_2]
      constructor <;> simp only [dot, smul, cross, sub] <;> ring
    · show dot (pav p 3) (pev p 0) = 0 ∧ dot (pav p 3) (pev p 1) = 0
      rw [pav_3, pev_0, pev_1]
      constructor <;> simp only [dot, smul, cross, sub] <;> ring
  have hs := outSign_sq (K := ℝ)
  have hpos : ∀ i, 0 < norm (pav p i) := fun i => norm_pos_of (e := sub (p (face i 0)) (p i)) (by
    rw [hout i]
    refine mul_ne_zero (fun h0 => ?_) (mul_ne_zero (by norm_num) h)
    have := hs i
    rw [h0] at this
    norm_num at this)
  refine ⟨fun i => ?_, fun e => ?_⟩
  · rw [hn i]
    simp only [smul_dot, dot_smul, unit_dot, unit_norm (hpos i), (horth i).1, (horth i).2, hout i]
    refine ⟨by ring, by ring, ?_, ?_⟩
    · linear_combination sgn p * sgn p * hs i + sgn_sq p
    · have : outSign i * sgn p * (outSign i * (3 * volSigned p) / norm (pav p i)) = 3 * volUnsigned p / norm (pav p i) := by
        rw [← sgn_mul]
        linear_combination (3 * sgn p * volSigned p / norm (pav p i)) * hs i
      rw [this]
      exact div_pos (mul_pos (by norm_num) (vol_pos h)) (hpos i)
  · have : ∀ i, norm (pav p i) * dot e (normals p i) = outSign i * sgn p * dot e (pav p i) := by
      intro i
      have h0 := (hpos i).ne'
      rw [hn i, dot_smul, dot_comm e, unit_dot, dot_comm e]
      field_simp
    simp only [this]
    rw [sum4, pav0]
    simp only [dot_add, dot_sub]
    show 1 * sgn p * _ + -1 * sgn p * _ + 1 * sgn p * _ + -1 * sgn p * _ = _
    ring

/-- A tetrahedron with volume: the reference one. -/
example : volSigned (![⟨0, 0, 0⟩, ⟨1, 0, 0⟩, ⟨0, 1, 0⟩, ⟨0, 0, 1⟩] : Fin 4 → P3 ℝ) ≠ 0 := by
  show dot (sub ⟨1, 0, 0⟩ ⟨0, 0, 0⟩) (cross (sub ⟨0, 1, 0⟩ ⟨0, 0, 0⟩) (sub ⟨0, 0, 1⟩ ⟨0, 0, 0⟩)) / (6 : ℝ) ≠ 0
  norm_num [dot, sub, cross]

/-- The point opposite to an edge of a triangle. -/
def opposite : Fin 3 → Fin 3 := ![2, 1, 0]

/-- The normals to the edges of a triangle are of unit length, orthogonal to their edge and in the plane of the triangle;
the one of the first edge points outward. -/
theorem c114_edge_normals_partial {t : Fin 3 → P3 ℝ} (h : cross (sub (t 1) (t 0)) (sub (t 2) (t 0)) ≠ ⟨0, 0, 0⟩) :
    (∀ i, dot (normalsSurf t i) (normalsSurf t i) = 1 ∧ dot (normalsSurf t i) (pevSurf t i) = 0 ∧
      dot (normalsSurf t i) (cross (sub (t 1) (t 0)) (sub (t 2) (t 0))) = 0) ∧
    dot (normalsSurf t 0) (sub (t (opposite 0)) (t (surfEdge 0).1)) < 0 := by
  set n := cross (sub (t 1) (t 0)) (sub (t 2) (t 1)) with hn
  have hn' : cross (sub (t 1) (t 0)) (sub (t 2) (t 0)) = n := by
    rw [hn]
    ext <;> simp only [cross, sub] <;> ring
  rw [hn'] at h ⊢
  have hq : 0 < dot n n := lt_of_le_of_ne (dot_self_nonneg n) fun h0 => h (dot_self_eq_zero h0.symm)
  have k0 : dot (cross (sub (t 1) (t 0)) n) (sub (t 2) (t 0)) = -dot n n := by
    rw [hn]; simp only [dot, cross, sub]; ring
  have k1 : dot (cross (sub (t 2) (t 0)) n) (sub (t 1) (t 0)) = dot n n := by
    rw [hn]; simp only [dot, cross, sub]; ring
  have k2 : dot (smul (-1) (cross (sub (t 2) (t 1)) n)) (sub (t 0) (t 1)) = dot n n := by
    rw [hn]; simp only [dot, cross, sub, smul]; ring
  have p0 := norm_pos_of (by rw [k0]; exact (neg_lt_zero.2 hq).ne)
  have p1 := norm_pos_of (by rw [k1]; exact hq.ne')
  have p2 := norm_pos_of (by rw [k2]; exact hq.ne')
  refine ⟨forall3 ?_ ?_ ?_, ?_⟩
  · show dot (unit (cross (sub (t 1) (t 0)) n)) (unit (cross (sub (t 1) (t 0)) n)) = 1 ∧
      dot (unit (cross (sub (t 1) (t 0)) n)) (sub (t 1) (t 0)) = 0 ∧ dot (unit (cross (sub (t 1) (t 0)) n)) n = 0
    rw [unit_norm p0, unit_dot, unit_dot, cross_dot_left, cross_dot_right]
    simp
  · show dot (unit (cross (sub (t 2) (t 0)) n)) (unit (cross (sub (t 2) (t 0)) n)) = 1 ∧
      dot (unit (cross (sub (t 2) (t 0)) n)) (sub (t 2) (t 0)) = 0 ∧ dot (unit (cross (sub (t 2) (t 0)) n)) n = 0
    rw [unit_norm p1, unit_dot, unit_dot, cross_dot_left, cross_dot_right]
    simp
  · show dot (unit (smul (-1) (cross (sub (t 2) (t 1)) n))) (unit (smul (-1) (cross (sub (t 2) (t 1)) n))) = 1 ∧
      dot (unit (smul (-1) (cross (sub (t 2) (t 1)) n))) (sub (t 2) (t 1)) = 0 ∧
      dot (unit (smul (-1) (cross (sub (t 2) (t 1)) n))) n = 0
    rw [unit_norm p2, unit_dot, unit_dot, smul_dot, smul_dot, cross_dot_left, cross_dot_right]
    simp
  · show dot (unit (cross (sub (t 1) (t 0)) n)) (sub (t 2) (t 0)) < 0
    rw [unit_dot, k0]
    exact div_neg_of_neg_of_pos (neg_lt_zero.2 hq) p0

/-- The normals to the second and the third edge point inward, on every triangle. -/
theorem c114_edge_normals_violated {t : Fin 3 → P3 ℝ} (h : cross (sub (t 1) (t 0)) (sub (t 2) (t 0)) ≠ ⟨0, 0, 0⟩) :
    0 < dot (normalsSurf t 1) (sub (t (opposite 1)) (t (surfEdge 1).1)) ∧
    0 < dot (normalsSurf t 2) (sub (t (opposite 2)) (t (surfEdge 2).1)) := by
  set n := cross (sub (t 1) (t 0)) (sub (t 2) (t 1)) with hn
  have hn' : cross (sub (t 1) (t 0)) (sub (t 2) (t 0)) = n := by
    rw [hn]
    ext <;> simp only [cross, sub] <;> ring
  rw [hn'] at h
  have hq : 0 < dot n n := lt_of_le_of_ne (dot_self_nonneg n) fun h0 => h (dot_self_eq_zero h0.symm)
  have k1 : dot (cross (sub (t 2) (t 0)) n) (sub (t 1) (t 0)) = dot n n := by
    rw [hn]; simp only [dot, cross, sub]; ring
  have k2 : dot (smul (-1) (cross (sub (t 2) (t 1)) n)) (sub (t 0) (t 1)) = dot n n := by
    rw [hn]; simp only [dot, cross, sub, smul]; ring
  have p1 := norm_pos_of (by rw [k1]; exact hq.ne')
  have p2 := norm_pos_of (by rw [k2]; exact hq.ne')
  constructor
  · show 0 < dot (unit (cross (sub (t 2) (t 0)) n)) (sub (t 1) (t 0))
    rw [unit_dot, k1]
    exact div_pos hq p1
  · show 0 < dot (unit (smul (-1) (cross (sub (t 2) (t 1)) n))) (sub (t 0) (t 1))
    rw [unit_dot, k2]
    exact div_pos hq p2

/-- A triangle. -/
example : cross (sub (⟨1, 0, 0⟩ : P3 ℝ) ⟨0, 0, 0⟩) (sub ⟨0, 1, 0⟩ ⟨0, 0, 0⟩) ≠ ⟨0, 0, 0⟩ := by
  simp [cross, sub]

/-- `dual_edge_vectors` of a face of a tetrahedron: `cross(pev, dev)` points outward for the first edge of the face; of any
other triangle it throws. -/
theorem c114_dual_edges_partial (pt : Nat → P3 K) {ids : Fin 4 → Nat} (hi : Function.Injective ids)
    (h : volSigned (fun i => pt (ids i)) ≠ 0) :
    (∀ f, ∃ d, devSurf pt ids (fun k => ids (face f k)) = .ok d ∧
      dot (cross (pevSurf (fun k => pt (ids (face f k))) 0) (d 0)) (sub (pt (ids f)) (pt (ids (face f 0)))) < 0) ∧
    ∀ t, (∀ f, t ≠ fun k => ids (face f k)) → (devSurf pt ids t).Throws := by
  refine ⟨fun f => ⟨_, devSurf_face pt hi f, ?_⟩, fun t ht => ?_⟩
  · have hp := pav_out (fun i => pt (ids i)) f
    rw [pav_face] at hp
    have hv := sgn_mul fun i => pt (ids i)
    have hs := outSign_sq (K := K) f
    have hpos := vol_pos h
    refine lt_of_eq_of_lt (b := -2 * volUnsigned fun i => pt (ids i)) ?_ (by linarith)
    rw [← hv]
    show dot (cross (sub (pt (ids (face f 1))) (pt (ids (face f 0)))) (smul (outSign f * sgn fun i => pt (ids i))
      (sub (bar3 (pt (ids (face f 0))) (pt (ids (face f 1))) (pt (ids (face f 2))))
        (bar2 (pt (ids (face f 0))) (pt (ids (face f 1))))))) (sub (pt (ids f)) (pt (ids (face f 0)))) = _
    generalize volSigned (fun i => pt (ids i)) = V at *
    generalize sgn (fun i => pt (ids i)) = s at *
    generalize (outSign f : K) = o at *
    simp only [dot, cross, sub, smul, bar2, bar3, add] at hp ⊢
    linear_combination (-2 / 3 * o * s) * hp - 2 * s * V * hs
  · have hn : ∀ f : Fin 4, (ids (face f 0) == t 0 && ids (face f 1) == t 1 && ids (face f 2) == t 2) = false := by
      intro f
      by_contra hc
      simp only [Bool.not_eq_false, Bool.and_eq_true, beq_iff_eq] at hc
      refine ht f (funext fun k => ?_)
      revert k
      exact forall3 hc.1.1.symm hc.1.2.symm hc.2.symm
    unfold devSurf
    have hf : faceNumber ids t = 42 := by
      unfold faceNumber
      simp only [hn 0, hn 1, hn 2, hn 3]
      simp
    simp only [hf, if_true]
    trivial

/-- For the second and the third edge it points inward, contrary to the comment, on every face of every tetrahedron. -/
theorem c114_dual_edges_violated (pt : Nat → P3 K) {ids : Fin 4 → Nat} (hi : Function.Injective ids)
    (h : volSigned (fun i => pt (ids i)) ≠ 0) (f : Fin 4) :
    ∃ d, devSurf pt ids (fun k => ids (face f k)) = .ok d ∧
      0 < dot (cross (pevSurf (fun k => pt (ids (face f k))) 1) (d 1)) (sub (pt (ids f)) (pt (ids (face f 0)))) ∧
      0 < dot (cross (pevSurf (fun k => pt (ids (face f k))) 2) (d 2)) (sub (pt (ids f)) (pt (ids (face f 0)))) := by
  refine ⟨_, devSurf_face pt hi f, ?_⟩
  have hp := pav_out (fun i => pt (ids i)) f
  rw [pav_face] at hp
  have hv := sgn_mul fun i => pt (ids i)
  have hs := outSign_sq (K := K) f
  have hpos := vol_pos h
  constructor
  · refine lt_of_lt_of_eq (b := 2 * volUnsigned fun i => pt (ids i)) (by linarith) (Eq.symm ?_)
    rw [← hv]
    show dot (cross (sub (pt (ids (face f 2))) (pt (ids (face f 0)))) (smul (outSign f * sgn fun i => pt (ids i))
      (sub (bar3 (pt (ids (face f 0))) (pt (ids (face f 1))) (pt (ids (face f 2))))
        (bar2 (pt (ids (face f 0))) (pt (ids (face f 2))))))) (sub (pt (ids f)) (pt (ids (face f 0)))) = _
    generalize volSigned (fun i => pt (ids i)) = V at *
    generalize sgn (fun i => pt (ids i)) = s at *
    generalize (outSign f : K) = o at *
    simp only [dot, cross, sub, smul, bar2, bar3, add] at hp ⊢
    linear_combination (2 / 3 * o * s) * hp + 2 * s * V * hs
  · refine lt_of_lt_of_eq (b := 2 * volUnsigned fun i => pt (ids i)) (by linarith) (Eq.symm ?_)
    rw [← hv]
    show dot (cross (sub (pt (ids (face f 2))) (pt (ids (face f 1)))) (smul (outSign f * sgn fun i => pt (ids i))
      (smul (-1) (sub (bar3 (pt (ids (face f 0))) (pt (ids (face f 1))) (pt (ids (face f 2))))
        (bar2 (pt (ids (face f 1))) (pt (ids (face f 2)))))))) (sub (pt (ids f)) (pt (ids (face f 0)))) = _
    generalize volSigned (fun i => pt (ids i)) = V at *
    generalize sgn (fun i => pt (ids i)) = s at *
    generalize (outSign f : K) = o at *
    simp only [dot, cross, sub, smul, bar2, bar3, add] at hp ⊢
    linear_combination (2 / 3 * o * s) * hp + 2 * s * V * hs

/-- Primal and dual vectors pair to the volume: the dual area vectors point along their edges, the dual edges along the area
vectors up to the orientation of the tetrahedron, and the sums of their products are the volume times the identity. -/
theorem c115_duality (p : Fin 4 → P3 K) :
    (∀ i, dot (pev p i) (dav p i) = volUnsigned p / 2) ∧ (∀ i, dot (pav p i) (dev p i) = 3 * volUnsigned p / 4) ∧
    (∀ f g, ∑ i, dot f (pev p i) * dot g (dav p i) = volUnsigned p * dot f g) ∧
    ∀ f g, ∑ i, dot f (pav p i) * dot g (dev p i) = volUnsigned p * dot f g := by
  obtain ⟨h01, h11, h21, h02, h12, h22, h03, h13, h23⟩ := pev_pav p
  refine ⟨?_, ?_, sum_pev_dav p, sum_pav_dev p⟩
  · simp only [dav_eq, dot_smul, ← sgn_mul]
    refine forall6 ?_ ?_ ?_ ?_ ?_ ?_
    · show sgn p / 12 * dot (pev p 0) (add (pav p 0) (pav p 1)) = _
      rw [pav0]; simp only [dot_add, dot_sub, h01, h02, h03]; ring
    · show sgn p / 12 * dot (pev p 1) (sub (pav p 0) (pav p 2)) = _
      rw [pav0]; simp only [dot_add, dot_sub, h11, h12, h13]; ring
    · show sgn p / 12 * dot (pev p 2) (add (pav p 0) (pav p 3)) = _
      rw [pav0]; simp only [dot_add, dot_sub, h21, h22, h23]; ring
    · show sgn p / 12 * dot (pev p 3) (smul (-1) (add (pav p 1) (pav p 2))) = _
      rw [pev3]; simp only [dot_add, dot_smul, sub_dot, h01, h02, h11, h12]; ring
    · show sgn p / 12 * dot (pev p 4) (sub (pav p 3) (pav p 1)) = _
      rw [pev4]; simp only [dot_sub, sub_dot, h01, h03, h21, h23]; ring
    · show sgn p / 12 * dot (pev p 5) (add (pav p 2) (pav p 3)) = _
      rw [pev5]; simp only [dot_add, sub_dot, h12, h13, h22, h23]; ring
  · simp only [dev_eq, dot_smul, ← sgn_mul]
    refine forall4 ?_ ?_ ?_ ?_
    · show sgn p / 12 * dot (pav p 0) (add (add (pev p 0) (pev p 1)) (pev p 2)) = _
      rw [dot_comm, pav0]
      simp only [dot_add, dot_sub, add_dot, h01, h02, h03, h11, h12, h13, h21, h22, h23]; ring
    · show sgn p / 12 * dot (pav p 1) (sub (sub (pev p 0) (pev p 3)) (pev p 4)) = _
      rw [dot_comm, pev3, pev4]
      simp only [sub_dot, h01, h11, h21]; ring
    · show sgn p / 12 * dot (pav p 2) (smul (-1) (sub (add (pev p 1) (pev p 3)) (pev p 5))) = _
      rw [dot_comm, pev3, pev5]
      simp only [smul_dot, sub_dot, add_dot, h02, h12, h22]; ring
    · show sgn p / 12 * dot (pav p 3) (add (add (pev p 2) (pev p 4)) (pev p 5)) = _
      rw [dot_comm, pev4, pev5]
      simp only [sub_dot, add_dot, h03, h13, h23]; ring

/-- In particular `dot(PEV, DAV) >= 0`, as the comment requires. -/
theorem c115_orientation (p : Fin 4 → P3 K) (i : Fin 6) : 0 ≤ dot (pev p i) (dav p i) := by
  rw [(c115_duality p).1 i]
  exact div_nonneg (by rw [vol_eq]; exact abs_nonneg _) (by norm_num)

/-- The part of the dual cell of a point inside a tetrahedron is closed: its dual faces, with thirds of the three faces at
the point, have no net area. In terms of the opposite face: the net area of the dual faces is a third of its outward area. -/
theorem c115_closed (p : Fin 4 → P3 K) (i : Fin 4) (e : P3 K) :
    ∑ j, grad j i * dot e (dav p j) = -(outSign i * sgn p * dot e (pav p i)) / 3 := by
  simp only [dav_eq, dot_smul]
  rw [sum6]
  have c0 : pairE (pav p) 0 = add (pav p 0) (pav p 1) := rfl
  have c1 : pairE (pav p) 1 = sub (pav p 0) (pav p 2) := rfl
  have c2 : pairE (pav p) 2 = add (pav p 0) (pav p 3) := rfl
  have c3 : pairE (pav p) 3 = smul (-1) (add (pav p 1) (pav p 2)) := rfl
  have c4 : pairE (pav p) 4 = sub (pav p 3) (pav p 1) := rfl
  have c5 : pairE (pav p) 5 = add (pav p 2) (pav p 3) := rfl
  rw [c0, c1, c2, c3, c4, c5]
  have ha : dot e (pav p 0) = dot e (pav p 1) - dot e (pav p 2) + dot e (pav p 3) := by rw [pav0, dot_add, dot_sub]
  simp only [dot_add, dot_sub, dot_smul]
  revert i
  refine forall4 ?_ ?_ ?_ ?_
  · show -1 * _ + -1 * _ + -1 * _ + 0 * _ + 0 * _ + 0 * _ = -(1 * sgn p * _) / 3
    linear_combination (1 / 12 * sgn p) * ha
  · show 1 * _ + 0 * _ + 0 * _ + -1 * _ + -1 * _ + 0 * _ = -(-1 * sgn p * _) / 3
    linear_combination (1 / 12 * sgn p) * ha
  · show 0 * _ + 1 * _ + 0 * _ + 1 * _ + 0 * _ + -1 * _ = -(1 * sgn p * _) / 3
    linear_combination (1 / 12 * sgn p) * ha
  · show 0 * _ + 0 * _ + 1 * _ + 0 * _ + 1 * _ + 1 * _ = -(-1 * sgn p * _) / 3
    linear_combination (1 / 12 * sgn p) * ha

/-- The tensor is positive definite. -/
def PosT (T : Fin 3 → P3 K) : Prop := ∀ v, v ≠ ⟨0, 0, 0⟩ → 0 < dot v (mulVec T v)

/-- With a scalar, or a symmetric tensor, the edge matrix maps the circulations of a constant field to the fluxes of its image
through the dual faces, and the face matrix fluxes to circulations along the dual edges. -/
theorem c116_consistent_partial {p : Fin 4 → P3 K} (h : volSigned p ≠ 0) (f : P3 K) :
    (∀ s i, apply (edgeMatrix p s) (onPrimalEdges p f) i = s * onDualFaces p f i) ∧
    (∀ s i, apply (faceMatrix p s) (fun i => dot f (pav p i)) i = s * onDualEdges p f i) ∧
    (∀ T, SymT T → ∀ i, apply (edgeMatrixT p T) (onPrimalEdges p f) i = onDualFaces p (mulVec T f) i) ∧
    ∀ T, SymT T → ∀ i, apply (faceMatrixT p T) (fun i => dot f (pav p i)) i = onDualEdges p (mulVec T f) i := by
  refine ⟨fun s i => ?_, fun s i => ?_, fun T hT => edge_const h hT f, fun T hT => face_const h hT f⟩
  · rw [edgeMatrix_eq, edge_const h (symT_scalarT s), mulVec_scalarT, onDualFaces, onDualFaces, smul_dot]
  · rw [faceMatrix_eq, face_const h (symT_scalarT s), mulVec_scalarT, onDualEdges, onDualEdges, smul_dot]

/-- A tensor without symmetry gives matrices that are not consistent (they mirror one half of the entries). -/
theorem c116_tensor_violated : ∃ (p : Fin 4 → P3 ℚ) (T : Fin 3 → P3 ℚ) (f : P3 ℚ), volSigned p ≠ 0 ∧
    (∀ v, v ≠ ⟨0, 0, 0⟩ → 0 < dot v (mulVec T v)) ∧
    (∃ i, apply (edgeMatrixT p T) (onPrimalEdges p f) i ≠ onDualFaces p (mulVec T f) i) ∧
    ∃ i, apply (faceMatrixT p T) (fun i => dot f (pav p i)) i ≠ onDualEdges p (mulVec T f) i := by
  refine ⟨![⟨0, 0, 0⟩, ⟨1, 0, 0⟩, ⟨0, 1, 0⟩, ⟨0, 0, 1⟩], ![⟨1, 1, 0⟩, ⟨0, 1, 0⟩, ⟨0, 0, 1⟩], ⟨1, 2, 3⟩, ?_, ?_,
    ⟨1, ?_⟩, ⟨0, ?_⟩⟩
  · decide +kernel
  · intro v hv
    have h0 : 0 ≤ dot v v := dot_self_nonneg v
    have h1 : dot v v ≠ 0 := fun h => hv (dot_self_eq_zero h)
    have h2 : 0 < dot v v := lt_of_le_of_ne h0 (Ne.symm h1)
    show 0 < dot v ⟨dot ⟨1, 1, 0⟩ v, dot ⟨0, 1, 0⟩ v, dot ⟨0, 0, 1⟩ v⟩
    simp only [dot] at h2 ⊢
    nlinarith [mul_self_nonneg (v.x + v.y)]
  · decide +kernel
  · decide +kernel

/-- The matrices are symmetric and positive definite, for positive scalars and symmetric positive definite tensors. -/
theorem c116_spd {p : Fin 4 → P3 K} (h : volSigned p ≠ 0) {T : Fin 3 → P3 K} (hT : SymT T) (hp : PosT T) :
    (∀ x y : Fin 6 → K, ∑ i, y i * apply (edgeMatrixT p T) x i = ∑ i, x i * apply (edgeMatrixT p T) y i) ∧
    (∀ x y : Fin 4 → K, ∑ i, y i * apply (faceMatrixT p T) x i = ∑ i, x i * apply (faceMatrixT p T) y i) ∧
    (∀ x : Fin 6 → K, x ≠ 0 → 0 < ∑ i, x i * apply (edgeMatrixT p T) x i) ∧
    ∀ x : Fin 4 → K, x ≠ 0 → 0 < ∑ i, x i * apply (faceMatrixT p T) x i := by
  have hv : 0 < 1 / (36 * volUnsigned p) := one_div_pos.2 (mul_pos (by norm_num) (vol_pos h))
  have h0 : ∀ v, 0 ≤ dot v (mulVec T v) := by
    intro v
    by_cases hz : v = ⟨0, 0, 0⟩
    · rw [hz]; simp [dot]
    · exact (hp v hz).le
  refine ⟨fun x y => ?_, fun x y => ?_, fun x hx => ?_, fun x hx => ?_⟩
  · rw [edge_form p hT, edge_form p hT]
    exact congrArg _ (Finset.sum_congr rfl fun v _ => hT _ _)
  · rw [face_form p hT, face_form p hT]
    exact congrArg _ (Finset.sum_congr rfl fun v _ => hT _ _)
  · rw [edge_form p hT]
    refine mul_pos hv (lt_of_le_of_ne (Finset.sum_nonneg fun v _ => h0 _) fun hs => hx (funext fun i => ?_))
    have hs' := (Finset.sum_eq_zero_iff_of_nonneg fun v _ => h0 _).1 hs.symm
    refine wE_injective h (fun v => ?_) i
    by_contra hc
    exact (hp _ hc).ne' (hs' v (Finset.mem_univ v))
  · rw [face_form p hT]
    refine mul_pos hv (lt_of_le_of_ne (Finset.sum_nonneg fun v _ => h0 _) fun hs => hx (funext fun i => ?_))
    have hs' := (Finset.sum_eq_zero_iff_of_nonneg fun v _ => h0 _).1 hs.symm
    refine wF_injective h (fun v => ?_) i
    by_contra hc
    exact (hp _ hc).ne' (hs' v (Finset.mem_univ v))

/-- The scalar functions are the tensor ones with a multiple of the identity, which is symmetric, and positive definite for a
positive scalar. -/
theorem c116_scalar (p : Fin 4 → P3 K) (s : K) : edgeMatrix p s = edgeMatrixT p ![⟨s, 0, 0⟩, ⟨0, s, 0⟩, ⟨0, 0, s⟩] ∧
    faceMatrix p s = faceMatrixT p ![⟨s, 0, 0⟩, ⟨0, s, 0⟩, ⟨0, 0, s⟩] ∧
    SymT (![⟨s, 0, 0⟩, ⟨0, s, 0⟩, ⟨0, 0, s⟩] : Fin 3 → P3 K) ∧
    (0 < s → PosT (![⟨s, 0, 0⟩, ⟨0, s, 0⟩, ⟨0, 0, s⟩] : Fin 3 → P3 K)) := by
  refine ⟨edgeMatrix_eq p s, faceMatrix_eq p s, symT_scalarT s, fun hs v hv => ?_⟩
  have := mulVec_scalarT s v
  rw [scalarT] at this
  rw [this, dot_smul]
  exact mul_pos hs (lt_of_le_of_ne (dot_self_nonneg v) fun h0 => hv (dot_self_eq_zero h0.symm))

/-- The local matrix of `diffusion_dga` is the stiffness matrix of first-order finite elements: every function on the points
is affine, and the form is the volume times the product of the gradients. -/
theorem c116_diffusion {p : Fin 4 → P3 K} (h : volSigned p ≠ 0) :
    (∀ u : Fin 4 → K, ∃ c g, ∀ i, u i = c + dot g (p i)) ∧
    ∀ (c c' : K) (g g' : P3 K), ∑ i, (c + dot g (p i)) * apply (laplace p) (fun k => c' + dot g' (p k)) i =
      volUnsigned p * dot g g' := by
  refine ⟨exists_affine h, fun c c' g g' => ?_⟩
  unfold laplace
  rw [form_congruence grad (edgeMatrix p 1) (fun k => c' + dot g' (p k)) (fun k => c + dot g (p k)),
    ← sum_pev_dav p g g']
  refine Finset.sum_congr rfl fun i _ => ?_
  rw [c114_grad, show apply grad (fun k => c' + dot g' (p k)) = onPrimalEdges p g' from funext fun j => c114_grad p c' g' j,
    (c116_consistent_partial h g').1 1 i, one_mul]
  rfl

/-- The local matrix of `maxwell_dga`: its first part, on the circulations of affine fields, is the volume times the product
of the curls; on constant fields only the mass remains. -/
theorem c116_maxwell {p : Fin 4 → P3 K} (h : volSigned p ≠ 0) (eps nu omega : K) :
    (∀ a a' A A', ∑ i, circulation p a A i * apply (congruence curl (faceMatrix p nu)) (circulation p a' A') i =
      nu * (volUnsigned p * dot (curlOf A) (curlOf A'))) ∧
    ∀ f f', ∑ i, onPrimalEdges p f i * apply (maxwell p eps nu omega) (onPrimalEdges p f') i =
      -(omega * omega * (eps * (volUnsigned p * dot f f'))) := by
  have hc : ∀ f, apply curl (onPrimalEdges p f) = fun _ => 0 := by
    intro f
    have h0 : onPrimalEdges p f = apply grad fun k => 0 + dot f (p k) := (funext fun i => c114_grad p 0 f i).symm
    rw [h0]
    funext i
    exact c114_exact.1 _ i
  constructor
  · intro a a' A A'
    rw [form_congruence, ← sum_pav_dev p (curlOf A) (curlOf A'), Finset.mul_sum]
    refine Finset.sum_congr rfl fun i _ => ?_
    rw [c114_stokes, show apply curl (circulation p a' A') = fun i => dot (curlOf A') (pav p i) from
      funext fun j => c114_stokes p a' A' j, (c116_consistent_partial h _).2.1]
    rw [onDualEdges]
    ring
  · intro f f'
    have hm : ∀ i, apply (maxwell p eps nu omega) (onPrimalEdges p f') i =
        apply (congruence curl (faceMatrix p nu)) (onPrimalEdges p f') i -
          omega * omega * apply (edgeMatrix p eps) (onPrimalEdges p f') i := by
      intro i
      unfold apply maxwell
      rw [Finset.mul_sum, ← Finset.sum_sub_distrib]
      exact Finset.sum_congr rfl fun j _ => by ring
    have hz : ∀ i, apply (congruence curl (faceMatrix p nu)) (onPrimalEdges p f') i = 0 := by
      intro i
      rw [apply_congruence, hc]
      refine Finset.sum_eq_zero fun k _ => ?_
      rw [apply]
      simp
    rw [← sum_pev_dav p f f', Finset.mul_sum, Finset.mul_sum, ← Finset.sum_neg_distrib]
    refine Finset.sum_congr rfl fun i _ => ?_
    rw [hm, hz, (c116_consistent_partial h f').1, onDualFaces, onPrimalEdges]
    ring

/-- The field recovered from the circulations of a constant field is that field. -/
theorem c116_field {p : Fin 4 → P3 K} (h : volSigned p ≠ 0) (f : P3 K) : field p (onPrimalEdges p f) = f := by
  have hw := wE_const p f
  have h0 : field p (onPrimalEdges p f) = add (add (add (smul (1 / (12 * volSigned p)) (wE (pav p) (onPrimalEdges p f) 0))
    (smul (1 / (12 * volSigned p)) (wE (pav p) (onPrimalEdges p f) 1)))
    (smul (1 / (12 * volSigned p)) (wE (pav p) (onPrimalEdges p f) 2)))
    (smul (1 / (12 * volSigned p)) (wE (pav p) (onPrimalEdges p f) 3)) := rfl
  rw [h0, hw, hw, hw, hw]
  ext <;> simp only [add, smul] <;> field_simp <;> ring

/-- A tensor that is no scalar. -/
example : SymT (![⟨2, 1, 0⟩, ⟨1, 2, 0⟩, ⟨0, 0, 1⟩] : Fin 3 → P3 ℚ) ∧
    PosT (![⟨2, 1, 0⟩, ⟨1, 2, 0⟩, ⟨0, 0, 1⟩] : Fin 3 → P3 ℚ) := by
  constructor
  · intro v w
    show dot v ⟨dot ⟨2, 1, 0⟩ w, dot ⟨1, 2, 0⟩ w, dot ⟨0, 0, 1⟩ w⟩ = dot w ⟨dot ⟨2, 1, 0⟩ v, dot ⟨1, 2, 0⟩ v, dot ⟨0, 0, 1⟩ v⟩
    simp only [dot]; ring
  · intro v hv
    have h1 : dot v v ≠ 0 := fun h => hv (dot_self_eq_zero h)
    have h2 : 0 < dot v v := lt_of_le_of_ne (dot_self_nonneg v) (Ne.symm h1)
    show 0 < dot v ⟨dot ⟨2, 1, 0⟩ v, dot ⟨1, 2, 0⟩ v, dot ⟨0, 0, 1⟩ v⟩
    simp only [dot] at h2 ⊢
    nlinarith [mul_self_nonneg (v.x + v.y)]

end Verif.Props.Dga
