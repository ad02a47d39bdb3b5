import Verif.Lemmas.HhoCurlPot
import Verif.Lemmas.HhoCube
import Verif.Lemmas.HhoPlane
/-!
Properties of the curl operators of the HHO methods for Maxwell's equations: the curl reconstruction in the polynomials
(C120), the curl reconstruction by potentials (C121), the stabilizations and the mass operator (C122), the tangential
interpolation (C123).
-/
namespace Verif.Props.HhoCurl
open Finset Verif.Hho Verif.Spec.Hho Verif.Lemmas.Hho LocalMatrix

variable {K P : Type} [Field K] {N : Nat} {cell : Elem P K} {faces : List (Face P K)}

section
variable (C : PolyCell 3 cell faces N)

/-! ### C120: curl reconstruction in the polynomials -/

/-- `(C û, τ)_T = (u_T, curl τ)_T + Σ (u_F, τ × n)_F`. -/
theorem c120_relation_partial (fr : Frames P K) (S : Solver K) {rd cd fd : Nat} (hN : 2 * cd + 2 ≤ N)
    (hNf : 2 * rd + 2 ≤ N) (hrd : rd ≤ cd + 1) (hfd : fd ≤ rd + 2)
    (hn : Nonsing (3 * (cell.basis rd).size) (curlPkLhs rd cd cell)) (u : Nat → K) {i : Nat}
    (hi : i < 3 * (cell.basis rd).size) :
    C.IT (fun x => dot 3 (vecFn 3 (cell.basis rd) x i) (evalVec 3 (cell.basis rd)
        (app (3 * (cell.basis cd).size + tanDofs fd faces) (curlPk fr rd cd fd S cell faces).1 u) x)) =
      C.IT (fun x => dot 3 (vecCurl (cell.basis rd) x i) (evalVec 3 (cell.basis cd) u x)) +
      tanSum 2 fd (fun f o => C.IF f fun x =>
        dot 3 (cross (vecFn 3 (cell.basis rd) x i) f.normal) (evalTan (fr f) (f.basis fd) (seg o u) x)) faces
        (3 * (cell.basis cd).size) := by
  rw [← curlPkLhs_exact C hN hrd _ hi, ← curlPkRhs_exact C hN hNf (by omega) hfd u hi]
  exact app_solveMat S (curlPkLhs_sym rd cd _ cell) hn u hi

/-- `(C û, τ)_T = (curl u_T, τ)_T + Σ (u_F - u_T, τ × n)_F`. -/
theorem c120_jumps_partial (fr : Frames P K) (S : Solver K) {rd cd fd : Nat} (hN : 2 * cd + 2 ≤ N)
    (hNf : 2 * rd + 2 ≤ N) (hrd : rd ≤ cd + 1) (hfd : fd ≤ rd + 2) (hP : Parts C rd cd)
    (hn : Nonsing (3 * (cell.basis rd).size) (curlPkLhs rd cd cell)) (u : Nat → K) {i : Nat}
    (hi : i < 3 * (cell.basis rd).size) :
    C.IT (fun x => dot 3 (vecFn 3 (cell.basis rd) x i) (evalVec 3 (cell.basis rd)
        (app (3 * (cell.basis cd).size + tanDofs fd faces) (curlPk fr rd cd fd S cell faces).1 u) x)) =
      C.IT (fun x => dot 3 (vecFn 3 (cell.basis rd) x i) (evalCurl (cell.basis cd) u x)) +
      tanSum 2 fd (fun f o => C.IF f fun x => dot 3 (cross (vecFn 3 (cell.basis rd) x i) f.normal)
        fun c => evalTan (fr f) (f.basis fd) (seg o u) x c - evalVec 3 (cell.basis cd) u x c) faces
        (3 * (cell.basis cd).size) := by
  rw [c120_relation_partial C fr S hN hNf hrd hfd hn u hi, curl_parts C hP hi]
  have e : ∀ (a b d : Nat → K), dot 3 a (fun c => b c - d c) = dot 3 a b - dot 3 a d := by
    intro a b d
    simp only [dot3]
    ring
  simp only [e, IF_sub]
  rw [tanSum_sub, tanSum_const]
  ring

/-- The curl of a tangential interpolate is the L² projection of the curl. -/
theorem c120_commutes_partial (fr : Frames P K) (S : Solver K) {rd cd fd pd : Nat} (hN : 2 * cd + 2 ≤ N)
    (hNf : 2 * rd + 2 ≤ N) (hrd : rd ≤ cd + 1) (hfd : fd ≤ rd + 2) (hrf : rd ≤ fd) (hP : Parts C rd pd)
    (hfr : ∀ f ∈ faces, IsFrame f.normal (fr f)) (hn : Nonsing (3 * (cell.basis rd).size) (curlPkLhs rd cd cell))
    {a u : Nat → K} (hu : IsTanInterp C fr cd fd (evalVec 3 (cell.basis pd) a) u) {i : Nat}
    (hi : i < 3 * (cell.basis rd).size) :
    C.IT (fun x => dot 3 (vecFn 3 (cell.basis rd) x i) (evalVec 3 (cell.basis rd)
        (app (3 * (cell.basis cd).size + tanDofs fd faces) (curlPk fr rd cd fd S cell faces).1 u) x)) =
      C.IT (fun x => dot 3 (vecFn 3 (cell.basis rd) x i) (evalCurl (cell.basis pd) a x)) := by
  rw [c120_relation_partial C fr S hN hNf hrd hfd hn u hi, curl_parts C hP hi]
  have hi' := div_lt_of_lt_mul hi
  congr 1
  · simp only [dot_vecCurl, cyc, IT_neg, IT_sub]
    rw [taninterp_cell C hu (C.mono (by omega) (C.grad_mem rd _ hi' _ (Nat.mod_lt _ (by omega)))) (Nat.mod_lt _ (by omega)),
      taninterp_cell C hu (C.mono (by omega) (C.grad_mem rd _ hi' _ (Nat.mod_lt _ (by omega)))) (Nat.mod_lt _ (by omega))]
  · rw [← tanSum_const 2 fd (fun f => C.IF f fun x => dot 3 (cross (vecFn 3 (cell.basis rd) x i) f.normal)
      (evalVec 3 (cell.basis pd) a x)) faces (3 * (cell.basis cd).size)]
    refine tanSum_congr_all (fun f hf o hp => ?_) hu.2
    have e : ∀ (x : P) (q : Nat → K), dot 3 (cross (vecFn 3 (cell.basis rd) x i) f.normal) q =
        ∑ s ∈ range 2, dot 3 (axisCross (i % 3) f.normal) (fr f s) * ((cell.basis rd).fn x (i / 3) * dot 3 (fr f s) q) := by
      intro x q
      rw [dot_cross_vecFn, cyc_axis (Nat.mod_lt _ (by omega)),
        frame_dot (hfr f hf) (axisCross_normal (Nat.mod_lt _ (by omega)) _), mul_sum]
      exact sum_congr rfl fun s _ => by ring
    simp only [e]
    rw [IF_sum, IF_sum]
    refine sum_congr rfl fun s hs => ?_
    rw [taninterp_face C hf (hp s (mem_range.1 hs)) (C.mono hrf (C.cell_mem rd _ hi'))]

/-- Fields whose curl is in the space of the reconstruction: their curl is reproduced. -/
theorem c120_exact_partial (fr : Frames P K) (S : Solver K) {rd cd fd pd : Nat} (hN : 2 * cd + 2 ≤ N)
    (hNf : 2 * rd + 2 ≤ N) (hrd : rd ≤ cd + 1) (hfd : fd ≤ rd + 2) (hrf : rd ≤ fd) (hP : Parts C rd pd)
    (hpd : pd ≤ rd + 1) (hfr : ∀ f ∈ faces, IsFrame f.normal (fr f))
    (hn : Nonsing (3 * (cell.basis rd).size) (curlPkLhs rd cd cell))
    {a u : Nat → K} (hu : IsTanInterp C fr cd fd (evalVec 3 (cell.basis pd) a) u) (x : P) {c : Nat} (hc : c < 3) :
    evalVec 3 (cell.basis rd)
        (app (3 * (cell.basis cd).size + tanDofs fd faces) (curlPk fr rd cd fd S cell faces).1 u) x c =
      evalCurl (cell.basis pd) a x c := by
  have hV : ∀ c < 3, (fun x => evalCurl (cell.basis pd) a x c) ∈ C.V rd := fun c hc =>
    Submodule.sub_mem _ (C.mono (by omega) (evalGrad_mem C pd _ (Nat.mod_lt _ (by omega))))
      (C.mono (by omega) (evalGrad_mem C pd _ (Nat.mod_lt _ (by omega))))
  choose! g hg using fun c (hc : c < 3) => C.cell_span rd _ (hV c hc)
  have e : ∀ x, ∀ c < 3, evalVec 3 (cell.basis rd) (fun j => g (j % 3) (j / 3)) x c = evalCurl (cell.basis pd) a x c := by
    intro x c hc
    rw [hg c hc x]
    unfold evalVec comp
    congr 1
    funext k
    dsimp only
    rw [(divmod_add hc).1, (divmod_add hc).2]
  rw [← e x c hc]
  refine evalFn_congr (fun k hk => ?_) x
  refine solve_unique hn (y := fun j => g (j % 3) (j / 3)) (fun i hi => ?_) (3 * k + c) (by omega)
  rw [curlPkLhs_exact C hN hrd _ hi, c120_commutes_partial C fr S hN hNf hrd hfd hrf hP hfr hn hu hi,
    curlPkLhs_exact C hN hrd _ hi]
  simp only [dot_vecFn (show 0 < 3 by omega)]
  congr 1
  funext x
  rw [e x _ (Nat.mod_lt i (by omega))]

/-- `data` is the form `(C û, C v̂)_T`. -/
theorem c120_energy_partial (fr : Frames P K) (S : Solver K) {rd cd fd n : Nat} (hN : 2 * cd + 2 ≤ N) (hrd : rd ≤ cd + 1)
    (hn : Nonsing (3 * (cell.basis rd).size) (curlPkLhs rd cd cell)) (v u : Nat → K) :
    form n (curlPk fr rd cd fd S cell faces).2 v u = C.IT fun x =>
      dot 3 (evalVec 3 (cell.basis rd) (app n (curlPk fr rd cd fd S cell faces).1 u) x)
        (evalVec 3 (cell.basis rd) (app n (curlPk fr rd cd fd S cell faces).1 v) x) := by
  rw [curlPk, form_operData S _ _ _ _ (curlPkLhs_sym rd cd _ cell) hn]
  rw [sum_congr rfl fun k hk => by rw [curlPkLhs_exact C hN hrd _ (mem_range.1 hk)], ← IT_sum]
  congr 1
  funext x
  rw [dot_comm, ← sum_vec]
  exact sum_congr rfl fun j _ => by rw [dot_comm]

end

/-- The mass matrix is integrated by the rule of degree `2 * celdeg + 2`: if this has fewer points than there are scalar
functions of degree `recdeg`, the matrix is singular. -/
theorem c120_singular {rd cd : Nat} (h : (cell.integrate (2 * cd + 2)).length < (cell.basis rd).size) :
    ¬Nonsing (3 * (cell.basis rd).size) (curlPkLhs rd cd cell) := by
  obtain ⟨a, ⟨j, hj, hne⟩, ha⟩ := exists_vanishing _ _ h
  intro hn
  have := hn (fun k => if k % 3 = 0 then a (k / 3) else 0) (fun i _ => ?_) (3 * j) (by omega)
  · simp only [Nat.mul_mod_right, if_true, Nat.mul_div_cancel_left j (show 0 < 3 by omega)] at this
    exact hne this
  · change app (3 * (cell.basis rd).size) (curlPkLhs rd cd cell) _ i = 0
    rw [app_curlPkLhs, quad_congr (v := fun _ => 0) fun q hq => ?_]
    · induction cell.integrate (2 * cd + 2) with
      | nil => rfl
      | cons q qs ih => rw [quad_cons, ih, mul_zero, add_zero]
    · rw [dot_vecFn (by omega)]
      unfold evalVec
      have hc : i % 3 < 3 := Nat.mod_lt _ (by omega)
      by_cases h0 : i % 3 = 0
      · rw [show evalFn (cell.basis rd) (comp 3 (i % 3) fun k => if k % 3 = 0 then a (k / 3) else 0) q.pt =
          evalFn (cell.basis rd) a q.pt from evalFn_congr (fun k _ => by
            unfold comp
            dsimp only
            rw [(divmod_add hc).2, if_pos h0, (divmod_add hc).1]) _, ha q hq, mul_zero]
      · rw [show evalFn (cell.basis rd) (comp 3 (i % 3) fun k => if k % 3 = 0 then a (k / 3) else 0) q.pt =
          evalFn (cell.basis rd) (fun _ => 0) q.pt from evalFn_congr (fun k _ => by
            unfold comp
            dsimp only
            rw [(divmod_add hc).2, if_neg h0]) _]
        simp [evalFn]

/-- The degrees `cd = 0`, `fd = 1`, `rd = 2`, accepted by `hho_degree_info(0, 1)`, on a cell whose rules are exact for
their degrees: the mass matrix is singular. -/
theorem c120_violated : ∃ (cell : Elem Pt3 ℚ) (faces : List (Face Pt3 ℚ)), Nonempty (PolyCell 3 cell faces 8) ∧
    ¬Nonsing (3 * (cell.basis 2).size) (curlPkLhs 2 0 cell) :=
  ⟨radCell, cuFaces, ⟨radPoly⟩, c120_singular (by decide +kernel)⟩

section examples

/-- The tangential interpolate of a linear field on the cube. -/
example (a : Nat → ℚ) : ∃ u : Nat → ℚ, ∀ x, ∀ c < 3,
    evalVec 3 (cuCell.basis 0) (app (3 * (cuCell.basis 0).size + tanDofs 0 cuFaces)
      (curlPk cuFrames 0 0 0 (exactSolver ℚ) cuCell cuFaces).1 u) x c = evalCurl (cuCell.basis 1) a x c := by
  obtain ⟨u, hu⟩ := cuTanInterp a
  exact ⟨u, fun x c hc => c120_exact_partial cuPoly cuFrames (exactSolver ℚ) (by omega) (by omega) (by omega) (by omega)
    (le_refl _) cuParts01 (by omega) cuFrames_frame cuCurlMass hu x hc⟩

/-- The curl of a rotation is not zero. -/
example : ∃ (a : Nat → ℚ) (x : Pt3), evalCurl (cuCell.basis 1) a x 2 ≠ 0 :=
  ⟨fun k => if k = 4 then 1 else 0, (0, 0, 0), by decide +kernel⟩

example (u : Nat → ℚ) {i : Nat} (hi : i < 3 * (cuCell.basis 0).size) :=
  c120_jumps_partial cuPoly cuFrames (exactSolver ℚ) (cd := 0) (fd := 0) (by omega) (by omega) (by omega) (by omega)
    cuParts00 cuCurlMass u hi

example (v u : Nat → ℚ) :=
  c120_energy_partial (fd := 0) (n := 15) cuPoly cuFrames (exactSolver ℚ) (cd := 0) (by omega) (by omega) cuCurlMass v u

end examples

/-! ### C121: curl reconstruction by potentials -/

/-- A positive definite integral has the required kernel. -/
theorem c121_kernel {K : Type} [Field K] [LinearOrder K] [IsStrictOrderedRing K] {cell : Elem P K} {faces : List (Face P K)}
    (C : PolyCell 3 cell faces N) {rd : Nat} (hN : 2 * rd ≤ N)
    (hpos : ∀ v ∈ C.V (rd - 1), 0 ≤ C.IT fun x => v x * v x)
    (hdef : ∀ v ∈ C.V (rd - 1), C.IT (fun x => v x * v x) = 0 → ∀ x, v x = 0) : CurlKernel rd cell := by
  intro t ht x c hc
  have h0 : C.IT (fun x => dot 3 (evalCurl (cell.basis rd) (shift3 t) x) (evalCurl (cell.basis rd) (shift3 t) x)) = 0 := by
    have e : ∀ x, dot 3 (evalCurl (cell.basis rd) (shift3 t) x) (evalCurl (cell.basis rd) (shift3 t) x) =
        ∑ i ∈ range (3 * (cell.basis rd).size - 3), t i *
          dot 3 (vecCurl (cell.basis rd) x (3 + i)) (evalCurl (cell.basis rd) (shift3 t) x) := by
      intro x
      rw [← evalCurl_tail (C.cell_pos rd)]
      exact sum_congr rfl fun i _ => by rw [dot_comm]
    simp only [e]
    rw [IT_sum]
    refine sum_eq_zero fun i hi => ?_
    rw [← curlStiff_exact C hN t (mem_range.1 hi), ht i (mem_range.1 hi), mul_zero]
  have hm := fun c => evalCurl_mem C rd (shift3 t) c
  simp only [dot3, IT_add] at h0
  have p0 := hpos _ (hm 0)
  have p1 := hpos _ (hm 1)
  have p2 := hpos _ (hm 2)
  refine hdef _ (hm c) ?_ x
  interval_cases c <;> linarith

section
variable (C : PolyCell 3 cell faces N)

/-- `(curl R û, curl τ)_T = (curl u_T, curl τ)_T + Σ (u_F - u_T, curl τ × n)_F`. -/
theorem c121_relation (fr : Frames P K) (S : RankSolver K) {rd cd fd : Nat} (hrd : 0 < rd) (hcd : cd ≤ rd)
    (hnest : Nested cell) (hN : 2 * rd ≤ N) (hfd : fd ≤ rd + 1) (hk : CurlKernel rd cell) (u : Nat → K) {i : Nat}
    (hi : i < 3 * (cell.basis rd).size) :
    C.IT (fun x => dot 3 (vecCurl (cell.basis rd) x i) (evalCurl (cell.basis rd) (shift3
        (app (3 * (cell.basis cd).size + tanDofs fd faces) (curlRec fr rd cd fd S cell faces).1 u)) x)) =
      C.IT (fun x => dot 3 (vecCurl (cell.basis rd) x i) (evalCurl (cell.basis cd) u x)) +
      tanSum 2 fd (fun f o => C.IF f fun x => dot 3 (cross (vecCurl (cell.basis rd) x i) f.normal)
          fun c => evalTan (fr f) (f.basis fd) (seg o u) x c - evalVec 3 (cell.basis cd) u x c) faces
        (3 * (cell.basis cd).size) := by
  by_cases h3 : i < 3
  · have h1 : ∀ (x : P) (q : Nat → K), dot 3 (vecCurl (cell.basis rd) x i) q = 0 := by
      intro x q
      rw [dot3, vecCurl_const C rd h3, vecCurl_const C rd h3, vecCurl_const C rd h3]
      ring
    have h2 : ∀ f : Face P K, C.IF f (fun _ => 0) = 0 := fun f => map_zero (C.IF f)
    simp only [h1, fun (f : Face P K) x q => cross_const f.normal (fun c _ => vecCurl_const C rd h3 x c) q, h2]
    rw [IT_zero, tanSum_const]
    simp
  · obtain ⟨j, rfl⟩ : ∃ j, i = 3 + j := ⟨i - 3, by omega⟩
    rw [← curlStiff_exact C hN _ (by omega), ← curlRhs_exact C hrd hcd hnest hN hfd u (by omega)]
    exact app_curlRec C S hrd hcd hnest hN hfd hk u (by omega)

/-- The curl of the reconstruction of a tangential interpolate is the elliptic projection of the field. -/
theorem c121_commutes (fr : Frames P K) (S : RankSolver K) {rd cd fd pd : Nat} (hrd : 0 < rd) (hcd : cd ≤ rd)
    (hnest : Nested cell) (hN : 2 * rd ≤ N) (hfd : fd ≤ rd + 1) (hk : CurlKernel rd cell) (hrc : rd ≤ cd + 2)
    (hrf : rd ≤ fd + 1) (hP : Parts C (rd - 1) pd) (hPc : Parts C (rd - 1) cd)
    (hfr : ∀ f ∈ faces, IsFrame f.normal (fr f)) {a u : Nat → K}
    (hu : IsTanInterp C fr cd fd (evalVec 3 (cell.basis pd) a) u) {i : Nat} (hi : i < 3 * (cell.basis rd).size) :
    C.IT (fun x => dot 3 (vecCurl (cell.basis rd) x i) (evalCurl (cell.basis rd) (shift3
        (app (3 * (cell.basis cd).size + tanDofs fd faces) (curlRec fr rd cd fd S cell faces).1 u)) x)) =
      C.IT (fun x => dot 3 (vecCurl (cell.basis rd) x i) (evalCurl (cell.basis pd) a x)) := by
  rw [c121_relation C fr S hrd hcd hnest hN hfd hk u hi]
  obtain ⟨w, hw⟩ := vecCurl_span C rd hi
  have e1 : ∀ (x : P) (q : Nat → K), dot 3 (vecCurl (cell.basis rd) x i) q = dot 3 (evalVec 3 (cell.basis (rd - 1)) w x) q :=
    fun x q => dot_congr3 (hw x) fun _ _ => rfl
  have e2 : ∀ (f : Face P K) (x : P) (q : Nat → K), dot 3 (cross (vecCurl (cell.basis rd) x i) f.normal) q =
      dot 3 (cross (evalVec 3 (cell.basis (rd - 1)) w x) f.normal) q :=
    fun f x q => dot_congr3 (fun c _ => cross_congr3 (hw x) _ c) fun _ _ => rfl
  simp only [e1, e2]
  rw [curl_parts_eval C hPc, curl_parts_eval C hP]
  have e : ∀ (a b d : Nat → K), dot 3 a (fun c => b c - d c) = dot 3 a b - dot 3 a d := by
    intro a b d
    simp only [dot3]
    ring
  simp only [e, IF_sub]
  rw [tanSum_sub, tanSum_const]
  have h1 : C.IT (fun x => dot 3 (evalCurl (cell.basis (rd - 1)) w x) (evalVec 3 (cell.basis cd) u x)) =
      C.IT (fun x => dot 3 (evalCurl (cell.basis (rd - 1)) w x) (evalVec 3 (cell.basis pd) a x)) := by
    simp only [dot3, IT_add]
    have hm := fun c => C.mono (show rd - 1 - 1 ≤ cd by omega) (evalCurl_mem C (rd - 1) w c)
    rw [taninterp_cell C hu (hm 0) (by omega), taninterp_cell C hu (hm 1) (by omega), taninterp_cell C hu (hm 2) (by omega)]
  have h2 : tanSum 2 fd (fun f o => C.IF f fun x => dot 3 (cross (evalVec 3 (cell.basis (rd - 1)) w x) f.normal)
      (evalTan (fr f) (f.basis fd) (seg o u) x)) faces (3 * (cell.basis cd).size) =
      (faces.map fun f => C.IF f fun x => dot 3 (cross (evalVec 3 (cell.basis (rd - 1)) w x) f.normal)
        (evalVec 3 (cell.basis pd) a x)).sum := by
    rw [← tanSum_const 2 fd _ faces (3 * (cell.basis cd).size)]
    refine tanSum_congr_all (fun f hf o hp => ?_) hu.2
    have hx : ∀ (x : P) (q : Nat → K), dot 3 (cross (evalVec 3 (cell.basis (rd - 1)) w x) f.normal) q =
        ∑ s ∈ range 2, dot 3 (cross (evalVec 3 (cell.basis (rd - 1)) w x) f.normal) (fr f s) * dot 3 (fr f s) q := by
      intro x q
      refine frame_dot (hfr f hf) ?_ q
      simp only [dot3, cross0, cross1, cross2]
      ring
    have hq : ∀ q : P → Nat → K, (fun x => dot 3 (cross (evalVec 3 (cell.basis (rd - 1)) w x) f.normal) (q x)) =
        fun x => ∑ s ∈ range 2, dot 3 (cross (evalVec 3 (cell.basis (rd - 1)) w x) f.normal) (fr f s) *
          dot 3 (fr f s) (q x) := fun q => funext fun x => hx x (q x)
    rw [hq, hq, IF_sum1, IF_sum1]
    refine sum_congr rfl fun s hs => ?_
    refine taninterp_face C hf (hp s (mem_range.1 hs)) (v := fun x =>
      dot 3 (cross (evalVec 3 (cell.basis (rd - 1)) w x) f.normal) (fr f s)) (C.mono (show rd - 1 ≤ fd by omega) ?_)
    have : (fun x => dot 3 (cross (evalVec 3 (cell.basis (rd - 1)) w x) f.normal) (fr f s)) = fun x =>
        ∑ c ∈ range 3, cross f.normal (fr f s) c * evalFn (cell.basis (rd - 1)) (comp 3 c w) x := by
      funext x
      simp only [sum_range_succ, range_zero, sum_empty, zero_add, dot3, cross0, cross1, cross2, evalVec]
      ring
    rw [this]
    exact sum_mem' C fun c _ => smul_mem' C _ (evalFn_mem C (rd - 1) _)
  rw [h1, h2]
  ring

/-- `data` is the form `(curl R û, curl R v̂)_T`. -/
theorem c121_energy (fr : Frames P K) (S : RankSolver K) {rd cd fd : Nat} (hrd : 0 < rd) (hcd : cd ≤ rd)
    (hnest : Nested cell) (hN : 2 * rd ≤ N) (hfd : fd ≤ rd + 1) (hk : CurlKernel rd cell) (v u : Nat → K) :
    form (3 * (cell.basis cd).size + tanDofs fd faces) (curlRec fr rd cd fd S cell faces).2 v u = C.IT fun x =>
      dot 3 (evalCurl (cell.basis rd) (shift3
          (app (3 * (cell.basis cd).size + tanDofs fd faces) (curlRec fr rd cd fd S cell faces).1 u)) x)
        (evalCurl (cell.basis rd) (shift3
          (app (3 * (cell.basis cd).size + tanDofs fd faces) (curlRec fr rd cd fd S cell faces).1 v)) x) := by
  rw [show (curlRec fr rd cd fd S cell faces).2 = mul (3 * (cell.basis rd).size - 3)
    (tpose (curlRhs fr rd cd fd cell faces)) (curlRec fr rd cd fd S cell faces).1 from rfl, form_mul_trans]
  rw [sum_congr rfl fun k hk' => by
    rw [← app_curlRec C (fr := fr) S hrd hcd hnest hN hfd hk v (mem_range.1 hk'), curlStiff_exact C hN _ (mem_range.1 hk'),
      mul_comm], ← IT_sum]
  congr 1
  funext x
  rw [dot_comm, ← evalCurl_tail (C.cell_pos rd)]
  exact sum_congr rfl fun j _ => by rw [dot_comm]

end

/-- In the plane the operator is that of the scalar Laplacian. -/
theorem c121_plane (C : PolyCell 2 cell faces N) (S : Solver K) {rd cd fd : Nat} (hrd : 0 < rd) (hcd : cd ≤ rd)
    (hnest : Nested cell) (hN : 2 * rd ≤ N) (hNf : rd + fd ≤ N) (hfd : fd ≤ rd + 1)
    (hn : Nonsing ((cell.basis rd).size - 1) (lapLhs 2 none (cell.basis rd) rd cell)) :
    let n := (cell.basis cd).size + facesDofs (uniform fd faces)
    (∀ u, ∀ k < (cell.basis rd).size - 1,
      app n (planeCurlRec rd cd fd S cell faces).1 u k = app n (laplacian 2 none false S rd cd fd cell faces).1 u k) ∧
    ∀ v u, form n (planeCurlRec rd cd fd S cell faces).2 v u =
      form n (laplacian 2 none false S rd cd fd cell faces).2 v u := by
  intro n
  have hl : ∀ i < (cell.basis rd).size - 1, ∀ j < (cell.basis rd).size - 1,
      block (planeStiff rd cell) 1 1 i j = lapLhs 2 none (cell.basis rd) rd cell i j :=
    fun i hi j hj => planeStiff_eq C hN hi hj
  have hls := lapLhs_sym (cell := cell) (tens := none) trivial (cell.basis rd) (d := 2) rd ((cell.basis rd).size - 1)
  have hs : SymOn ((cell.basis rd).size - 1) (block (planeStiff rd cell) 1 1) := by
    intro i hi j hj
    rw [hl i hi j hj, hl j hj i hi, hls i hi j hj]
  have hn' : Nonsing ((cell.basis rd).size - 1) (block (planeStiff rd cell) 1 1) := by
    intro x hx
    refine hn x fun i hi => ?_
    rw [← hx i hi]
    exact sum_congr rfl fun j hj => by rw [hl i hi j (mem_range.1 hj)]
  have h1 : ∀ u, ∀ k < (cell.basis rd).size - 1,
      app n (planeCurlRec rd cd fd S cell faces).1 u k = app n (laplacian 2 none false S rd cd fd cell faces).1 u k := by
    intro u k hk
    refine solve_unique hn (fun i hi => ?_) k hk
    rw [show app ((cell.basis rd).size - 1) (lapLhs 2 none (cell.basis rd) rd cell)
      (app n (laplacian 2 none false S rd cd fd cell faces).1 u) i = _ from
        app_oper (tens := none) trivial S false (cell.basis rd) rd cd fd n hn u hi,
      ← app_congr (fun j hj => hl i hi j hj) fun _ _ => rfl, ← app_planeRhs C hcd hnest hN hNf hfd hrd S u hi]
    exact app_solveMat S hs hn' u hi
  refine ⟨h1, fun v u => ?_⟩
  rw [show (planeCurlRec rd cd fd S cell faces).2 = (operData S ((cell.basis rd).size - 1)
      (block (planeStiff rd cell) 1 1) (planeCurlFaces rd fd (cell.basis rd) (cell.basis cd) faces (cell.basis cd).size
        (setBlock zero 0 0 ((cell.basis rd).size - 1) (cell.basis cd).size (block (planeStiff rd cell) 1 0)))).2 from rfl,
    form_operData S _ _ _ _ hs hn', show (laplacian 2 none false S rd cd fd cell faces).2 =
      (operData S ((cell.basis rd).size - 1) (lapLhs 2 none (cell.basis rd) rd cell)
        (lapRhs 2 none false S (cell.basis rd) rd cd fd cell faces)).2 from rfl, form_operData S _ _ _ _ hls hn]
  refine sum_congr rfl fun k hk => ?_
  have hk := mem_range.1 hk
  congr 1
  · exact h1 u k hk
  · exact app_congr (fun j hj => hl k hk j hj) fun j hj => h1 v j hj

section examples

/-- The kernel on the unit cube. -/
theorem c121_kernel_cube : CurlKernel 1 cuCell := by
  refine c121_kernel cuPoly (by omega) (fun v hv => ?_) fun v hv h => ?_
  · obtain ⟨a, ha⟩ := cuConst hv
    simp only [ha, cuIT_const]
    exact mul_self_nonneg a
  · obtain ⟨a, ha⟩ := cuConst hv
    simp only [ha, cuIT_const, mul_self_eq_zero] at h
    exact fun x => (ha x).trans h

/-- The elliptic projection of a linear field. -/
example (a : Nat → ℚ) : ∃ u : Nat → ℚ, ∀ i < 3 * (cuCell.basis 1).size,
    cuPoly.IT (fun x => dot 3 (vecCurl (cuCell.basis 1) x i) (evalCurl (cuCell.basis 1) (shift3
        (app (3 * (cuCell.basis 0).size + tanDofs 0 cuFaces)
          (curlRec cuFrames 1 0 0 (exactRank ℚ) cuCell cuFaces).1 u)) x)) =
      cuPoly.IT (fun x => dot 3 (vecCurl (cuCell.basis 1) x i) (evalCurl (cuCell.basis 1) a x)) := by
  obtain ⟨u, hu⟩ := cuTanInterp a
  exact ⟨u, fun i hi => c121_commutes cuPoly cuFrames (exactRank ℚ) (by omega) (by omega) cuNested (by omega) (by omega)
    c121_kernel_cube (by omega) (by omega) cuParts01 cuParts00 cuFrames_frame hu hi⟩

example (u : Nat → ℚ) {i : Nat} (hi : i < 3 * (cuCell.basis 1).size) :=
  c121_relation cuPoly cuFrames (exactRank ℚ) (cd := 1) (fd := 0) (by omega) (by omega) cuNested (by omega) (by omega)
    c121_kernel_cube u hi

example (v u : Nat → ℚ) :=
  c121_energy cuPoly cuFrames (exactRank ℚ) (cd := 1) (fd := 0) (by omega) (by omega) cuNested (by omega) (by omega)
    c121_kernel_cube v u

/-- Some function has a curl that is not zero. -/
example : vecCurl (cuCell.basis 1) (0, 0, 0) 4 2 ≠ 0 := by decide +kernel

example := c121_plane sqPoly (exactSolver ℚ) (cd := 1) (fd := 0) (by omega) (by omega) sqNested (by omega) (by omega)
  (by omega) sqLapNonsing

end examples

/-! ### C122: stabilizations -/

/-- The stabilization in space penalizes the tangential projection of `u_F - u_T` on the faces; no diameter enters. -/
theorem c122_form (C : PolyCell 3 cell faces N) (S : Solver K) {fr : Frames P K} {cd fd : Nat}
    (hN : 2 * max cd fd + 2 ≤ N) (hfr : ∀ f ∈ faces, IsFrame f.normal (fr f))
    (hm : ∀ f ∈ faces, Nonsing (2 * (f.basis fd).size) (tanMass fr cd fd f)) :
    ∃ δ : Face P K → Nat → (Nat → K) → Nat → K,
      (∀ u, ∀ f ∈ faces, ∀ o, IsTanProj C fr fd f (fun x c =>
        evalTan (fr f) (f.basis fd) (seg o u) x c - evalVec 3 (cell.basis cd) u x c) (δ f o u)) ∧
      ∀ v u, form (3 * (cell.basis cd).size + tanDofs fd faces) (curlHdg S fr cd fd cell faces) v u =
        tanSum 2 fd (fun f o => C.IF f fun x => dot 3 (evalTan (fr f) (f.basis fd) (δ f o v) x)
          (evalTan (fr f) (f.basis fd) (δ f o u) x)) faces (3 * (cell.basis cd).size) := by
  refine ⟨fun f o u => tanJump S fr cd fd (cell.basis cd) f o u, fun u f hf o s hs i hi => ?_, fun v u => ?_⟩
  · have := tanJump_proj C S hf hN (hfr f hf) (hm f hf) o u (i := 2 * i + s) (by omega)
    simpa only [dot_tanFn, (divmod_add hs).1, (divmod_add hs).2] using this
  · unfold curlHdg
    rw [form_curlHdgFaces S fr cd fd _ v u _ _ _ (le_refl _) (le_refl _), form_zero, zero_add]
    refine tanSum_congr (fun f hf o => ?_) _
    refine face_quad C hf (n := fd + fd) (by omega) hN ?_
    unfold dot
    exact OnV_sum1 C fun c _ => OnV.mul C (OnV_evalTan C hf _ fd _ c) (OnV_evalTan C hf _ fd _ c)

/-- It vanishes if the unknowns of the faces are the tangential projections of the cell unknown. -/
theorem c122_kernel (C : PolyCell 3 cell faces N) (S : Solver K) {fr : Frames P K} {cd fd : Nat}
    (hN : 2 * max cd fd + 2 ≤ N) (hfr : ∀ f ∈ faces, IsFrame f.normal (fr f))
    (hm : ∀ f ∈ faces, Nonsing (2 * (f.basis fd).size) (tanMass fr cd fd f)) {u : Nat → K}
    (hu : tanAll 2 fd (fun f o => IsTanProj C fr fd f (evalVec 3 (cell.basis cd) u) (seg o u)) faces
      (3 * (cell.basis cd).size)) (v : Nat → K) :
    form (3 * (cell.basis cd).size + tanDofs fd faces) (curlHdg S fr cd fd cell faces) v u = 0 := by
  unfold curlHdg
  rw [form_curlHdgFaces S fr cd fd _ v u _ _ _ (le_refl _) (le_refl _), form_zero, zero_add]
  have hz : tanSum 2 fd (fun f o => quad (f.integrate (2 * max cd fd + 2)) fun x =>
        dot 3 (evalTan (fr f) (f.basis fd) (tanJump S fr cd fd (cell.basis cd) f o v) x)
          (evalTan (fr f) (f.basis fd) (tanJump S fr cd fd (cell.basis cd) f o u) x)) faces (3 * (cell.basis cd).size) =
      tanSum 2 fd (fun _ _ => 0) faces (3 * (cell.basis cd).size) := by
    refine tanSum_congr_all (fun f hf o hp => ?_) hu
    have hj : ∀ k < 2 * (f.basis fd).size, tanJump S fr cd fd (cell.basis cd) f o u k = 0 := by
      refine solve_unique (hm f hf) (y := fun _ => 0) fun i hi => ?_
      have h := tanJump_proj C S hf hN (hfr f hf) (hm f hf) o u hi
      have hi2 : i / 2 < (f.basis fd).size := div_lt_of_lt_mul hi
      have hp := hp (i % 2) (Nat.mod_lt _ (by omega)) (i / 2) hi2
      rw [app_tanMass, app_tanMass]
      simp only [dot_tanFn] at h ⊢
      rw [face_quad C hf (n := fd + max cd fd) (by omega) (by omega)
        (OnV_dotTan C hf _ (by omega) _ hi2 fun c _ => OnV.mono C (by omega) (OnV_evalTan C hf _ fd _ c)), h]
      have e : (fun x => (f.basis fd).fn x (i / 2) * dot 3 (fr f (i % 2)) fun c =>
          evalTan (fr f) (f.basis fd) (seg o u) x c - evalVec 3 (cell.basis cd) u x c) = fun x =>
          (f.basis fd).fn x (i / 2) * dot 3 (fr f (i % 2)) (evalTan (fr f) (f.basis fd) (seg o u) x) -
          (f.basis fd).fn x (i / 2) * dot 3 (fr f (i % 2)) (evalVec 3 (cell.basis cd) u x) := by
        funext x
        simp only [dot3]
        ring
      rw [e, IF_sub, hp, sub_self]
      simp only [evalTan, evalFn, comp, zero_mul, sum_const_zero, mul_zero, dot]
      exact (quad_zero _ fun _ => rfl).symm
    have e : ∀ x c, evalTan (fr f) (f.basis fd) (tanJump S fr cd fd (cell.basis cd) f o u) x c = 0 := by
      intro x c
      rw [evalTan_congr (w := fun _ => 0) hj x]
      simp [evalTan, evalFn, comp]
    refine quad_zero _ fun x => ?_
    rw [dot3, e, e, e]
    ring
  rw [hz, tanSum_const]
  simp

/-- It is positive semidefinite. -/
theorem c122_nonneg {K : Type} [Field K] [LinearOrder K] [IsStrictOrderedRing K] {cell : Elem P K}
    {faces : List (Face P K)} (S : Solver K) {fr : Frames P K} {cd fd : Nat}
    (hw : ∀ f ∈ faces, ∀ q ∈ f.integrate (2 * max cd fd + 2), 0 ≤ q.w) (u : Nat → K) :
    0 ≤ form (3 * (cell.basis cd).size + tanDofs fd faces) (curlHdg S fr cd fd cell faces) u u := by
  unfold curlHdg
  rw [form_curlHdgFaces S fr cd fd _ u u _ _ _ (le_refl _) (le_refl _), form_zero, zero_add]
  generalize 3 * (cell.basis cd).size = o
  have : ∀ (fs : List (Face P K)) (_ : ∀ f ∈ fs, f ∈ faces) (o : Nat), 0 ≤
      tanSum 2 fd (fun f o => quad (f.integrate (2 * max cd fd + 2)) fun x =>
        dot 3 (evalTan (fr f) (f.basis fd) (tanJump S fr cd fd (cell.basis cd) f o u) x)
          (evalTan (fr f) (f.basis fd) (tanJump S fr cd fd (cell.basis cd) f o u) x)) fs o := by
    intro fs
    induction fs with
    | nil => exact fun _ _ => le_refl _
    | cons f fs ih =>
      intro h o
      rw [tanSum]
      refine add_nonneg (quad_nonneg (hw f (h f List.mem_cons_self)) fun q _ => ?_)
        (ih (fun f hf => h f (List.mem_cons_of_mem _ hf)) _)
      unfold dot
      exact sum_nonneg fun c _ => mul_self_nonneg _
  exact this faces (fun _ h => h) o

/-- In the plane it is the HDG stabilization scaled by the diameters of the faces. -/
theorem c122_plane (C : PolyCell 2 cell faces N) (S : Solver K) {cd fd : Nat} (hN : 2 * max cd fd + 2 ≤ N)
    (hm : ∀ f ∈ faces, Nonsing (f.basis fd).size (mass f.toElem fd (f.basis fd))) (v u : Nat → K) :
    form ((cell.basis cd).size + facesDofs (uniform fd faces)) (planeHdg S cd fd cell faces) v u =
      form ((cell.basis cd).size + facesDofs (uniform fd faces)) (hdg S true cd cell (uniform fd faces)) v u := by
  unfold planeHdg hdg
  rw [form_planeHdgFaces C S hN v u faces (fun _ h => h) hm _ _ (le_refl _) (le_refl _),
    form_hdgFaces S true _ _ _ (fun f k h => by
      obtain ⟨hf, rfl⟩ := mem_uniform h
      exact hm f hf) (le_refl _) (le_refl _)]
  rfl

/-- The mass operator only sees the cell unknowns. -/
theorem c122_mass (C : PolyCell 3 cell faces N) {cd n : Nat} (hN : 2 * cd + 2 ≤ N) (hn : 3 * (cell.basis cd).size ≤ n)
    (v u : Nat → K) :
    form n (massOper cd cell) v u =
      C.IT fun x => dot 3 (evalVec 3 (cell.basis cd) v x) (evalVec 3 (cell.basis cd) u x) := by
  rw [form_massOper hn]
  exact cell_quad C (n := cd + cd) (m := 2 * cd + 2) (by omega) hN
    (dot_mem C (fun c _ => evalFn_mem C cd _) fun c _ => evalFn_mem C cd _)

section examples

example := c122_form cuPoly (exactSolver ℚ) (cd := 0) (fd := 0) (by omega) cuFrames_frame cuTanMass'

/-- Constant fields. -/
example (a : Nat → ℚ) : ∃ u : Nat → ℚ, (∀ c < 3, u c = a c) ∧ ∀ v, form (3 * (cuCell.basis 0).size + tanDofs 0 cuFaces)
    (curlHdg (exactSolver ℚ) cuFrames 0 0 cuCell cuFaces) v u = 0 := by
  obtain ⟨u, hu⟩ := cuTanInterp0 a
  exact ⟨u, hu.1, c122_kernel cuPoly (exactSolver ℚ) (by omega) cuFrames_frame cuTanMass' hu.2⟩

example (u : Nat → ℚ) := c122_nonneg (cell := cuCell) (faces := cuFaces) (fr := cuFrames) (exactSolver ℚ) (cd := 0)
  (fd := 0) (by
    intro f hf
    obtain ⟨ax, a, m, rfl⟩ := cuFace_mem hf
    have h : ∀ q ∈ (simpson.flatMap fun p => simpson.map fun q => p.2 * q.2), (0 : ℚ) ≤ q := by decide +kernel
    intro q hq
    simp only [cuFace, List.mem_flatMap, List.mem_map] at hq
    obtain ⟨p, hp, r, hr, rfl⟩ := hq
    exact h _ (List.mem_flatMap.2 ⟨p, hp, List.mem_map.2 ⟨r, hr, rfl⟩⟩)) u

example (v u : Nat → ℚ) := c122_plane sqPoly (exactSolver ℚ) (cd := 1) (fd := 0) (by omega) sqFaceMass v u

example (v u : Nat → ℚ) := c122_mass cuPoly (cd := 1) (n := 20) (by omega) (by decide) v u

end examples

/-! ### C123: tangential interpolation -/

/-- `project_tangent` computes the tangential interpolate of a polynomial field. -/
theorem c123_tangent (C : PolyCell 3 cell faces N) (S : Solver K) {fr : Frames P K} {cd fd fbs di pd : Nat}
    (hs : ∀ f ∈ faces, 2 * (f.basis fd).size = fbs)
    (hmc : Nonsing (3 * (cell.basis cd).size) (accumDot 3 (cell.integrate (2 * cd)) (vecFn 3 (cell.basis cd))
      (vecFn 3 (cell.basis cd))))
    (hmf : ∀ f ∈ faces, Nonsing (2 * (f.basis fd).size) (accumDot 3 (f.integrate (2 * fd)) (tanFn (fr f) (f.basis fd))
      (tanFn (fr f) (f.basis fd)))) (hfr : ∀ f ∈ faces, IsFrame f.normal (fr f))
    (hd : pd ≤ cd + 2 * di) (hdf : pd ≤ fd + 2 * di) (hN : 2 * (cd + di) ≤ N) (hNf : 2 * (fd + di) ≤ N)
    {p : P → Nat → K} (hp : ∀ c < 3, (fun x => p x c) ∈ C.V pd) :
    IsTanInterp C fr cd fd p (projectTangent S fr cell faces cd fd fbs di p) :=
  projectTangent_isInterp C S hs hmc hmf hfr hd hdf hN hNf hp

example (a : Nat → ℚ) := c123_tangent cuPoly (exactSolver ℚ) (fbs := 2) (di := 1) (fun f hf => by
    obtain ⟨ax, a, m, rfl⟩ := cuFace_mem hf
    rfl) cuVecMass cuTanMass cuFrames_frame (by omega) (by omega) (by omega) (by omega)
    (p := evalVec 3 (cuCell.basis 1) a) fun c _ => evalFn_mem cuPoly 1 _

/-- The cell unknowns of `maxwell_prj` are those of the interpolate. -/
theorem c123_maxwell_partial (C : PolyCell 3 cell faces N) (S : Solver K) {fr : Frames P K} {cd fd fbs pd : Nat}
    (hmc : Nonsing (3 * (cell.basis cd).size) (accumDot 3 (cell.integrate (2 * cd)) (vecFn 3 (cell.basis cd))
      (vecFn 3 (cell.basis cd)))) (hd : pd ≤ cd) (hN : 2 * cd ≤ N)
    {p : P → Nat → K} (hp : ∀ c < 3, (fun x => p x c) ∈ C.V pd) {c i : Nat} (hc : c < 3) (hi : i < (cell.basis cd).size) :
    C.IT (fun x => (cell.basis cd).fn x i * evalVec 3 (cell.basis cd)
        (maxwellPrj S fr cell faces cd fd fbs p) x c) =
      C.IT (fun x => (cell.basis cd).fn x i * p x c) := by
  rw [← projectVec_cell C S (di := 0) hmc hd hN hp hc hi]
  congr 1
  funext x
  rw [evalVec_congr (fun j hj => ?_) x hc]
  unfold maxwellPrj
  rw [maxwellFaces_lt _ _ _ _ _ _ _ _ _ _ (by omega), setSegment, if_pos (by omega), Nat.sub_zero]

example (a : Nat → ℚ) {c i : Nat} (hc : c < 3) (hi : i < (cuCell.basis 0).size) :=
  c123_maxwell_partial cuPoly (exactSolver ℚ) (fr := cuFrames) (fd := 0) (fbs := 2) cuVecMass (le_refl _) (by omega)
    (p := evalVec 3 (cuCell.basis 0) a) (fun c _ => evalFn_mem cuPoly 0 _) hc hi

/-- The field `(z, 0, 0)` on the unit cube: its tangential trace on the face `z = 0` is zero, the coefficient computed by
`maxwell_prj` is its mean over the cell. -/
theorem c123_maxwell_violated (S : Solver ℚ) :
    (∀ u, IsTanInterp cuPoly cuFrames 1 0 (evalVec 3 (cuCell.basis 1) fun j => if j = 9 then 1 else 0) u → u 20 = 0) ∧
    maxwellPrj S cuFrames cuCell cuFaces 1 0 2 (evalVec 3 (cuCell.basis 1) fun j => if j = 9 then 1 else 0) 20 = 1 / 2 := by
  constructor
  · intro u hu
    have h := hu.2.2.2.2.2.1 0 (by omega) 0 (by decide)
    have hz : quad ((cuFace 2 0 (-1)).integrate 0) (fun x => ((cuFace 2 0 (-1)).basis 0).fn x 0 *
        dot 3 (cuFrames (cuFace 2 0 (-1)) 0) (evalVec 3 (cuCell.basis 1) (fun j => if j = 9 then 1 else 0) x)) = 0 := by
      decide +kernel
    replace h := h.trans hz
    simp only [frame_evalTan (cuFrames_frame (cuFace 2 0 (-1)) (by simp [cuFaces])) _ _ _ (show 0 < 2 by omega)] at h
    have e : ∀ x, evalFn ((cuFace 2 0 (-1)).basis 0) (comp 2 0 (seg 20 u)) x = u 20 * ((cuFace 2 0 (-1)).basis 0).fn x 0 := by
      intro x
      unfold evalFn
      rw [show ((cuFace 2 0 (-1)).basis 0).size = 1 from rfl, sum_range_one]
      rfl
    have h' : quad ((cuFace 2 0 (-1)).integrate 0) (fun x => ((cuFace 2 0 (-1)).basis 0).fn x 0 *
        evalFn ((cuFace 2 0 (-1)).basis 0) (comp 2 0 (seg 20 u)) x) = 0 := h
    simp only [e] at h'
    rw [show (fun x => ((cuFace 2 0 (-1)).basis 0).fn x 0 * (u 20 * ((cuFace 2 0 (-1)).basis 0).fn x 0)) = fun x =>
      u 20 * (((cuFace 2 0 (-1)).basis 0).fn x 0 * ((cuFace 2 0 (-1)).basis 0).fn x 0) from funext fun x => by ring,
      quad_mul, show quad ((cuFace 2 0 (-1)).integrate 0) (fun x => ((cuFace 2 0 (-1)).basis 0).fn x 0 *
        ((cuFace 2 0 (-1)).basis 0).fn x 0) = 1 by decide +kernel, mul_one] at h'
    exact h'
  · set p := evalVec 3 (cuCell.basis 1) fun j => if j = 9 then (1 : ℚ) else 0 with hp
    rw [show maxwellPrj S cuFrames cuCell cuFaces 1 0 2 p 20 = projectVec S cuCell 0 0 2
      (tanFn (cuFrames (cuFace 2 0 (-1))) ((cuFace 2 0 (-1)).basis 0)) p 0 from rfl]
    have hmass : ∀ i < 2, ∀ j < 2, accumDot 3 (cuCell.integrate (2 * 0)) (tanFn (cuFrames (cuFace 2 0 (-1)))
        ((cuFace 2 0 (-1)).basis 0)) (tanFn (cuFrames (cuFace 2 0 (-1))) ((cuFace 2 0 (-1)).basis 0)) i j =
        if i = j then 1 else 0 := by decide +kernel
    have h := projectVec_spec S cuCell (k := 0) (di := 0) (n := 2) (tanFn (cuFrames (cuFace 2 0 (-1)))
      ((cuFace 2 0 (-1)).basis 0)) p (fun x h j hj => by
        have h := h j hj
        simp only [sum_range_succ, range_zero, sum_empty, hmass j hj 0 (by omega), hmass j hj 1 (by omega)] at h
        interval_cases j <;> simpa using h) (show 0 < 2 by omega)
    rw [quad_sum, sum_congr rfl fun j hj => by rw [quad_mul, ← accumDot_eq, hmass 0 (by omega) j (mem_range.1 hj)]] at h
    simp only [sum_range_succ, range_zero, sum_empty] at h
    simp only [if_true, if_neg (show (0 : Nat) ≠ 1 by omega), mul_one, mul_zero, add_zero, zero_add] at h
    rw [h, hp]
    decide +kernel

end Verif.Props.HhoCurl
