import Mathlib.LinearAlgebra.Dual.Lemmas
import Mathlib.LinearAlgebra.Matrix.ToLin
import Verif.Lemmas.HhoCurl
/-!
Helper lemmas for the curl reconstruction by potentials and for the stabilizations of the Maxwell methods.
-/
namespace Verif.Lemmas.Hho
open Finset Verif.Hho Verif.Spec.Hho LocalMatrix

variable {K P : Type} [Field K] {N : Nat} {cell : Elem P K} {faces : List (Face P K)}

/-! ### Systems with a kernel -/

/-- A symmetric system is solvable if the right-hand side annihilates the kernel. -/
theorem exists_solution_of_kernel {n : Nat} {A : Mat K} {b : Nat → K} (hs : SymOn n A)
    (h : ∀ t : Nat → K, (∀ i < n, app n A t i = 0) → ∑ i ∈ range n, b i * t i = 0) :
    ∃ x : Nat → K, ∀ i < n, ∑ j ∈ range n, A i j * x j = b i := by
  let M : Matrix (Fin n) (Fin n) K := Matrix.of fun i j => A i j
  let φ : Module.Dual K (Fin n → K) := ∑ i : Fin n, b i.1 • LinearMap.proj i
  have hφ : ∀ x, φ x = ∑ i : Fin n, b i.1 * x i := by
    intro x
    simp only [φ, LinearMap.sum_apply, LinearMap.smul_apply, LinearMap.proj_apply, smul_eq_mul]
  have hk : φ ∈ (LinearMap.ker M.toLin').dualAnnihilator := by
    rw [Submodule.mem_dualAnnihilator]
    intro w hw
    rw [LinearMap.mem_ker, Matrix.toLin'_apply] at hw
    have := h (fun j => if hj : j < n then w ⟨j, hj⟩ else 0) fun i hi => by
      have e := congrFun hw ⟨i, hi⟩
      rw [Matrix.mulVec, dotProduct] at e
      unfold app
      rw [← Fin.sum_univ_eq_sum_range (fun j => A i j * if hj : j < n then w ⟨j, hj⟩ else 0) n]
      simpa [M] using e
    rw [← Fin.sum_univ_eq_sum_range (fun i => b i * if hj : i < n then w ⟨i, hj⟩ else 0) n] at this
    rw [hφ]
    simpa using this
  rw [← LinearMap.range_dualMap_eq_dualAnnihilator_ker] at hk
  obtain ⟨ψ, hψ⟩ := hk
  refine ⟨fun j => if hj : j < n then ψ (Pi.single ⟨j, hj⟩ 1) else 0, fun i hi => ?_⟩
  have e : φ (Pi.single ⟨i, hi⟩ 1) = ψ (M.toLin' (Pi.single ⟨i, hi⟩ 1)) := by rw [← hψ]; rfl
  rw [hφ] at e
  have e1 : ∑ k : Fin n, b k.1 * (Pi.single (⟨i, hi⟩ : Fin n) (1 : K) : Fin n → K) k = b i := by
    simp only [Pi.single_apply, mul_ite, mul_one, mul_zero]
    rw [sum_ite_eq', if_pos (mem_univ _)]
  have e2 : M.toLin' (Pi.single ⟨i, hi⟩ 1) = ∑ j : Fin n, A i j.1 • Pi.single j (1 : K) := by
    funext j
    rw [Matrix.toLin'_apply, Matrix.mulVec_single_one]
    simp only [Finset.sum_apply, Pi.smul_apply, smul_eq_mul, Pi.single_apply, mul_ite, mul_one, mul_zero]
    rw [sum_ite_eq, if_pos (mem_univ _)]
    exact hs j.1 j.2 i hi
  rw [e1, e2, map_sum] at e
  rw [← Fin.sum_univ_eq_sum_range (fun j => A i j * if hj : j < n then ψ (Pi.single ⟨j, hj⟩ 1) else 0) n, e]
  refine sum_congr rfl fun j _ => ?_
  rw [map_smul, smul_eq_mul, dif_pos j.2]

/-! ### `curl_reconstruction` in 3D -/

theorem evalCurl_sum (b : Basis P K) (u : Nat → K) (a : Nat → K) (x : P) :
    ∑ j ∈ range (3 * b.size), u j * dot 3 a (vecCurl b x j) = dot 3 a (evalCurl b u x) := by
  rw [sum_range_mul']
  have h : ∀ k, ∑ c ∈ range 3, u (3 * k + c) * dot 3 a (vecCurl b x (3 * k + c)) =
      a 0 * (u (3 * k + 2) * b.grad x k 1 - u (3 * k + 1) * b.grad x k 2) +
      a 1 * (u (3 * k) * b.grad x k 2 - u (3 * k + 2) * b.grad x k 0) +
      a 2 * (u (3 * k + 1) * b.grad x k 0 - u (3 * k) * b.grad x k 1) := by
    intro k
    simp only [sum_range_succ, range_zero, sum_empty, zero_add, dot_comm 3 a, dot_vecCurl,
      (divmod_add (d := 3) (k := k) (c := 0) (by omega)).1, (divmod_add (d := 3) (k := k) (c := 0) (by omega)).2,
      (divmod_add (d := 3) (k := k) (c := 1) (by omega)).1, (divmod_add (d := 3) (k := k) (c := 1) (by omega)).2,
      (divmod_add (d := 3) (k := k) (c := 2) (by omega)).1, (divmod_add (d := 3) (k := k) (c := 2) (by omega)).2, cyc,
      Nat.add_zero]
    simp
    ring
  rw [sum_congr rfl fun k _ => h k, dot3]
  simp only [evalCurl, evalGrad, comp, sum_add_distrib, ← mul_sum, sum_sub_distrib]
  simp

theorem evalCurl_tail {b : Basis P K} (hb : 0 < b.size) (r : Nat → K) (a : Nat → K) (x : P) :
    ∑ j ∈ range (3 * b.size - 3), r j * dot 3 a (vecCurl b x (3 + j)) = dot 3 a (evalCurl b (shift3 r) x) := by
  rw [← evalCurl_sum]
  have e : 3 * b.size = 3 + (3 * b.size - 3) := by omega
  conv_rhs => rw [e]
  rw [sum_range_add, sum_eq_zero (s := range 3) fun j hj => by
    unfold shift3
    rw [if_pos (mem_range.1 hj), zero_mul], zero_add]
  refine sum_congr rfl fun j _ => ?_
  unfold shift3
  rw [if_neg (by omega), show 3 + j - 3 = j by omega]

theorem curlStiff_sym (rd n : Nat) (cell : Elem P K) : SymOn n (block (curlStiff rd cell) 3 3) := by
  intro i _ j _
  unfold block curlStiff
  rw [accumDot_eq, accumDot_eq]
  exact quad_congr fun q _ => dot_comm _ _ _

theorem app_curlStiff {rd : Nat} (hb : 0 < (cell.basis rd).size) (r : Nat → K) (i : Nat) :
    app (3 * (cell.basis rd).size - 3) (block (curlStiff rd cell) 3 3) r i =
      quad (cell.integrate (2 * rd)) fun x =>
        dot 3 (vecCurl (cell.basis rd) x (3 + i)) (evalCurl (cell.basis rd) (shift3 r) x) := by
  simp only [← evalCurl_tail hb]
  rw [quad_sum]
  unfold app block curlStiff
  refine sum_congr rfl fun j _ => ?_
  rw [accumDot_eq, quad_mul, mul_comm]

theorem app_curlFaces (fr : Frames P K) (rd fd : Nat) (rb cb : Basis P K) {n : Nat} (hcb : 3 * cb.size ≤ n) (u : Nat → K)
    {i : Nat} (hi : i < 3 * rb.size - 3) (fs : List (Face P K)) (off : Nat) (M : Mat K) (ho : off + tanDofs fd fs ≤ n) :
    app n (curlFaces fr rd fd rb cb fs off M) u i = app n M u i +
      tanSum 2 fd (fun f o => quad (f.integrate (2 * rd)) fun x =>
        dot 3 (cross (vecCurl rb x (3 + i)) f.normal)
          fun c => evalTan (fr f) (f.basis fd) (seg o u) x c - evalVec 3 cb u x c) fs off := by
  induction fs generalizing off M with
  | nil => simp [curlFaces, tanSum]
  | cons f fs ih =>
    rw [tanDofs_cons] at ho
    rw [curlFaces, ih _ _ (by omega), tanSum, ← add_assoc]
    congr 1
    generalize f.integrate (2 * rd) = qs
    induction qs generalizing M with
    | nil => simp [quad]
    | cons q qs ihq =>
      rw [List.foldl_cons, ihq, app_addBlock (by omega), app_subBlock (by omega), quad_cons, if_pos (by omega),
        if_pos (by omega), seg_zero]
      have h1 : ∀ (g : Nat → Nat → K) (w : Nat → K) (m : Nat),
          app m (fun i j => q.w * dot 3 (cross (vecCurl rb q.pt (3 + i)) f.normal) (g j)) w (i - 0) =
          q.w * ∑ j ∈ range m, w j * dot 3 (cross (vecCurl rb q.pt (3 + i)) f.normal) (g j) := by
        intro g w m
        unfold app
        rw [mul_sum]
        exact sum_congr rfl fun j _ => by rw [Nat.sub_zero]; ring
      rw [h1, h1, sum_vec, sum_tan]
      have e : ∀ (a b d : Nat → K), dot 3 a (fun c => b c - d c) = dot 3 a b - dot 3 a d := by
        intro a b d
        simp only [dot3]
        ring
      rw [e]
      ring

theorem app_curlRhs {fr : Frames P K} {rd cd fd : Nat} (hcd : cd ≤ rd) (hnest : Nested cell) (u : Nat → K)
    {i : Nat} (hi : i < 3 * (cell.basis rd).size - 3) :
    app (3 * (cell.basis cd).size + tanDofs fd faces) (curlRhs fr rd cd fd cell faces) u i =
      quad (cell.integrate (2 * rd)) (fun x => dot 3 (vecCurl (cell.basis rd) x (3 + i)) (evalCurl (cell.basis cd) u x)) +
      tanSum 2 fd (fun f o => quad (f.integrate (2 * rd)) fun x =>
        dot 3 (cross (vecCurl (cell.basis rd) x (3 + i)) f.normal)
          fun c => evalTan (fr f) (f.basis fd) (seg o u) x c - evalVec 3 (cell.basis cd) u x c) faces
        (3 * (cell.basis cd).size) := by
  obtain ⟨hsz, hb⟩ := hnest cd rd hcd
  unfold curlRhs
  rw [app_curlFaces fr rd fd _ _ (by omega) u hi _ _ _ (le_refl _)]
  congr 1
  have e : ∀ j < 3 * (cell.basis cd).size + tanDofs fd faces,
      setBlock zero 0 0 (3 * (cell.basis rd).size - 3) (3 * (cell.basis cd).size) (block (curlStiff rd cell) 3 0) i j =
      addBlock zero 0 0 (3 * (cell.basis rd).size - 3) (3 * (cell.basis cd).size) (block (curlStiff rd cell) 3 0) i j := by
    intro j _
    unfold setBlock addBlock zero
    split_ifs <;> simp
  rw [app_congr e fun _ _ => rfl, app_addBlock (by omega), app_zero, if_pos (by omega), seg_zero, zero_add, Nat.sub_zero]
  simp only [← evalCurl_sum]
  rw [quad_sum]
  unfold app block curlStiff
  refine sum_congr rfl fun j hj => ?_
  rw [accumDot_eq, quad_mul, mul_comm, Nat.zero_add]
  congr 2
  funext x
  congr 1
  funext c
  have hj3 : j / 3 < (cell.basis cd).size := div_lt_of_lt_mul (mem_range.1 hj)
  unfold vecCurl
  rw [(hb _ hj3 x).2]

section
variable (C : PolyCell 3 cell faces N)

theorem evalCurl_mem (k : Nat) (u : Nat → K) (c : Nat) : (fun x => evalCurl (cell.basis k) u x c) ∈ C.V (k - 1) :=
  Submodule.sub_mem _ (evalGrad_mem C k _ (Nat.mod_lt _ (by omega))) (evalGrad_mem C k _ (Nat.mod_lt _ (by omega)))

/-- The curl of a basis function as the curl of a coefficient vector. -/
theorem vecCurl_eval (b : Basis P K) (x : P) {i : Nat} (hi : i < 3 * b.size) {c : Nat} (hc : c < 3) :
    vecCurl b x i c = evalCurl b (fun j => if j = i then 1 else 0) x c := by
  have := evalCurl_sum b (fun j => if j = i then 1 else 0) (fun e => if e = c then 1 else 0) x
  simp only [ite_mul, one_mul, zero_mul] at this
  rw [sum_ite_eq', if_pos (mem_range.2 hi)] at this
  unfold dot at this
  simp only [ite_mul, one_mul, zero_mul] at this
  rw [sum_ite_eq', sum_ite_eq', if_pos (mem_range.2 hc), if_pos (mem_range.2 hc)] at this
  exact this

theorem vecCurl_mem (k : Nat) {i : Nat} (hi : i < 3 * (cell.basis k).size) {c : Nat} (hc : c < 3) :
    (fun x => vecCurl (cell.basis k) x i c) ∈ C.V (k - 1) := by
  simp only [fun x => vecCurl_eval (cell.basis k) x hi hc]
  exact evalCurl_mem C k _ c

include C in
/-- The first three functions are constant. -/
theorem vecCurl_const (k : Nat) {i : Nat} (hi : i < 3) (x : P) (c : Nat) : vecCurl (cell.basis k) x i c = 0 := by
  unfold vecCurl
  rw [show i / 3 = 0 by omega]
  simp only [C.grad_one, neg_zero]
  simp

theorem cross_const (n : Nat → K) {w : Nat → K} (h : ∀ c < 3, w c = 0) (q : Nat → K) : dot 3 (cross w n) q = 0 := by
  rw [dot3, cross0, cross1, cross2, h 0 (by omega), h 1 (by omega), h 2 (by omega)]
  ring

theorem OnV_cross {f : Face P K} (hf : f ∈ faces) {m k : Nat} {w q : P → Nat → K} (hw : ∀ c < 3, (fun x => w x c) ∈ C.V m)
    (hq : ∀ c < 3, OnV C f k fun x => q x c) : OnV C f (m + k) fun x => dot 3 (cross (w x) f.normal) (q x) := by
  unfold dot
  refine OnV_sum1 C fun c hc => OnV.mul C (OnV.of_mem C ?_) (hq c (mem_range.1 hc))
  unfold cross
  exact Submodule.sub_mem _ (smul_mem_right C _ (hw _ (Nat.mod_lt _ (by omega))))
    (smul_mem_right C _ (hw _ (Nat.mod_lt _ (by omega))))

theorem curlRhs_exact {fr : Frames P K} {rd cd fd : Nat} (hrd : 0 < rd) (hcd : cd ≤ rd) (hnest : Nested cell) (hN : 2 * rd ≤ N)
    (hfd : fd ≤ rd + 1) (u : Nat → K) {i : Nat} (hi : i < 3 * (cell.basis rd).size - 3) :
    app (3 * (cell.basis cd).size + tanDofs fd faces) (curlRhs fr rd cd fd cell faces) u i =
      C.IT (fun x => dot 3 (vecCurl (cell.basis rd) x (3 + i)) (evalCurl (cell.basis cd) u x)) +
      tanSum 2 fd (fun f o => C.IF f fun x => dot 3 (cross (vecCurl (cell.basis rd) x (3 + i)) f.normal)
          fun c => evalTan (fr f) (f.basis fd) (seg o u) x c - evalVec 3 (cell.basis cd) u x c) faces
        (3 * (cell.basis cd).size) := by
  have hpos := C.cell_pos rd
  have hi3 : 3 + i < 3 * (cell.basis rd).size := by omega
  rw [app_curlRhs hcd hnest u hi]
  congr 1
  · exact cell_quad C (n := rd - 1 + (cd - 1)) (by omega) hN
      (dot_mem C (fun c hc => vecCurl_mem C rd hi3 hc) fun c _ => evalCurl_mem C cd u c)
  · refine tanSum_congr (fun f hf o => ?_) _
    have h := OnV_cross C hf (m := rd - 1) (k := max cd fd) (fun c hc => vecCurl_mem C rd hi3 hc)
      (q := fun x c => evalTan (fr f) (f.basis fd) (seg o u) x c - evalVec 3 (cell.basis cd) u x c)
      fun c hc => OnV.sub C (OnV.mono C (by omega) (OnV_evalTan C hf _ fd _ c))
        (OnV.mono C (by omega) (OnV.of_mem C (evalFn_mem C cd _)))
    exact face_quad C hf (n := rd - 1 + max cd fd) (by omega) hN h

theorem curlStiff_exact {rd : Nat} (hN : 2 * rd ≤ N) (r : Nat → K) {i : Nat} (hi : i < 3 * (cell.basis rd).size - 3) :
    app (3 * (cell.basis rd).size - 3) (block (curlStiff rd cell) 3 3) r i =
      C.IT fun x => dot 3 (vecCurl (cell.basis rd) x (3 + i)) (evalCurl (cell.basis rd) (shift3 r) x) := by
  rw [app_curlStiff (C.cell_pos rd)]
  exact cell_quad C (n := rd - 1 + (rd - 1)) (by omega) hN
    (dot_mem C (fun c hc => vecCurl_mem C rd (by omega) hc) fun c _ => evalCurl_mem C rd _ c)

/-- Pairing the rows of the right-hand side with coefficients. -/
theorem curlRhs_pair {fr : Frames P K} {rd cd fd : Nat} (hrd : 0 < rd) (hcd : cd ≤ rd) (hnest : Nested cell)
    (hN : 2 * rd ≤ N) (hfd : fd ≤ rd + 1) (u t : Nat → K) :
    ∑ i ∈ range (3 * (cell.basis rd).size - 3),
        app (3 * (cell.basis cd).size + tanDofs fd faces) (curlRhs fr rd cd fd cell faces) u i * t i =
      C.IT (fun x => dot 3 (evalCurl (cell.basis rd) (shift3 t) x) (evalCurl (cell.basis cd) u x)) +
      tanSum 2 fd (fun f o => C.IF f fun x => dot 3 (cross (evalCurl (cell.basis rd) (shift3 t) x) f.normal)
          fun c => evalTan (fr f) (f.basis fd) (seg o u) x c - evalVec 3 (cell.basis cd) u x c) faces
        (3 * (cell.basis cd).size) := by
  rw [sum_congr rfl fun i hi => by rw [curlRhs_exact C hrd hcd hnest hN hfd u (mem_range.1 hi), add_mul], sum_add_distrib]
  congr 1
  · rw [sum_congr rfl fun i _ => mul_comm _ _, ← IT_sum]
    congr 1
    funext x
    rw [dot_comm, ← evalCurl_tail (C.cell_pos rd)]
    exact sum_congr rfl fun i _ => by rw [dot_comm]
  · have hs : ∀ (g : Face P K → Nat → Nat → K) (fs : List (Face P K)) (o n : Nat),
        ∑ i ∈ range n, tanSum 2 fd (fun f o => g f o i) fs o * t i =
          tanSum 2 fd (fun f o => ∑ i ∈ range n, t i * g f o i) fs o := by
      intro g fs o n
      induction fs generalizing o with
      | nil => simp [tanSum]
      | cons f fs ih =>
        simp only [tanSum, add_mul, sum_add_distrib]
        rw [ih]
        congr 1
        exact sum_congr rfl fun i _ => mul_comm _ _
    rw [hs fun f o i => C.IF f fun x => dot 3 (cross (vecCurl (cell.basis rd) x (3 + i)) f.normal)
      fun c => evalTan (fr f) (f.basis fd) (seg o u) x c - evalVec 3 (cell.basis cd) u x c]
    refine tanSum_congr (fun f _ o => ?_) _
    rw [← IF_sum]
    congr 1
    funext x
    -- `(w × n)·q = w·(n × q)`
    have hx : ∀ w q : Nat → K, dot 3 (cross w f.normal) q = dot 3 (cross f.normal q) w := by
      intro w q
      simp only [dot3, cross0, cross1, cross2]
      ring
    simp only [hx]
    exact evalCurl_tail (C.cell_pos rd) t _ x

include C in
theorem app_curlRec {fr : Frames P K} (S : RankSolver K) {rd cd fd : Nat} (hrd : 0 < rd) (hcd : cd ≤ rd)
    (hnest : Nested cell) (hN : 2 * rd ≤ N) (hfd : fd ≤ rd + 1) (hk : CurlKernel rd cell) (u : Nat → K) {i : Nat}
    (hi : i < 3 * (cell.basis rd).size - 3) :
    app (3 * (cell.basis rd).size - 3) (block (curlStiff rd cell) 3 3)
      (app (3 * (cell.basis cd).size + tanDofs fd faces) (curlRec fr rd cd fd S cell faces).1 u) i =
      app (3 * (cell.basis cd).size + tanDofs fd faces) (curlRhs fr rd cd fd cell faces) u i := by
  set n := 3 * (cell.basis rd).size - 3 with hn
  set m := 3 * (cell.basis cd).size + tanDofs fd faces with hm
  have hsolve : ∀ j < m, ∑ k ∈ range n, block (curlStiff rd cell) 3 3 i k * (curlRec fr rd cd fd S cell faces).1 k j =
      curlRhs fr rd cd fd cell faces i j := by
    intro j hj
    refine S.solves n (block (curlStiff rd cell) 3 3) (fun r => curlRhs fr rd cd fd cell faces r j) ?_ i hi
    refine exists_solution_of_kernel (curlStiff_sym rd n cell) fun t ht => ?_
    have e : ∀ r, curlRhs fr rd cd fd cell faces r j =
        app m (curlRhs fr rd cd fd cell faces) (fun k => if k = j then 1 else 0) r := by
      intro r
      unfold app
      simp only [mul_ite, mul_one, mul_zero]
      rw [sum_ite_eq', if_pos (mem_range.2 hj)]
    rw [sum_congr rfl fun r _ => by rw [e r], curlRhs_pair C hrd hcd hnest hN hfd]
    have hz := hk t ht
    have h1 : ∀ (x : P) (q : Nat → K), dot 3 (evalCurl (cell.basis rd) (shift3 t) x) q = 0 := by
      intro x q
      rw [dot3, hz x 0 (by omega), hz x 1 (by omega), hz x 2 (by omega)]
      ring
    simp only [h1, fun (f : Face P K) x q => cross_const f.normal (hz x) q]
    have h2 : ∀ f : Face P K, C.IF f (fun _ => 0) = 0 := fun f => map_zero (C.IF f)
    simp only [h2]
    rw [IT_zero, tanSum_const]
    simp
  change app n _ (app m _ u) i = _
  unfold app
  simp only [mul_sum]
  rw [sum_comm]
  refine sum_congr rfl fun j hj => ?_
  rw [← hsolve j (mem_range.1 hj), sum_mul]
  exact sum_congr rfl fun k _ => by ring

/-- Integration by parts for fields given by coefficients. -/
theorem curl_parts_eval {m pd : Nat} (hP : Parts C m pd) (w a : Nat → K) :
    C.IT (fun x => dot 3 (evalVec 3 (cell.basis m) w x) (evalCurl (cell.basis pd) a x)) =
      C.IT (fun x => dot 3 (evalCurl (cell.basis m) w x) (evalVec 3 (cell.basis pd) a x)) +
        (faces.map fun f => C.IF f fun x =>
          dot 3 (cross (evalVec 3 (cell.basis m) w x) f.normal) (evalVec 3 (cell.basis pd) a x)).sum := by
  have e1 : (fun x => dot 3 (evalVec 3 (cell.basis m) w x) (evalCurl (cell.basis pd) a x)) = fun x =>
      ∑ i ∈ range (3 * (cell.basis m).size), w i *
        dot 3 (vecFn 3 (cell.basis m) x i) (evalCurl (cell.basis pd) a x) := by
    funext x
    rw [dot_comm, ← sum_vec]
    exact sum_congr rfl fun i _ => by rw [dot_comm]
  have e2 : (fun x => dot 3 (evalCurl (cell.basis m) w x) (evalVec 3 (cell.basis pd) a x)) = fun x =>
      ∑ i ∈ range (3 * (cell.basis m).size), w i *
        dot 3 (vecCurl (cell.basis m) x i) (evalVec 3 (cell.basis pd) a x) := by
    funext x
    rw [dot_comm, ← evalCurl_sum]
    exact sum_congr rfl fun i _ => by rw [dot_comm]
  have hx : ∀ n v q : Nat → K, dot 3 (cross v n) q = dot 3 (cross n q) v := by
    intro n v q
    simp only [dot3, cross0, cross1, cross2]
    ring
  have e3 : ∀ f : Face P K, (fun x => dot 3 (cross (evalVec 3 (cell.basis m) w x) f.normal)
      (evalVec 3 (cell.basis pd) a x)) = fun x => ∑ i ∈ range (3 * (cell.basis m).size), w i *
        dot 3 (cross (vecFn 3 (cell.basis m) x i) f.normal) (evalVec 3 (cell.basis pd) a x) := by
    intro f
    funext x
    simp only [hx f.normal]
    rw [sum_vec]
  rw [e1, e2, IT_sum, IT_sum]
  simp only [e3, IF_sum]
  have hs : ∀ fs : List (Face P K), (fs.map fun f => ∑ i ∈ range (3 * (cell.basis m).size), w i * C.IF f fun x =>
      dot 3 (cross (vecFn 3 (cell.basis m) x i) f.normal) (evalVec 3 (cell.basis pd) a x)).sum =
      ∑ i ∈ range (3 * (cell.basis m).size), w i * (fs.map fun f => C.IF f fun x =>
        dot 3 (cross (vecFn 3 (cell.basis m) x i) f.normal) (evalVec 3 (cell.basis pd) a x)).sum := by
    intro fs
    induction fs with
    | nil => simp
    | cons f fs ih => simp only [List.map_cons, List.sum_cons, mul_add, sum_add_distrib, ih]
  rw [hs, ← sum_add_distrib]
  refine sum_congr rfl fun i hi => ?_
  rw [curl_parts C hP (mem_range.1 hi), mul_add]

include C in
/-- The curl of a basis function, as a field given by coefficients of one degree less. -/
theorem vecCurl_span (rd : Nat) {i : Nat} (hi : i < 3 * (cell.basis rd).size) :
    ∃ w : Nat → K, ∀ x, ∀ c < 3, vecCurl (cell.basis rd) x i c = evalVec 3 (cell.basis (rd - 1)) w x c := by
  choose! g hg using fun c (hc : c < 3) => C.cell_span (rd - 1) _ (vecCurl_mem C rd hi hc)
  refine ⟨fun j => g (j % 3) (j / 3), fun x c hc => ?_⟩
  rw [hg c hc x]
  unfold evalVec comp
  congr 1
  funext k
  dsimp only
  rw [(divmod_add hc).1, (divmod_add hc).2]

theorem dot_congr3 {a a' b b' : Nat → K} (ha : ∀ c < 3, a c = a' c) (hb : ∀ c < 3, b c = b' c) : dot 3 a b = dot 3 a' b' := by
  simp only [dot3]
  rw [ha 0 (by omega), ha 1 (by omega), ha 2 (by omega), hb 0 (by omega), hb 1 (by omega), hb 2 (by omega)]

theorem cross_congr3 {a a' : Nat → K} (ha : ∀ c < 3, a c = a' c) (n : Nat → K) (c : Nat) : cross a n c = cross a' n c := by
  unfold cross
  rw [ha _ (Nat.mod_lt _ (by omega)), ha _ (Nat.mod_lt _ (by omega))]

end

/-! ### Stabilization -/

/-- The difference `u_F - π_F u_T` of one face. -/
def jumpOf (S : Solver K) (nf nc off : Nat) (m trace : Mat K) (u : Nat → K) : Nat → K :=
  fun k => u (off + k) - app nc (S.solveMat nf m trace) u k

theorem form_jumpTerm (S : Solver K) {nf nc off n : Nat} {m trace : Mat K} (ho : off + nf ≤ n) (hc : nc ≤ off)
    (v u : Nat → K) :
    form n (jumpTerm S nf nc off m trace) v u =
      ∑ k ∈ range nf, jumpOf S nf nc off m trace v k * app nf m (jumpOf S nf nc off m trace u) k := by
  set R : Mat K := setBlock (setBlock zero 0 off nf nf ident) 0 0 nf nc (negMat (S.solveMat nf m trace)) with hR
  have h1 : ∀ (w : Nat → K) (i : Nat), i < nf → app n R w i = jumpOf S nf nc off m trace w i := by
    intro w i hi
    rw [hR, app_setBlocks ho hc _ _ w hi, app_ident hi, app_negMat, jumpOf]
    simp only [seg]
    ring
  have h2 : ∀ i, app n (jumpTerm S nf nc off m trace) u i =
      ∑ k ∈ range nf, R k i * app nf m (app n R u) k := by
    intro i
    change app n (mul nf (mul nf (tpose R) m) R) u i = _
    rw [app_mul, app_mul]
    rfl
  unfold form
  simp only [h2, mul_sum]
  rw [sum_comm]
  refine sum_congr rfl fun k hk => ?_
  rw [← h1 v k (mem_range.1 hk), show app nf m (jumpOf S nf nc off m trace u) k = app nf m (app n R u) k from
    app_congr (fun _ _ => rfl) fun j hj => (h1 u j hj).symm, show app n R v k = ∑ i ∈ range n, R k i * v i from rfl,
    sum_mul]
  exact sum_congr rfl fun i _ => by ring

theorem form_massOper {cd n : Nat} {cell : Elem P K} (hn : 3 * (cell.basis cd).size ≤ n) (v u : Nat → K) :
    form n (massOper cd cell) v u = quad (cell.integrate (2 * cd + 2)) fun x =>
      dot 3 (evalVec 3 (cell.basis cd) v x) (evalVec 3 (cell.basis cd) u x) := by
  unfold form massOper
  obtain ⟨m, rfl⟩ := Nat.exists_eq_add_of_le hn
  rw [sum_range_add, sum_eq_zero (s := range m) fun i _ => ?_, add_zero]
  · rw [sum_congr rfl fun i hi => by
      rw [app_kerAdd (by omega) u (mem_range.1 hi), app_zero, zero_add, ← quad_mul], ← quad_sum]
    congr 1
    funext x
    rw [dot_comm, ← sum_vec]
    refine sum_congr rfl fun i _ => ?_
    rw [dot_comm, ← sum_vec, seg_zero]
  · generalize cell.integrate (2 * cd + 2) = qs
    have h : ∀ (qs : List (QP P K)) (M : Mat K), app (3 * (cell.basis cd).size + m) (kerAdd qs 0 (3 * (cell.basis cd).size)
        (3 * (cell.basis cd).size) (fun x i j => dot 3 (vecFn 3 (cell.basis cd) x i) (vecFn 3 (cell.basis cd) x j)) M) u
        (3 * (cell.basis cd).size + i) = app (3 * (cell.basis cd).size + m) M u (3 * (cell.basis cd).size + i) := by
      intro qs
      induction qs with
      | nil => exact fun _ => rfl
      | cons q qs ih =>
        intro M
        unfold kerAdd at ih ⊢
        rw [List.foldl_cons, ih, app_addBlock (by omega), if_neg (by omega), add_zero]
    rw [h, app_zero, mul_zero]

/-- `u_F - π_F u_T` of `curl_hdg_stabilization` in 3D. -/
def tanJump (S : Solver K) (fr : Frames P K) (cd fd : Nat) (cb : Basis P K) (f : Face P K) (off : Nat) (u : Nat → K) :
    Nat → K :=
  jumpOf S (2 * (f.basis fd).size) (3 * cb.size) off
    (accumDot 3 (f.integrate (2 * max cd fd + 2)) (tanFn (fr f) (f.basis fd)) (tanFn (fr f) (f.basis fd)))
    (accumDot 3 (f.integrate (2 * max cd fd + 2)) (tanFn (fr f) (f.basis fd))
      fun x j => cross f.normal (cross (vecFn 3 cb x j) f.normal)) u

theorem tanMass_sym (fr : Frames P K) (cd fd n : Nat) (f : Face P K) : SymOn n (tanMass fr cd fd f) := by
  intro i _ j _
  unfold tanMass
  rw [accumDot_eq, accumDot_eq]
  exact quad_congr fun q _ => dot_comm _ _ _

theorem app_tanMass (fr : Frames P K) (cd fd : Nat) (f : Face P K) (t : Nat → K) (i : Nat) :
    app (2 * (f.basis fd).size) (tanMass fr cd fd f) t i = quad (f.integrate (2 * max cd fd + 2)) fun x =>
      dot 3 (tanFn (fr f) (f.basis fd) x i) (evalTan (fr f) (f.basis fd) t x) := by
  simp only [← sum_tan]
  rw [quad_sum]
  unfold app tanMass
  refine sum_congr rfl fun j _ => ?_
  rw [accumDot_eq, quad_mul, mul_comm]

theorem form_curlHdgFaces (S : Solver K) (fr : Frames P K) (cd fd : Nat) (cb : Basis P K) {n : Nat} (v u : Nat → K)
    (fs : List (Face P K)) (off : Nat) (M : Mat K) (ho : off + tanDofs fd fs ≤ n) (hc : 3 * cb.size ≤ off) :
    form n (curlHdgFaces S fr cd fd cb fs off M) v u = form n M v u +
      tanSum 2 fd (fun f o => quad (f.integrate (2 * max cd fd + 2)) fun x =>
        dot 3 (evalTan (fr f) (f.basis fd) (tanJump S fr cd fd cb f o v) x)
          (evalTan (fr f) (f.basis fd) (tanJump S fr cd fd cb f o u) x)) fs off := by
  induction fs generalizing off M with
  | nil => simp [curlHdgFaces, tanSum]
  | cons f fs ih =>
    rw [tanDofs_cons] at ho
    rw [curlHdgFaces, ih _ _ (by omega) (by omega), form_addMat, tanSum, add_assoc]
    congr 2
    rw [form_jumpTerm S (by omega) hc]
    have e : ∀ k, app (2 * (f.basis fd).size) (accumDot 3 (f.integrate (2 * max cd fd + 2)) (tanFn (fr f) (f.basis fd))
        (tanFn (fr f) (f.basis fd))) (tanJump S fr cd fd cb f off u) k = _ :=
      fun k => app_tanMass fr cd fd f (tanJump S fr cd fd cb f off u) k
    change ∑ k ∈ range _, tanJump S fr cd fd cb f off v k * app _ _ (tanJump S fr cd fd cb f off u) k = _
    simp only [e, ← quad_mul]
    rw [← quad_sum]
    congr 1
    funext x
    rw [dot_comm, ← sum_tan]
    exact sum_congr rfl fun j _ => by rw [dot_comm]

section
variable (C : PolyCell 3 cell faces N)

theorem OnV_dotTan {f : Face P K} (hf : f ∈ faces) (e : Nat → K) {m k : Nat} (hk : k ≤ m) (i : Nat)
    (hi : i < (f.basis k).size) {q : P → Nat → K} (hq : ∀ c < 3, OnV C f m fun x => q x c) :
    OnV C f (k + m) fun x => (f.basis k).fn x i * dot 3 e (q x) := by
  refine OnV.mul C (OnV.fb C hf hi) ?_
  unfold dot
  exact OnV.sum C fun c hc => hq c (mem_range.1 hc)

/-- The jump is the tangential projection of `u_F - u_T`. -/
theorem tanJump_proj (S : Solver K) {fr : Frames P K} {cd fd : Nat} {f : Face P K} (hf : f ∈ faces)
    (hN : 2 * max cd fd + 2 ≤ N) (hfr : IsFrame f.normal (fr f))
    (hm : Nonsing (2 * (f.basis fd).size) (tanMass fr cd fd f)) (o : Nat) (u : Nat → K) {i : Nat}
    (hi : i < 2 * (f.basis fd).size) :
    C.IF f (fun x => dot 3 (tanFn (fr f) (f.basis fd) x i)
        (evalTan (fr f) (f.basis fd) (tanJump S fr cd fd (cell.basis cd) f o u) x)) =
      C.IF f (fun x => dot 3 (tanFn (fr f) (f.basis fd) x i)
        fun c => evalTan (fr f) (f.basis fd) (seg o u) x c - evalVec 3 (cell.basis cd) u x c) := by
  have hi2 : i / 2 < (f.basis fd).size := div_lt_of_lt_mul hi
  have hs : i % 2 < 2 := Nat.mod_lt _ (by omega)
  have hmass : ∀ t : Nat → K, app (2 * (f.basis fd).size) (tanMass fr cd fd f) t i =
      C.IF f fun x => dot 3 (tanFn (fr f) (f.basis fd) x i) (evalTan (fr f) (f.basis fd) t x) := by
    intro t
    rw [app_tanMass]
    simp only [dot_tanFn]
    exact face_quad C hf (n := fd + max cd fd) (by omega) (by omega)
      (OnV_dotTan C hf _ (by omega) _ hi2 fun c _ => OnV.mono C (by omega) (OnV_evalTan C hf _ fd _ c))
  rw [← hmass]
  set T := accumDot 3 (f.integrate (2 * max cd fd + 2)) (tanFn (fr f) (f.basis fd))
      (fun x j => cross f.normal (cross (vecFn 3 (cell.basis cd) x j) f.normal)) with hT
  have h1 : app (2 * (f.basis fd).size) (tanMass fr cd fd f) (tanJump S fr cd fd (cell.basis cd) f o u) i =
      app (2 * (f.basis fd).size) (tanMass fr cd fd f) (seg o u) i - app (3 * (cell.basis cd).size) T u i := by
    have := app_solveMat S (m := 3 * (cell.basis cd).size) (B := T) (tanMass_sym fr cd fd _ f) hm u hi
    rw [← this]
    unfold app tanJump jumpOf seg
    simp only [mul_sub, sum_sub_distrib, app]
    rfl
  have h2 : app (3 * (cell.basis cd).size) T u i = C.IF f fun x => dot 3 (tanFn (fr f) (f.basis fd) x i)
      (evalVec 3 (cell.basis cd) u x) := by
    have e : ∀ x, ∀ j, dot 3 (tanFn (fr f) (f.basis fd) x i)
        (cross f.normal (cross (vecFn 3 (cell.basis cd) x j) f.normal)) =
        dot 3 (tanFn (fr f) (f.basis fd) x i) (vecFn 3 (cell.basis cd) x j) := by
      intro x j
      rw [dot_tanFn, dot_tanFn, dot_tangent hfr.1 (frame_tangential hfr hs)]
    have h3 : app (3 * (cell.basis cd).size) T u i = quad (f.integrate (2 * max cd fd + 2)) fun x =>
        dot 3 (tanFn (fr f) (f.basis fd) x i) (evalVec 3 (cell.basis cd) u x) := by
      simp only [← sum_vec]
      rw [quad_sum]
      unfold app
      refine sum_congr rfl fun j _ => ?_
      rw [hT, accumDot_eq, quad_mul, mul_comm]
      simp only [e]
    rw [h3]
    simp only [dot_tanFn]
    exact face_quad C hf (n := fd + max cd fd) (by omega) (by omega)
      (OnV_dotTan C hf _ (by omega) _ hi2 fun c _ => OnV.mono C (by omega) (OnV.of_mem C (evalFn_mem C cd _)))
  rw [h1, h2, hmass, ← IF_sub]
  congr 1
  funext x
  simp only [dot3]
  ring

end

end Verif.Lemmas.Hho
