import Mathlib.Tactic.LinearCombination
import Mathlib.LinearAlgebra.Matrix.SemiringInverse
import Mathlib.LinearAlgebra.Matrix.NonsingularInverse
import Verif.Lemmas.HhoVector
import Verif.Lemmas.HhoStab
import Verif.Spec.HhoCurl
/-!
Helper lemmas for the curl operators.
-/
namespace Verif.Lemmas.Hho
open Finset Verif.Hho Verif.Spec.Hho LocalMatrix

variable {K P : Type} [Field K] {N : Nat} {cell : Elem P K} {faces : List (Face P K)}

/-! ### Vector algebra -/

theorem dot3 (a b : Nat → K) : dot 3 a b = a 0 * b 0 + a 1 * b 1 + a 2 * b 2 := by
  simp only [dot, sum_range_succ, range_zero, sum_empty, zero_add]

theorem cross0 (a b : Nat → K) : cross a b 0 = a 1 * b 2 - a 2 * b 1 := rfl
theorem cross1 (a b : Nat → K) : cross a b 1 = a 2 * b 0 - a 0 * b 2 := rfl
theorem cross2 (a b : Nat → K) : cross a b 2 = a 0 * b 1 - a 1 * b 0 := rfl

/-- Cyclic differences. -/
def cyc (k : Nat) (g p : Nat → K) : K := g ((k + 1) % 3) * p ((k + 2) % 3) - g ((k + 2) % 3) * p ((k + 1) % 3)

theorem dot_vecCurl (b : Basis P K) (x : P) (i : Nat) (p : Nat → K) :
    dot 3 (vecCurl b x i) p = -cyc (i % 3) (b.grad x (i / 3)) p := by
  have h : i % 3 = 0 ∨ i % 3 = 1 ∨ i % 3 = 2 := by omega
  rw [dot3]
  unfold vecCurl cyc
  rcases h with h | h | h <;> rw [h] <;> simp <;> ring

theorem dot_cross_vecFn (b : Basis P K) (x : P) (i : Nat) (n p : Nat → K) :
    dot 3 (cross (vecFn 3 b x i) n) p = b.fn x (i / 3) * cyc (i % 3) n p := by
  have h : i % 3 = 0 ∨ i % 3 = 1 ∨ i % 3 = 2 := by omega
  rw [dot3, cross0, cross1, cross2]
  unfold vecFn cyc
  rcases h with h | h | h <;> rw [h] <;> simp <;> ring

/-- The vector `e_k × n`. -/
def axisCross (k : Nat) (n : Nat → K) : Nat → K := cross (fun c => if c = k then 1 else 0) n

theorem cyc_axis {k : Nat} (hk : k < 3) (n p : Nat → K) : cyc k n p = dot 3 (axisCross k n) p := by
  unfold axisCross
  rw [dot3, cross0, cross1, cross2]
  unfold cyc
  interval_cases k <;> simp <;> ring

theorem axisCross_normal {k : Nat} (hk : k < 3) (n : Nat → K) : dot 3 (axisCross k n) n = 0 := by
  rw [← cyc_axis hk]
  unfold cyc
  ring

/-- An orthonormal frame resolves the identity. -/
theorem frame_complete {n : Nat → K} {e : Nat → Nat → K} (h : IsFrame n e) {i j : Nat} (hi : i < 3) (hj : j < 3) :
    e 0 i * e 0 j + e 1 i * e 1 j + n i * n j = if i = j then 1 else 0 := by
  obtain ⟨h1, h2, h3, h4, h5, h6⟩ := h
  simp only [dot3] at h1 h2 h3 h4 h5 h6
  let M : Matrix (Fin 3) (Fin 3) K := Matrix.of fun r c => (if r.1 = 0 then e 0 else if r.1 = 1 then e 1 else n) c.1
  have hM : M * M.transpose = 1 := by
    ext r c
    rw [Matrix.mul_apply, Fin.sum_univ_three]
    simp only [M, Matrix.of_apply, Matrix.transpose_apply]
    fin_cases r <;> fin_cases c <;> simp <;> first | assumption | linear_combination h4 | linear_combination h5 | linear_combination h6
  have hM' := mul_eq_one_comm.1 hM
  have := congrFun (congrFun hM' ⟨i, hi⟩) ⟨j, hj⟩
  rw [Matrix.mul_apply, Fin.sum_univ_three] at this
  simp only [M, Matrix.of_apply, Matrix.transpose_apply, Matrix.one_apply, Fin.mk.injEq] at this
  simpa using this

/-- A product with a tangential vector only sees the tangential components. -/
theorem frame_dot {n : Nat → K} {e : Nat → Nat → K} (h : IsFrame n e) {w : Nat → K} (hw : dot 3 w n = 0) (a : Nat → K) :
    dot 3 w a = ∑ s ∈ range 2, dot 3 w (e s) * dot 3 (e s) a := by
  have c := fun i (hi : i < 3) j (hj : j < 3) => frame_complete h hi hj
  have c00 := c 0 (by omega) 0 (by omega)
  have c01 := c 0 (by omega) 1 (by omega)
  have c02 := c 0 (by omega) 2 (by omega)
  have c11 := c 1 (by omega) 1 (by omega)
  have c12 := c 1 (by omega) 2 (by omega)
  have c22 := c 2 (by omega) 2 (by omega)
  simp only [if_true, if_neg (show (0 : Nat) ≠ 1 by omega), if_neg (show (0 : Nat) ≠ 2 by omega),
    if_neg (show (1 : Nat) ≠ 2 by omega)] at c00 c01 c02 c11 c12 c22
  simp only [sum_range_succ, range_zero, sum_empty, zero_add]
  simp only [dot3] at hw ⊢
  linear_combination (- w 0 * a 0) * c00 - (w 0 * a 1 + w 1 * a 0) * c01 - (w 0 * a 2 + w 2 * a 0) * c02 -
    w 1 * a 1 * c11 - (w 1 * a 2 + w 2 * a 1) * c12 - w 2 * a 2 * c22 + (a 0 * n 0 + a 1 * n 1 + a 2 * n 2) * hw

/-- `n × (a × n)` is `a` without its normal component. -/
theorem dot_tangent {n : Nat → K} (hn : dot 3 n n = 1) {w : Nat → K} (hw : dot 3 w n = 0) (a : Nat → K) :
    dot 3 w (cross n (cross a n)) = dot 3 w a := by
  rw [dot3] at hn hw
  simp only [dot3, cross0, cross1, cross2]
  linear_combination (w 0 * a 0 + w 1 * a 1 + w 2 * a 2) * hn - (n 0 * a 0 + n 1 * a 1 + n 2 * a 2) * hw

/-! ### Tangential bases -/

theorem sum_tan (e : Nat → Nat → K) (b : Basis P K) (u : Nat → K) (a : Nat → K) (x : P) :
    ∑ j ∈ range (2 * b.size), u j * dot 3 a (tanFn e b x j) = dot 3 a (evalTan e b u x) := by
  rw [sum_range_mul']
  have h : dot 3 a (evalTan e b u x) = ∑ s ∈ range 2, ∑ k ∈ range b.size, dot 3 a (e s) * (u (2 * k + s) * b.fn x k) := by
    have : ∀ s, ∑ k ∈ range b.size, dot 3 a (e s) * (u (2 * k + s) * b.fn x k) =
        dot 3 a (e s) * evalFn b (comp 2 s u) x := fun s => by
      rw [← mul_sum]
      rfl
    rw [sum_congr rfl fun s _ => this s]
    simp only [sum_range_succ, range_zero, sum_empty, zero_add, dot3, evalTan]
    ring
  rw [h, sum_comm]
  refine sum_congr rfl fun s hs => sum_congr rfl fun k _ => ?_
  have hs := mem_range.1 hs
  have : dot 3 a (tanFn e b x (2 * k + s)) = dot 3 a (e s) * b.fn x k := by
    rw [dot3, dot3]
    unfold tanFn
    rw [(divmod_add hs).1, (divmod_add hs).2]
    ring
  rw [this]
  ring

theorem dot_tanFn (e : Nat → Nat → K) (b : Basis P K) (x : P) (j : Nat) (a : Nat → K) :
    dot 3 (tanFn e b x j) a = b.fn x (j / 2) * dot 3 (e (j % 2)) a := by
  rw [dot3, dot3]
  unfold tanFn
  ring

theorem frame_evalTan {n : Nat → K} {e : Nat → Nat → K} (h : IsFrame n e) (b : Basis P K) (u : Nat → K) (x : P) {s : Nat}
    (hs : s < 2) : dot 3 (e s) (evalTan e b u x) = evalFn b (comp 2 s u) x := by
  obtain ⟨_, h2, h3, h4, _, _⟩ := h
  simp only [dot3] at *
  simp only [evalTan, sum_range_succ, range_zero, sum_empty, zero_add]
  interval_cases s
  · linear_combination evalFn b (comp 2 0 u) x * h2 + evalFn b (comp 2 1 u) x * h4
  · linear_combination evalFn b (comp 2 1 u) x * h3 + evalFn b (comp 2 0 u) x * h4

theorem evalTan_normal {n : Nat → K} {e : Nat → Nat → K} (h : IsFrame n e) (b : Basis P K) (u : Nat → K) (x : P) :
    dot 3 (evalTan e b u x) n = 0 := by
  obtain ⟨_, _, _, _, h5, h6⟩ := h
  simp only [dot3] at *
  simp only [evalTan, sum_range_succ, range_zero, sum_empty, zero_add]
  linear_combination evalFn b (comp 2 0 u) x * h5 + evalFn b (comp 2 1 u) x * h6

theorem frame_tangential {n : Nat → K} {e : Nat → Nat → K} (h : IsFrame n e) {s : Nat} (hs : s < 2) : dot 3 (e s) n = 0 := by
  obtain ⟨_, _, _, _, h5, h6⟩ := h
  interval_cases s <;> assumption

/-! ### Sums over the faces -/

theorem tanDofs_cons (fd : Nat) (f : Face P K) (fs : List (Face P K)) :
    tanDofs fd (f :: fs) = 2 * (f.basis fd).size + tanDofs fd fs := by simp [tanDofs]

theorem tanSum_congr {m fd : Nat} {g g' : Face P K → Nat → K} {fs : List (Face P K)}
    (h : ∀ f ∈ fs, ∀ o, g f o = g' f o) (off : Nat) : tanSum m fd g fs off = tanSum m fd g' fs off := by
  induction fs generalizing off with
  | nil => rfl
  | cons f fs ih =>
    simp only [tanSum]
    rw [h f List.mem_cons_self, ih fun f hf => h f (List.mem_cons_of_mem _ hf)]

theorem tanSum_congr_all {m fd : Nat} {g g' : Face P K → Nat → K} {p : Face P K → Nat → Prop} {fs : List (Face P K)}
    (h : ∀ f ∈ fs, ∀ o, p f o → g f o = g' f o) {off : Nat} (ha : tanAll m fd p fs off) :
    tanSum m fd g fs off = tanSum m fd g' fs off := by
  induction fs generalizing off with
  | nil => rfl
  | cons f fs ih =>
    simp only [tanSum]
    rw [h f List.mem_cons_self _ ha.1, ih (fun f hf => h f (List.mem_cons_of_mem _ hf)) ha.2]

theorem tanSum_const (m fd : Nat) (g : Face P K → K) (fs : List (Face P K)) (off : Nat) :
    tanSum m fd (fun f _ => g f) fs off = (fs.map g).sum := by
  induction fs generalizing off with
  | nil => rfl
  | cons f fs ih => simp only [tanSum, ih, List.map_cons, List.sum_cons]

theorem tanSum_sub (m fd : Nat) (g g' : Face P K → Nat → K) (fs : List (Face P K)) (off : Nat) :
    tanSum m fd (fun f o => g f o - g' f o) fs off = tanSum m fd g fs off - tanSum m fd g' fs off := by
  induction fs generalizing off with
  | nil => simp [tanSum]
  | cons f fs ih =>
    simp only [tanSum]
    rw [ih]
    ring

theorem tanAll_mono {m fd : Nat} {p p' : Face P K → Nat → Prop} {fs : List (Face P K)}
    (h : ∀ f ∈ fs, ∀ o, p f o → p' f o) {off : Nat} (ha : tanAll m fd p fs off) : tanAll m fd p' fs off := by
  induction fs generalizing off with
  | nil => trivial
  | cons f fs ih =>
    exact ⟨h f List.mem_cons_self _ ha.1, ih (fun f hf => h f (List.mem_cons_of_mem _ hf)) ha.2⟩

theorem tanAll_of_forall {m fd : Nat} {p : Face P K → Nat → Prop} {fs : List (Face P K)}
    (h : ∀ f ∈ fs, ∀ o, p f o) (off : Nat) : tanAll m fd p fs off := by
  induction fs generalizing off with
  | nil => trivial
  | cons f fs ih => exact ⟨h f List.mem_cons_self _, ih (fun f hf => h f (List.mem_cons_of_mem _ hf)) _⟩

/-! ### `curl_reconstruction_pk` -/

theorem curlPkLhs_sym (rd cd n : Nat) (cell : Elem P K) : SymOn n (curlPkLhs rd cd cell) := by
  intro i _ j _
  unfold curlPkLhs
  rw [accumDot_eq, accumDot_eq]
  exact quad_congr fun q _ => dot_comm _ _ _

theorem app_curlPkLhs (rd cd : Nat) (cell : Elem P K) (t : Nat → K) (i : Nat) :
    app (3 * (cell.basis rd).size) (curlPkLhs rd cd cell) t i = quad (cell.integrate (2 * cd + 2)) fun x =>
      dot 3 (vecFn 3 (cell.basis rd) x i) (evalVec 3 (cell.basis rd) t x) := by
  simp only [← sum_vec]
  rw [quad_sum]
  unfold app curlPkLhs
  refine sum_congr rfl fun j _ => ?_
  rw [accumDot_eq, quad_mul, mul_comm]

theorem app_curlPkFaces (fr : Frames P K) (rd fd : Nat) (rb : Basis P K) {n : Nat} (u : Nat → K) {i : Nat}
    (hi : i < 3 * rb.size) (fs : List (Face P K)) (off : Nat) (M : Mat K) (ho : off + tanDofs fd fs ≤ n) :
    app n (curlPkFaces fr rd fd rb fs off M) u i = app n M u i +
      tanSum 2 fd (fun f o => quad (f.integrate (2 * rd + 2)) fun x =>
        dot 3 (cross (vecFn 3 rb x i) f.normal) (evalTan (fr f) (f.basis fd) (seg o u) x)) fs off := by
  induction fs generalizing off M with
  | nil => simp [curlPkFaces, tanSum]
  | cons f fs ih =>
    rw [tanDofs_cons] at ho
    rw [curlPkFaces, ih _ _ (by omega), tanSum, app_kerAdd (by omega) u hi, add_assoc]
    simp only [sum_tan]

theorem app_curlPkRhs (fr : Frames P K) (rd cd fd : Nat) (cell : Elem P K) (faces : List (Face P K)) (u : Nat → K)
    {i : Nat} (hi : i < 3 * (cell.basis rd).size) :
    app (3 * (cell.basis cd).size + tanDofs fd faces) (curlPkRhs fr rd cd fd cell faces) u i =
      quad (cell.integrate (2 * cd + 2)) (fun x =>
        dot 3 (vecCurl (cell.basis rd) x i) (evalVec 3 (cell.basis cd) u x)) +
      tanSum 2 fd (fun f o => quad (f.integrate (2 * rd + 2)) fun x =>
        dot 3 (cross (vecFn 3 (cell.basis rd) x i) f.normal) (evalTan (fr f) (f.basis fd) (seg o u) x)) faces
        (3 * (cell.basis cd).size) := by
  unfold curlPkRhs
  rw [app_curlPkFaces fr rd fd _ u hi _ _ _ (le_refl _), app_kerAdd (by omega) u hi, app_zero, zero_add, seg_zero]
  simp only [sum_vec]

section
variable (C : PolyCell 3 cell faces N)

theorem IT_sub (v w : P → K) : C.IT (fun x => v x - w x) = C.IT v - C.IT w := map_sub _ _ _
theorem IT_neg (v : P → K) : C.IT (fun x => -v x) = -C.IT v := map_neg _ _

theorem curlPkLhs_exact {rd cd : Nat} (hN : 2 * cd + 2 ≤ N) (hrd : rd ≤ cd + 1) (t : Nat → K) {i : Nat}
    (hi : i < 3 * (cell.basis rd).size) :
    app (3 * (cell.basis rd).size) (curlPkLhs rd cd cell) t i =
      C.IT fun x => dot 3 (vecFn 3 (cell.basis rd) x i) (evalVec 3 (cell.basis rd) t x) := by
  rw [app_curlPkLhs]
  simp only [dot_vecFn (show 0 < 3 by omega)]
  exact cell_quad C (n := rd + rd) (by omega) hN
    (mul_mem' C (C.cell_mem rd _ (div_lt_of_lt_mul hi)) (evalFn_mem C rd _))

theorem cyc_mem {m n : Nat} {g p : P → Nat → K} (hg : ∀ c < 3, (fun x => g x c) ∈ C.V m)
    (hp : ∀ c < 3, (fun x => p x c) ∈ C.V n) (k : Nat) : (fun x => cyc k (g x) (p x)) ∈ C.V (m + n) :=
  Submodule.sub_mem _ (mul_mem' C (hg _ (Nat.mod_lt _ (by omega))) (hp _ (Nat.mod_lt _ (by omega))))
    (mul_mem' C (hg _ (Nat.mod_lt _ (by omega))) (hp _ (Nat.mod_lt _ (by omega))))

theorem OnV_sum1 {f : Face P K} {n : Nat} {s : Finset Nat} {v : Nat → P → K} (h : ∀ j ∈ s, OnV C f n (v j)) :
    OnV C f n fun x => ∑ j ∈ s, v j x := by
  have := OnV.sum C (a := fun _ => 1) h
  simpa only [one_mul] using this

theorem OnV_evalTan {f : Face P K} (hf : f ∈ faces) (e : Nat → Nat → K) (k : Nat) (u : Nat → K) (c : Nat) :
    OnV C f k (fun x => evalTan e (f.basis k) u x c) := by
  unfold evalTan
  exact OnV.sum C fun s _ => OnV.evalFb C hf k (comp 2 s u)

theorem curlPkRhs_exact {fr : Frames P K} {rd cd fd : Nat} (hN : 2 * cd + 2 ≤ N) (hNf : 2 * rd + 2 ≤ N)
    (hrd : rd ≤ cd + 3) (hfd : fd ≤ rd + 2) (u : Nat → K) {i : Nat} (hi : i < 3 * (cell.basis rd).size) :
    app (3 * (cell.basis cd).size + tanDofs fd faces) (curlPkRhs fr rd cd fd cell faces) u i =
      C.IT (fun x => dot 3 (vecCurl (cell.basis rd) x i) (evalVec 3 (cell.basis cd) u x)) +
      tanSum 2 fd (fun f o => C.IF f fun x =>
        dot 3 (cross (vecFn 3 (cell.basis rd) x i) f.normal) (evalTan (fr f) (f.basis fd) (seg o u) x)) faces
        (3 * (cell.basis cd).size) := by
  have hi' := div_lt_of_lt_mul hi
  rw [app_curlPkRhs fr rd cd fd cell faces u hi]
  congr 1
  · refine cell_quad C (n := rd - 1 + cd) (by omega) (by omega) ?_
    simp only [dot_vecCurl]
    exact Submodule.neg_mem _ (cyc_mem C (fun c hc => C.grad_mem rd _ hi' c hc) (fun c _ => evalFn_mem C cd _) _)
  · refine tanSum_congr (fun f hf o => ?_) _
    refine face_quad C hf (n := rd + fd) (by omega) (by omega) ?_
    have : (fun x => dot 3 (cross (vecFn 3 (cell.basis rd) x i) f.normal) (evalTan (fr f) (f.basis fd) (seg o u) x)) =
        fun x => ∑ c ∈ range 3, (cell.basis rd).fn x (i / 3) * axisCross (i % 3) f.normal c *
          evalTan (fr f) (f.basis fd) (seg o u) x c := by
      funext x
      rw [dot_cross_vecFn, cyc_axis (Nat.mod_lt _ (by omega))]
      unfold dot
      rw [mul_sum]
      exact sum_congr rfl fun c _ => by ring
    rw [this]
    exact OnV_sum1 C fun c _ => OnV.mul C (OnV.of_mem C (smul_mem_right C _ (C.cell_mem rd _ hi')))
      (OnV_evalTan C hf _ fd _ c)

/-- Integration by parts for the curl: `(τ, curl p)_T = (curl τ, p)_T + Σ (τ × n, p)_F`. -/
theorem curl_parts {rd pd : Nat} (hP : Parts C rd pd) {i : Nat} (hi : i < 3 * (cell.basis rd).size) (a : Nat → K) :
    C.IT (fun x => dot 3 (vecFn 3 (cell.basis rd) x i) (evalCurl (cell.basis pd) a x)) =
      C.IT (fun x => dot 3 (vecCurl (cell.basis rd) x i) (evalVec 3 (cell.basis pd) a x)) +
        (faces.map fun f => C.IF f fun x =>
          dot 3 (cross (vecFn 3 (cell.basis rd) x i) f.normal) (evalVec 3 (cell.basis pd) a x)).sum := by
  have hi' := div_lt_of_lt_mul hi
  simp only [dot_vecFn (show 0 < 3 by omega), dot_vecCurl, dot_cross_vecFn]
  set k := i % 3
  unfold evalCurl cyc evalVec
  simp only [mul_sub, IT_sub, IT_neg, IF_sub]
  rw [parts_eval C hP hi' (Nat.mod_lt _ (by omega)), parts_eval C hP hi' (Nat.mod_lt _ (by omega))]
  have hs : ∀ (g g' : Face P K → K) (fs : List (Face P K)),
      (fs.map fun f => g f - g' f).sum = (fs.map g).sum - (fs.map g').sum := by
    intro g g' fs
    induction fs with
    | nil => simp
    | cons f fs ih =>
      simp only [List.map_cons, List.sum_cons, ih]
      ring
  rw [hs]
  simp only [mul_assoc]
  ring

variable {fr : Frames P K} {cd fd : Nat} {p : P → Nat → K} {u : Nat → K}

theorem taninterp_cell (hu : IsTanInterp C fr cd fd p u) {v : P → K} (hv : v ∈ C.V cd) {c : Nat} (hc : c < 3) :
    C.IT (fun x => v x * evalVec 3 (cell.basis cd) u x c) = C.IT (fun x => v x * p x c) := by
  obtain ⟨a, ha⟩ := C.cell_span cd v hv
  have e : ∀ w : P → K, C.IT (fun x => v x * w x) =
      ∑ j ∈ range (cell.basis cd).size, a j * C.IT fun x => (cell.basis cd).fn x j * w x := by
    intro w
    rw [← IT_sum]
    congr 1
    funext x
    rw [ha x, evalFn, sum_mul]
    exact sum_congr rfl fun j _ => by ring
  rw [e, e]
  exact sum_congr rfl fun j hj => by rw [hu.1 c hc j (mem_range.1 hj)]

theorem taninterp_face {f : Face P K} (hf : f ∈ faces) {e : Nat → K} {t p : P → Nat → K}
    (h : ∀ i < (f.basis fd).size, C.IF f (fun x => (f.basis fd).fn x i * dot 3 e (t x)) =
      C.IF f (fun x => (f.basis fd).fn x i * dot 3 e (p x))) {v : P → K} (hv : v ∈ C.V fd) :
    C.IF f (fun x => v x * dot 3 e (t x)) = C.IF f (fun x => v x * dot 3 e (p x)) := by
  obtain ⟨c, hc⟩ := C.face_span f hf fd v hv
  have e : ∀ w : P → K, C.IF f (fun x => v x * w x) =
      ∑ j ∈ range (f.basis fd).size, c j * C.IF f fun x => (f.basis fd).fn x j * w x := by
    intro w
    rw [← IF_sum]
    refine C.face_congr f hf _ _ fun x hx => ?_
    rw [hc x hx, evalFn, sum_mul]
    exact sum_congr rfl fun j _ => by ring
  rw [e, e]
  exact sum_congr rfl fun j hj => by rw [h j (mem_range.1 hj)]

end

end Verif.Lemmas.Hho
