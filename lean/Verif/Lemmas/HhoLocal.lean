import Mathlib.Tactic.Ring
import Mathlib.Tactic.Linarith
import Mathlib.Tactic.Abel
import Mathlib.Algebra.BigOperators.Ring.Finset
import Mathlib.Algebra.BigOperators.Ring.List
import Mathlib.Algebra.BigOperators.Intervals
import Mathlib.Algebra.Module.Submodule.Basic
import Mathlib.Algebra.Module.Submodule.LinearMap
import Mathlib.Algebra.Module.BigOperators
import Verif.Spec.HhoLocal
/-!
Helper lemmas for the local HHO operators.
-/
namespace Verif.Lemmas.Hho
open Finset Verif.Hho Verif.Spec.Hho LocalMatrix

variable {K P : Type} [Field K]

/-! ### Quadrature sums -/

theorem quad_nil (v : P → K) : quad [] v = 0 := rfl

theorem quad_cons (q : QP P K) (qs : List (QP P K)) (v : P → K) : quad (q :: qs) v = q.w * v q.pt + quad qs v := by
  simp [quad]

theorem quad_congr {qs : List (QP P K)} {u v : P → K} (h : ∀ q ∈ qs, u q.pt = v q.pt) : quad qs u = quad qs v := by
  unfold quad
  congr 1
  exact List.map_congr_left fun q hq => by rw [h q hq]

theorem quad_sum (qs : List (QP P K)) (s : Finset Nat) (v : Nat → P → K) :
    quad qs (fun x => ∑ j ∈ s, v j x) = ∑ j ∈ s, quad qs (v j) := by
  induction qs with
  | nil => simp [quad]
  | cons q qs ih => simp only [quad_cons, ih, mul_sum, sum_add_distrib]

theorem quad_mul (qs : List (QP P K)) (a : K) (v : P → K) : quad qs (fun x => a * v x) = a * quad qs v := by
  induction qs with
  | nil => simp [quad]
  | cons q qs ih => simp only [quad_cons, ih]; ring

theorem quad_add (qs : List (QP P K)) (u v : P → K) : quad qs (fun x => u x + v x) = quad qs u + quad qs v := by
  induction qs with
  | nil => simp [quad]
  | cons q qs ih => simp only [quad_cons, ih]; ring

theorem quad_sub (qs : List (QP P K)) (u v : P → K) : quad qs (fun x => u x - v x) = quad qs u - quad qs v := by
  induction qs with
  | nil => simp [quad]
  | cons q qs ih => simp only [quad_cons, ih]; ring

theorem accum_eq (qs : List (QP P K)) (a b : P → Nat → K) (i j : Nat) :
    accum qs a b i j = quad qs fun x => a x i * b x j := by
  have h : ∀ (qs : List (QP P K)) (M : Mat K),
      (qs.foldl (fun M q => fun i j => M i j + q.w * a q.pt i * b q.pt j) M) i j =
        M i j + quad qs fun x => a x i * b x j := by
    intro qs
    induction qs with
    | nil => intro M; simp [quad]
    | cons q qs ih => intro M; rw [List.foldl_cons, ih, quad_cons]; ring
  unfold accum
  rw [h]
  simp [zero]

theorem accumDot_eq (d : Nat) (qs : List (QP P K)) (a b : P → Nat → Nat → K) (i j : Nat) :
    accumDot d qs a b i j = quad qs fun x => dot d (a x i) (b x j) := by
  have h : ∀ (qs : List (QP P K)) (M : Mat K),
      (qs.foldl (fun M q => fun i j => M i j + q.w * dot d (a q.pt i) (b q.pt j)) M) i j =
        M i j + quad qs fun x => dot d (a x i) (b x j) := by
    intro qs
    induction qs with
    | nil => intro M; simp [quad]
    | cons q qs ih => intro M; rw [List.foldl_cons, ih, quad_cons]; ring
  unfold accumDot
  rw [h]
  simp [zero]

theorem mass_eq (e : Elem P K) (k : Nat) (b : Basis P K) (i j : Nat) :
    mass e k b i j = quad (e.integrate (2 * k)) fun x => b.fn x i * b.fn x j := accum_eq ..

theorem mass_sym (e : Elem P K) (k n : Nat) (b : Basis P K) : SymOn n (mass e k b) := by
  intro i _ j _
  rw [mass_eq, mass_eq]
  exact quad_congr fun q _ => mul_comm _ _

theorem rhsOf_eq (e : Elem P K) (k di : Nat) (b : Basis P K) (f : P → K) (i : Nat) :
    rhsOf e k di b f i = quad (e.integrate (2 * (k + di))) fun x => b.fn x i * f x := by
  have h : ∀ (qs : List (QP P K)) (v : Nat → K),
      (qs.foldl (fun v q => fun i => v i + b.fn q.pt i * (q.w * f q.pt)) v) i =
        v i + quad qs fun x => b.fn x i * f x := by
    intro qs
    induction qs with
    | nil => intro M; simp [quad]
    | cons q qs ih => intro M; rw [List.foldl_cons, ih, quad_cons]; ring
  unfold rhsOf
  rw [h]
  simp

theorem dot_sum (d : Nat) (a : Nat → K) (s : Finset Nat) (u : Nat → K) (g : Nat → Nat → K) :
    dot d a (fun c => ∑ j ∈ s, u j * g j c) = ∑ j ∈ s, u j * dot d a (g j) := by
  unfold dot
  simp only [mul_sum]
  rw [sum_comm]
  exact sum_congr rfl fun j _ => sum_congr rfl fun c _ => by ring

theorem dot_comm (d : Nat) (a b : Nat → K) : dot d a b = dot d b a := sum_congr rfl fun _ _ => mul_comm _ _

/-! ### Applying matrices -/

theorem app_congr {n : Nat} {A B : Mat K} {u v : Nat → K} {i : Nat} (h : ∀ j < n, A i j = B i j)
    (hu : ∀ j < n, u j = v j) : app n A u i = app n B v i :=
  sum_congr rfl fun j hj => by rw [h j (mem_range.1 hj), hu j (mem_range.1 hj)]

theorem app_zero (n : Nat) (u : Nat → K) (i : Nat) : app n (zero : Mat K) u i = 0 := by simp [app, zero]

theorem app_addMat (n : Nat) (A B : Mat K) (u : Nat → K) (i : Nat) :
    app n (addMat A B) u i = app n A u i + app n B u i := by
  simp only [app, addMat, add_mul, sum_add_distrib]

theorem app_divMat (n : Nat) (A : Mat K) (h : K) (u : Nat → K) (i : Nat) : app n (divMat A h) u i = app n A u i / h := by
  simp only [app, divMat, div_eq_mul_inv, sum_mul]
  exact sum_congr rfl fun _ _ => by ring

theorem app_negMat (n : Nat) (A : Mat K) (u : Nat → K) (i : Nat) : app n (negMat A) u i = -app n A u i := by
  simp only [app, negMat, neg_mul, sum_neg_distrib]

theorem app_mul (n m : Nat) (A B : Mat K) (u : Nat → K) (i : Nat) :
    app n (mul m A B) u i = app m A (app n B u) i := by
  simp only [app, mul, sum_mul, mul_sum]
  rw [sum_comm]
  exact sum_congr rfl fun j _ => sum_congr rfl fun k _ => by ring

theorem app_ident {n i : Nat} (hi : i < n) (u : Nat → K) : app n (ident : Mat K) u i = u i := by
  simp only [app, ident, ite_mul, one_mul, zero_mul]
  rw [sum_ite_eq]
  simp [hi]

theorem app_eval {A : Mat K} {n : Nat} {i : Nat} {qs : List (QP P K)} {a : P → K} {b : P → Nat → K} {u : Nat → K}
    (h : ∀ j < n, A i j = quad qs fun x => a x * b x j) :
    app n A u i = quad qs fun x => a x * ∑ j ∈ range n, u j * b x j := by
  unfold app
  simp only [mul_sum]
  rw [quad_sum]
  refine sum_congr rfl fun j hj => ?_
  rw [h j (mem_range.1 hj), mul_comm, ← quad_mul]
  exact quad_congr fun q _ => by ring

/-- Splitting a sum of a function supported on an interval of columns. -/
theorem sum_seg {c nc n : Nat} (hc : c + nc ≤ n) (g : Nat → K) :
    (∑ j ∈ range n, if c ≤ j ∧ j < c + nc then g j else 0) = ∑ j ∈ range nc, g (c + j) := by
  rw [← sum_filter]
  have h : (range n).filter (fun j => c ≤ j ∧ j < c + nc) = (range nc).map ⟨fun j => c + j, fun a b h => by
      simpa using h⟩ := by
    ext j
    simp only [mem_filter, mem_range, mem_map]
    constructor
    · rintro ⟨_, h1, h2⟩
      exact ⟨j - c, by omega, Nat.add_sub_cancel' h1⟩
    · rintro ⟨a, ha, rfl⟩
      change c + a < n ∧ c ≤ c + a ∧ c + a < c + nc
      omega
  rw [h, sum_map]
  rfl

theorem app_addBlock {n : Nat} {M B : Mat K} {r c nr nc : Nat} (hc : c + nc ≤ n) (u : Nat → K) (i : Nat) :
    app n (addBlock M r c nr nc B) u i =
      app n M u i + if r ≤ i ∧ i < r + nr then app nc B (seg c u) (i - r) else 0 := by
  by_cases hi : r ≤ i ∧ i < r + nr
  · rw [if_pos hi]
    have : ∀ j, addBlock M r c nr nc B i j * u j =
        M i j * u j + if c ≤ j ∧ j < c + nc then B (i - r) (j - c) * u j else 0 := by
      intro j
      unfold addBlock
      by_cases hj : c ≤ j ∧ j < c + nc
      · rw [if_pos ⟨hi.1, hi.2, hj⟩, if_pos hj]; ring
      · rw [if_neg (fun h => hj ⟨h.2.2.1, h.2.2.2⟩), if_neg hj, add_zero]
    unfold app
    simp only [this]
    rw [sum_add_distrib, sum_seg hc (fun j => B (i - r) (j - c) * u j)]
    simp [seg]
  · rw [if_neg hi, add_zero]
    refine app_congr (fun j _ => ?_) fun _ _ => rfl
    unfold addBlock
    rw [if_neg fun h => hi ⟨h.1, h.2.1⟩]

theorem subBlock_eq (M B : Mat K) (r c nr nc : Nat) : subBlock M r c nr nc B = addBlock M r c nr nc (negMat B) := by
  funext i j
  unfold subBlock addBlock negMat
  split_ifs <;> ring

theorem app_subBlock {n : Nat} {M B : Mat K} {r c nr nc : Nat} (hc : c + nc ≤ n) (u : Nat → K) (i : Nat) :
    app n (subBlock M r c nr nc B) u i =
      app n M u i - if r ≤ i ∧ i < r + nr then app nc B (seg c u) (i - r) else 0 := by
  rw [subBlock_eq, app_addBlock hc, app_negMat]
  split_ifs <;> ring

theorem seg_zero (u : Nat → K) : seg 0 u = u := by funext j; simp [seg]

theorem solve_unique {n : Nat} {A : Mat K} (hn : Nonsing n A) {x y : Nat → K}
    (h : ∀ i < n, app n A x i = app n A y i) : ∀ j < n, x j = y j := by
  intro j hj
  have := hn (fun j => x j - y j) (fun i hi => by
    have := h i hi
    unfold app at this
    simp only [mul_sub, sum_sub_distrib, this, sub_self]) j hj
  exact sub_eq_zero.1 this

/-- `A · (A.solve(B) · u) = B · u` -/
theorem app_solveMat (S : Solver K) {n m : Nat} {A B : Mat K} (hs : SymOn n A) (hn : Nonsing n A) (u : Nat → K)
    {i : Nat} (hi : i < n) : app n A (app m (S.solveMat n A B) u) i = app m B u i := by
  unfold app
  simp only [mul_sum]
  rw [sum_comm]
  refine sum_congr rfl fun j _ => ?_
  have := S.solves n A (fun r => B r j) hs hn i hi
  rw [← this, sum_mul]
  exact sum_congr rfl fun k _ => by simp only [Solver.solveMat]; ring

/-! ### The reconstruction -/

variable {d : Nat} {tens : Option (Mat K)}

/-- Unknowns of a face are stored in range. -/
theorem app_faceFold {S : List (QP P K)} {n nr off fbs cbs : Nat} {rn f c : P → Nat → K} (ho : off + fbs ≤ n) (hc : cbs ≤ n)
    (u : Nat → K) {i : Nat} (hi : i < nr) (M : Mat K) :
    app n (S.foldl (fun M q => subBlock (addBlock M 0 off nr fbs fun i j => q.w * rn q.pt i * f q.pt j)
      0 0 nr cbs fun i j => q.w * rn q.pt i * c q.pt j) M) u i =
    app n M u i + quad S fun x => rn x i * ((∑ j ∈ range fbs, seg off u j * f x j) - ∑ j ∈ range cbs, u j * c x j) := by
  induction S generalizing M with
  | nil => simp [quad]
  | cons q S ih =>
    rw [List.foldl_cons, ih, app_subBlock (by omega), app_addBlock ho, quad_cons, if_pos (by omega), if_pos (by omega),
      seg_zero]
    have h1 : ∀ (g : Nat → K) (w : Nat → K) (m : Nat), app m (fun i j => q.w * rn q.pt i * g j) w (i - 0) =
        q.w * rn q.pt i * ∑ j ∈ range m, w j * g j := by
      intro g w m
      unfold app
      rw [mul_sum]
      exact sum_congr rfl fun j _ => by rw [Nat.sub_zero]; ring
    rw [h1, h1]
    ring

theorem app_faceFold_proj {S : List (QP P K)} {n nr off fbs : Nat} {rn f : P → Nat → K} (ho : off + fbs ≤ n)
    (u : Nat → K) {i : Nat} (hi : i < nr) (M : Mat K) :
    app n (S.foldl (fun M q => addBlock M 0 off nr fbs fun i j => q.w * rn q.pt i * f q.pt j) M) u i =
    app n M u i + quad S fun x => rn x i * ∑ j ∈ range fbs, seg off u j * f x j := by
  induction S generalizing M with
  | nil => simp [quad]
  | cons q S ih =>
    rw [List.foldl_cons, ih, app_addBlock ho, quad_cons, if_pos (by omega)]
    have h1 : ∀ (g : Nat → K) (w : Nat → K) (m : Nat), app m (fun i j => q.w * rn q.pt i * g j) w (i - 0) =
        q.w * rn q.pt i * ∑ j ∈ range m, w j * g j := by
      intro g w m
      unfold app
      rw [mul_sum]
      exact sum_congr rfl fun j _ => by rw [Nat.sub_zero]; ring
    rw [h1]
    ring

theorem faceSum_congr {g g' : Face P K → Nat → Nat → K} {fcs : List (InfoFace P K)}
    (h : ∀ f k off, (f, some k) ∈ fcs → g f k off = g' f k off) (off : Nat) : faceSum g fcs off = faceSum g' fcs off := by
  induction fcs generalizing off with
  | nil => rfl
  | cons a fs ih =>
    have ih := ih fun f k off hf => h f k off (List.mem_cons_of_mem _ hf)
    obtain ⟨f, _ | k⟩ := a
    · exact ih off
    · simp only [faceSum]
      rw [ih, h f k off List.mem_cons_self]

theorem faceAll_mono {g g' : Face P K → Nat → Nat → Prop} {fcs : List (InfoFace P K)}
    (h : ∀ f k off, (f, some k) ∈ fcs → g f k off → g' f k off) {off : Nat} (ha : faceAll g fcs off) :
    faceAll g' fcs off := by
  induction fcs generalizing off with
  | nil => trivial
  | cons a fs ih =>
    have ih := @ih fun f k off hf => h f k off (List.mem_cons_of_mem _ hf)
    obtain ⟨f, _ | k⟩ := a
    · exact ih ha
    · exact ⟨h f k off List.mem_cons_self ha.1, ih ha.2⟩

theorem facesDofs_cons (f : Face P K) (k : Nat) (fs : List (InfoFace P K)) :
    facesDofs ((f, some k) :: fs) = (f.basis k).size + facesDofs fs := by simp [facesDofs, faceDofs]

theorem facesDofs_cons_none (f : Face P K) (fs : List (InfoFace P K)) :
    facesDofs ((f, none) :: fs) = facesDofs fs := by simp [facesDofs, faceDofs]

theorem uniform_cons (fd : Nat) (f : Face P K) (fs : List (Face P K)) :
    uniform fd (f :: fs) = (f, some fd) :: uniform fd fs := rfl

/-- The face part of the right-hand side of the reconstruction, as the code's loop leaves it. -/
theorem app_lapFaces (S : Solver K) (rb cb : Basis P K) (rd cd fd : Nat) {n : Nat} (hcb : cb.size ≤ n) (u : Nat → K)
    {i : Nat} (hi : i < rb.size - 1) (fs : List (Face P K)) (off : Nat) (M : Mat K)
    (ho : off + facesDofs (uniform fd fs) ≤ n) :
    app n (lapFaces d tens false S rb cb rd cd fd fs off M) u i = app n M u i +
      faceSum (fun f k o => quad (f.integrate (rd + max cd fd)) fun x =>
        fluxN d tens rb f.normal x i * (evalFn (f.basis k) (seg o u) x - evalFn cb u x)) (uniform fd fs) off := by
  induction fs generalizing off M with
  | nil => simp [lapFaces, uniform, faceSum]
  | cons f fs ih =>
    rw [uniform_cons, facesDofs_cons] at ho
    rw [lapFaces, ih _ _ (by omega), uniform_cons, faceSum]
    unfold lapFace
    simp only [Bool.false_eq_true, if_false]
    rw [app_faceFold (by omega) hcb u hi]
    simp only [evalFn]
    ring

/-- The face part of the right-hand side in the version with `CellDegreeInfo`. -/
theorem app_lapInfoFaces (cb : Basis P K) (cbs rd cd : Nat) {n : Nat} (hcb : cbs ≤ n) (u : Nat → K)
    {i : Nat} (hi : i < cb.size - 1) (fs : List (InfoFace P K)) (off : Nat) (M : Mat K)
    (ho : off + facesDofs fs ≤ n) :
    app n (lapInfoFaces d cb cbs rd cd fs off M) u i = app n M u i +
      faceSum (fun f k o => quad (f.integrate (rd - 1 + max k cd)) fun x =>
        fluxN d none cb f.normal x i * (evalFn (f.basis k) (seg o u) x - ∑ j ∈ range cbs, u j * cb.fn x j)) fs off := by
  induction fs generalizing off M with
  | nil => simp [lapInfoFaces, faceSum]
  | cons a fs ih =>
    obtain ⟨f, _ | k⟩ := a
    · rw [facesDofs_cons_none] at ho
      rw [lapInfoFaces, ih _ _ ho, faceSum]
    · rw [facesDofs_cons] at ho
      rw [lapInfoFaces, ih _ _ (by omega), faceSum, app_faceFold (by omega) hcb u hi]
      simp only [evalFn]
      ring

/-- The right-hand side of the reconstruction applied to unknowns. -/
theorem app_lapRhs (S : Solver K) (rb : Basis P K) (rd cd fd : Nat) (cell : Elem P K) (faces : List (Face P K))
    (u : Nat → K) {i : Nat} (hi : i < rb.size - 1) :
    app ((cell.basis cd).size + facesDofs (uniform fd faces)) (lapRhs d tens false S rb rd cd fd cell faces) u i =
      quad (cell.integrate (2 * (rd - 1))) (fun x => dot d (rflux d tens rb x i) (evalGrad (cell.basis cd) u x)) +
      faceSum (fun f k o => quad (f.integrate (rd + max cd fd)) fun x =>
        fluxN d tens rb f.normal x i * (evalFn (f.basis k) (seg o u) x - evalFn (cell.basis cd) u x))
        (uniform fd faces) (cell.basis cd).size := by
  unfold lapRhs
  rw [app_lapFaces S rb _ rd cd fd (by omega) u hi _ _ _ (le_refl _), app_addBlock (by omega), app_zero,
    if_pos (by omega), seg_zero]
  congr 1
  unfold app evalGrad
  simp only [accumDot_eq, dot_sum]
  rw [quad_sum, zero_add]
  exact sum_congr rfl fun j _ => by rw [Nat.sub_zero, quad_mul, mul_comm]

/-- The left-hand side of the reconstruction applied to coefficients. -/
theorem app_lapLhs (rb : Basis P K) (rd : Nat) (cell : Elem P K) (r : Nat → K) (i : Nat) :
    app (rb.size - 1) (lapLhs d tens rb rd cell) r i =
      quad (cell.integrate (2 * (rd - 1))) (fun x => dot d (rflux d tens rb x i) (evalGradTail rb r x)) := by
  unfold app evalGradTail lapLhs
  simp only [accumDot_eq, dot_sum]
  rw [quad_sum]
  exact sum_congr rfl fun j _ => by rw [quad_mul, mul_comm]; rfl

end Verif.Lemmas.Hho
