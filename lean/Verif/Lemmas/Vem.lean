import Verif.Lemmas.Bases
import Verif.Lemmas.HhoLocal
import Verif.Spec.Vem
import Mathlib.Algebra.BigOperators.Field
import Mathlib.Tactic.Ring
import Mathlib.Tactic.FieldSimp
/-! Helper lemmas for the virtual element matrices. -/
namespace Verif.Vem
open Finset Verif.Bases Verif.Util Verif.Hho LocalMatrix Verif.Spec.Hho Verif.Spec.Vem Verif.Lemmas.Hho

theorem getD_lt {α : Type} {l : List α} {i : Nat} {d : α} (h : i < l.length) : l.getD i d = l[i] := by
  rw [List.getD_eq_getElem?_getD, List.getElem?_eq_getElem h]; rfl

theorem getD_ge {α : Type} {l : List α} {i : Nat} {d : α} (h : l.length ≤ i) : l.getD i d = d := by
  rw [List.getD_eq_getElem?_getD, List.getElem?_eq_none h]; rfl

/-! ### The order of the monomials -/

/-- Number of monomials of degree less than `t`. -/
def tri (t : Nat) : Nat := t * (t + 1) / 2

theorem tri_succ (t : Nat) : tri (t + 1) = tri t + (t + 1) := by
  unfold tri
  have : (t + 1) * (t + 1 + 1) = t * (t + 1) + 2 * (t + 1) := by ring
  omega

theorem tri_mono {s t : Nat} (h : s ≤ t) : tri s ≤ tri t := by
  induction t with
  | zero => obtain rfl : s = 0 := by omega
            exact le_refl _
  | succ t ih =>
    rw [tri_succ]
    rcases Nat.lt_or_ge t s with h1 | h1
    · obtain rfl : s = t + 1 := by omega
      rw [tri_succ]
    · exact (ih h1).trans (Nat.le_add_right _ _)

theorem flat_length {α : Type} (s : Nat) (f : Nat → Nat → α) (n : Nat) :
    ((List.range n).flatMap fun t => (List.range (t + s)).map (f t)).length = ∑ t ∈ range n, (t + s) := by
  induction n with
  | zero => rfl
  | succ n ih => rw [List.range_succ, List.flatMap_append, List.length_append, ih, sum_range_succ]; simp

theorem flat_get {α : Type} (s : Nat) (f : Nat → Nat → α) {n t i : Nat} (ht : t < n) (hi : i < t + s) :
    ((List.range n).flatMap fun t => (List.range (t + s)).map (f t))[(∑ u ∈ range t, (u + s)) + i]? = some (f t i) := by
  induction n with
  | zero => omega
  | succ n ih =>
    rw [List.range_succ, List.flatMap_append]
    rcases Nat.lt_or_ge t n with h | h
    · rw [List.getElem?_append_left]
      · exact ih h
      · rw [flat_length]
        have : ∑ u ∈ range (t + 1), (u + s) ≤ ∑ u ∈ range n, (u + s) :=
          sum_le_sum_of_subset (range_subset_range.2 (by omega))
        rw [sum_range_succ] at this
        omega
    · obtain rfl : t = n := by omega
      rw [List.getElem?_append_right (by rw [flat_length]; omega), flat_length, Nat.add_sub_cancel_left]
      simp [hi]

theorem sum_tri (t : Nat) : ∑ u ∈ range t, (u + 1) = tri t := by
  induction t with
  | zero => rfl
  | succ t ih => rw [sum_range_succ, ih, tri_succ]

theorem sum_tri3 (t : Nat) : ∑ u ∈ range t, (u + 3) + 3 = tri (t + 2) := by
  induction t with
  | zero => rfl
  | succ t ih => rw [sum_range_succ, tri_succ]; omega

theorem exps2_get {n t i : Nat} (ht : t ≤ n) (hi : i ≤ t) : (exps2 n)[tri t + i]? = some (t - i, i) := by
  have := flat_get 1 (fun k i => (k - i, i)) (n := n + 1) (t := t) (i := i) (by omega) (by omega)
  rw [sum_tri] at this
  exact this

theorem btPairs_get {n t i : Nat} (h2 : 2 ≤ t) (ht : t ≤ n) (hi : i ≤ t) : (btPairs n)[tri t + i - 3]? = some (t, i) := by
  have := flat_get 3 (fun t i => (t + 2, i)) (n := n - 1) (t := t - 2) (i := i) (by omega) (by omega)
  have e := sum_tri3 (t - 2)
  rw [Nat.sub_add_cancel h2] at e
  rw [show tri t + i - 3 = (∑ u ∈ range (t - 2), (u + 3)) + i by omega]
  rw [Nat.sub_add_cancel h2] at this
  exact this

theorem btPairs_length {n : Nat} (h : 1 ≤ n) : (btPairs n).length + 3 = tri (n + 1) := by
  have := flat_length 3 (fun t i => (t + 2, i)) (n - 1)
  unfold btPairs
  rw [this, sum_tri3]
  congr 1
  omega

theorem size_tri (n : Nat) : scalarBasisSize n 2 = tri (n + 1) := by
  rw [size2]
  have := flat_length 1 (fun k i => (k - i, i)) (n + 1)
  rw [sum_tri] at this
  exact this

theorem cbs_tri (k : Nat) : cbs k = tri (k + 1) := size_tri k

theorem cbs_pos (k : Nat) : 0 < cbs k := by rw [cbs_tri, tri_succ]; omega

theorem lbs_tri {k : Nat} (hk : 1 ≤ k) : lbs k = tri (k - 1) := by
  unfold lbs
  split_ifs with h
  · subst h; rfl
  · rw [size_tri]; congr 1; omega

/-- Every index is that of a monomial. -/
theorem split_index {n i : Nat} (h : i < tri (n + 1)) : ∃ t j, t ≤ n ∧ j ≤ t ∧ i = tri t + j := by
  induction n with
  | zero => exact ⟨0, 0, le_refl _, le_refl _, by have : tri (0 + 1) = 1 := rfl
                                                  have : tri 0 = 0 := rfl
                                                  omega⟩
  | succ n ih =>
    rcases Nat.lt_or_ge i (tri (n + 1)) with h1 | h1
    · obtain ⟨t, j, h2, h3, h4⟩ := ih h1
      exact ⟨t, j, by omega, h3, h4⟩
    · rw [tri_succ (n + 1)] at h
      exact ⟨n + 1, i - tri (n + 1), le_refl _, by omega, by omega⟩

/-- The exponents of the monomial of an index. -/
def exOf (n i : Nat) : Nat × Nat := (exps2 n).getD i (0, 0)

theorem exOf_tri {n t i : Nat} (ht : t ≤ n) (hi : i ≤ t) : exOf n (tri t + i) = (t - i, i) := by
  unfold exOf
  rw [List.getD_eq_getElem?_getD, exps2_get ht hi]
  rfl

theorem exOf_deg (n i : Nat) : (exOf n i).1 + (exOf n i).2 ≤ n := by
  unfold exOf
  rcases Nat.lt_or_ge i (exps2 n).length with h | h
  · rw [getD_lt h]
    exact (mem_exps2 n _ _).1 (List.getElem_mem h)
  · rw [getD_ge h]; exact Nat.zero_le _

theorem exOf_nested {m n i : Nat} (h : m ≤ n) (hi : i < tri (m + 1)) : exOf n i = exOf m i := by
  obtain ⟨t, j, h1, h2, rfl⟩ := split_index hi
  rw [exOf_tri h1 h2, exOf_tri (by omega) h2]

theorem exOf_zero (n : Nat) : exOf n 0 = (0, 0) := by
  have := exOf_tri (n := n) (t := 0) (i := 0) (Nat.zero_le _) (le_refl _)
  exact this

/-! ### Evaluations -/

variable {K : Type} [Field K]

theorem scaling_coord (c : VCell K) (x : Pt K) (i : Fin 2) :
    scalingPoint (passageMatrix c.axes c.len) c.bar x i = coord c i x := by
  unfold scalingPoint passageMatrix coord coordGrad Matrix.mulVec dotProduct
  rw [Fin.sum_univ_two]
  rfl

theorem basis_size (c : VCell K) (n : Nat) : (c.basis n).size = cbs n := rfl

theorem basis_fn (c : VCell K) (x : Pt K) {n i : Nat} (hi : i < cbs n) : (c.basis n).fn x i = mono c (exOf n i) x := by
  have h : i < (exps2 n).length := by rw [← size2]; exact hi
  unfold VCell.basis monoBasis eval2
  dsimp only
  rw [fillVec_eq _ _ _ (by simp [size2]), valuesOf]
  simp only [c07_iexp_pow, scaling_coord]
  rw [getD_lt (by simpa using h), List.getElem_map]
  unfold mono exOf
  rw [getD_lt h]

theorem basis_grad (c : VCell K) (x : Pt K) {n i : Nat} (hi : i < cbs n) (m : Nat) :
    (c.basis n).grad x i m = gradMono c (exOf n i) x m := by
  have h : i < (exps2 n).length := by rw [← size2]; exact hi
  unfold VCell.basis monoBasis grad2 gradMono
  dsimp only
  rw [fillVec_eq _ _ _ (by simp [size2]), valuesOf]
  split_ifs with hm
  · simp only [c07_iexp_pow, scaling_coord, dfac_eq]
    rw [getD_lt (by simpa using h), List.getElem_map]
    unfold mono exOf
    rw [getD_lt h]
    unfold Matrix.mulVec dotProduct passageMatrix coordGrad
    rw [Fin.sum_univ_two]
    simp only [hm, dif_pos, Matrix.transpose_apply, Matrix.of_apply, Matrix.cons_val_zero, Matrix.cons_val_one]
    ring
  · unfold coordGrad
    simp [hm]

theorem mono_zero (c : VCell K) (x : Pt K) : mono c (0, 0) x = 1 := by simp [mono]

theorem gradMono_zero (c : VCell K) (x : Pt K) (m : Nat) : gradMono c (0, 0) x m = 0 := by simp [gradMono]

/-! ### Polynomials -/

theorem mono_mem (c : VCell K) {e : Nat × Nat} {n : Nat} (h : e.1 + e.2 ≤ n) : mono c e ∈ polys c n :=
  Submodule.subset_span ⟨e, h, rfl⟩

theorem polys_mono (c : VCell K) {m n : Nat} (h : m ≤ n) : polys c m ≤ polys c n :=
  Submodule.span_mono fun _ ⟨e, he, hv⟩ => ⟨e, he.trans h, hv⟩

theorem mono_mul (c : VCell K) (a b : Nat × Nat) : mono c a * mono c b = mono c (a.1 + b.1, a.2 + b.2) := by
  funext x
  simp only [Pi.mul_apply, mono, pow_add]
  ring

theorem polys_mul (c : VCell K) {m n : Nat} {f g : Pt K → K} (hf : f ∈ polys c m) (hg : g ∈ polys c n) :
    f * g ∈ polys c (m + n) := by
  unfold polys at hf
  induction hf using Submodule.span_induction with
  | mem f hf =>
    obtain ⟨a, ha, rfl⟩ := hf
    unfold polys at hg
    induction hg using Submodule.span_induction with
    | mem g hg =>
      obtain ⟨b, hb, rfl⟩ := hg
      rw [mono_mul]
      exact mono_mem c (by dsimp only; omega)
    | zero => rw [mul_zero]; exact Submodule.zero_mem _
    | add x y _ _ hx hy => rw [mul_add]; exact Submodule.add_mem _ hx hy
    | smul a x _ hx => rw [mul_smul_comm]; exact Submodule.smul_mem _ _ hx
  | zero => rw [zero_mul]; exact Submodule.zero_mem _
  | add x y _ _ hx hy => rw [add_mul]; exact Submodule.add_mem _ hx hy
  | smul a x _ hx => rw [smul_mul_assoc]; exact Submodule.smul_mem _ _ hx

theorem scal_mem (c : VCell K) {n : Nat} (a : K) {f : Pt K → K} (hf : f ∈ polys c n) : (fun x => a * f x) ∈ polys c n :=
  Submodule.smul_mem _ a hf

theorem sum_mem' (c : VCell K) {n : Nat} (s : Finset Nat) {f : Nat → Pt K → K} (hf : ∀ i ∈ s, f i ∈ polys c n) :
    (fun x => ∑ i ∈ s, f i x) ∈ polys c n := by
  have := Submodule.sum_mem (polys c n) hf
  convert this using 1
  funext x
  rw [Finset.sum_apply]

theorem mul_mem' (c : VCell K) {m n N : Nat} (h : m + n ≤ N) {f g : Pt K → K} (hf : f ∈ polys c m) (hg : g ∈ polys c n) :
    (fun x => f x * g x) ∈ polys c N := polys_mono c h (polys_mul c hf hg)

theorem gradMono_mem (c : VCell K) {e : Nat × Nat} {n : Nat} (h : e.1 + e.2 ≤ n) (m : Nat) :
    (fun x => gradMono c e x m) ∈ polys c (n - 1) := by
  have h1 : ∀ (a : K) (p q d : Nat), (p = 0 ∨ q + d ≤ n - 1) →
      (fun x => (p : K) * a * mono c (q, d) x) ∈ polys c (n - 1) := by
    intro a p q d hp
    rcases hp with rfl | hp
    · simp only [Nat.cast_zero, zero_mul]
      exact Submodule.zero_mem (polys c (n - 1))
    · exact scal_mem c _ (mono_mem c hp)
  exact Submodule.add_mem _ (h1 _ _ _ _ (by omega)) (h1 _ _ _ _ (by omega))

theorem lapMono_mem (c : VCell K) {e : Nat × Nat} {n : Nat} (h : e.1 + e.2 ≤ n) : lapMono c e ∈ polys c (n - 2) := by
  have h1 : ∀ (a : K) (p q d : Nat), (p * (p - 1) = 0 ∨ q + d ≤ n - 2) →
      (fun x => ((p * (p - 1) : Nat) : K) * a * mono c (q, d) x) ∈ polys c (n - 2) := by
    intro a p q d hp
    rcases hp with hp | hp
    · simp only [hp, Nat.cast_zero, zero_mul]
      exact Submodule.zero_mem (polys c (n - 2))
    · exact scal_mem c _ (mono_mem c hp)
  have h2 : ∀ p d : Nat, p + d ≤ n → p * (p - 1) = 0 ∨ p - 2 + d ≤ n - 2 := by
    intro p d hp
    rcases Nat.lt_or_ge p 2 with h | h
    · left
      obtain rfl | rfl : p = 0 ∨ p = 1 := by omega
      all_goals rfl
    · right; omega
  exact Submodule.add_mem _ (h1 _ _ _ _ (h2 _ _ h)) (h1 _ _ _ _ (by have := h2 e.2 e.1 (by omega); omega))

theorem fn_mem (c : VCell K) {n i : Nat} (hi : i < cbs n) : (fun x => (c.basis n).fn x i) ∈ polys c n := by
  have : (fun x => (c.basis n).fn x i) = mono c (exOf n i) := by funext x; exact basis_fn c x hi
  rw [this]
  exact mono_mem c (exOf_deg n i)

theorem evalFn_mem (c : VCell K) (n : Nat) (u : Nat → K) : evalFn (c.basis n) u ∈ polys c n :=
  sum_mem' c _ fun i hi => scal_mem c _ (fn_mem c (mem_range.1 hi))

theorem gradFn_mem (c : VCell K) {n i : Nat} (hi : i < cbs n) (m : Nat) :
    (fun x => (c.basis n).grad x i m) ∈ polys c (n - 1) := by
  have : (fun x => (c.basis n).grad x i m) = fun x => gradMono c (exOf n i) x m := by
    funext x; exact basis_grad c x hi m
  rw [this]
  exact gradMono_mem c (exOf_deg n i) m

theorem evalGrad_mem (c : VCell K) (n : Nat) (u : Nat → K) (m : Nat) :
    (fun x => evalGrad (c.basis n) u x m) ∈ polys c (n - 1) :=
  sum_mem' c _ fun i hi => scal_mem c _ (gradFn_mem c (mem_range.1 hi) m)

/-! ### The matrices -/

theorem rowFold (n : Nat) (g : Pt K → Nat → K) (qs : List (QP (Pt K) K)) (M : Mat K) (i j : Nat) :
    (qs.foldl (fun M q => addBlock M 0 0 1 n fun _ j => q.w * g q.pt j) M) i j =
      M i j + if i = 0 ∧ j < n then quad qs (fun x => g x j) else 0 := by
  induction qs generalizing M with
  | nil => simp [quad]
  | cons q qs ih =>
    rw [List.foldl_cons, ih, quad_cons]
    unfold addBlock
    by_cases h : i = 0 ∧ j < n
    · rw [if_pos (by omega), if_pos h, if_pos h]; simp only [Nat.sub_zero]; ring
    · rw [if_neg (by omega), if_neg h, if_neg h]

theorem blockFold (r nr n : Nat) (f g : Pt K → Nat → K) (qs : List (QP (Pt K) K)) (M : Mat K) (i j : Nat) :
    (qs.foldl (fun M q => addBlock M r 0 nr n fun i j => q.w * f q.pt i * g q.pt j) M) i j =
      M i j + if r ≤ i ∧ i < r + nr ∧ j < n then quad qs (fun x => f x (i - r) * g x j) else 0 := by
  induction qs generalizing M with
  | nil => simp [quad]
  | cons q qs ih =>
    rw [List.foldl_cons, ih, quad_cons]
    unfold addBlock
    by_cases h : r ≤ i ∧ i < r + nr ∧ j < n
    · rw [if_pos (by omega), if_pos h, if_pos h]; simp only [Nat.sub_zero]; ring
    · rw [if_neg (by omega), if_neg h, if_neg h]

/-- The stiffness matrix. -/
theorem stiff_eq (c : VCell K) {k : Nat} (hk : 1 ≤ k) (i j : Nat) : stiffness 2 c.elem k (c.basis k) i j =
    quad (c.integrate (2 * (k - 1))) fun x => dot 2 ((c.basis k).grad x i) ((c.basis k).grad x j) := by
  unfold stiffness
  rw [if_pos (by omega), accumDot_eq]
  rfl

theorem G_succ (c : VCell K) {k : Nat} (hk : 1 ≤ k) {i : Nat} (hi : i ≠ 0) (j : Nat) : matrixG c k i j =
    quad (c.integrate (2 * (k - 1))) fun x => dot 2 ((c.basis k).grad x i) ((c.basis k).grad x j) := by
  unfold matrixG
  rw [if_neg hi, rowFold, if_neg (fun h => hi h.1), add_zero, stiff_eq c hk]

theorem grad_zero (c : VCell K) (k : Nat) (x : Pt K) : (c.basis k).grad x 0 = fun _ => 0 := by
  funext m
  rw [basis_grad c x (cbs_pos k), exOf_zero, gradMono_zero]

theorem dot_zero_left (d : Nat) (b : Nat → K) : dot d (fun _ => 0) b = 0 := by simp [dot]

theorem quad_zero (qs : List (QP (Pt K) K)) : quad qs (fun _ => (0 : K)) = 0 := by simp [quad]

theorem G_zero (c : VCell K) {k : Nat} (hk : 1 ≤ k) {j : Nat} (hj : j < cbs k) : matrixG c k 0 j =
    quad (c.integrate (2 * (k - 1))) (fun x => (c.basis k).fn x j) / c.area := by
  unfold matrixG
  rw [if_pos rfl, rowFold, if_pos ⟨rfl, hj⟩, stiff_eq c hk]
  simp only [grad_zero, dot_zero_left]
  rw [quad_zero, zero_add]

theorem app_G_zero (c : VCell K) {k : Nat} (hk : 1 ≤ k) (u : Nat → K) : app (cbs k) (matrixG c k) u 0 =
    quad (c.integrate (2 * (k - 1))) (evalFn (c.basis k) u) / c.area := by
  have h : evalFn (c.basis k) u = fun x => ∑ j ∈ range (cbs k), u j * (c.basis k).fn x j := rfl
  rw [h, quad_sum, sum_div]
  refine sum_congr rfl fun j hj => ?_
  rw [G_zero c hk (mem_range.1 hj), quad_mul]
  ring

theorem app_G_succ (c : VCell K) {k : Nat} (hk : 1 ≤ k) (u : Nat → K) {i : Nat} (hi : i ≠ 0) :
    app (cbs k) (matrixG c k) u i =
      quad (c.integrate (2 * (k - 1))) fun x => dot 2 ((c.basis k).grad x i) (evalGrad (c.basis k) u x) := by
  have h : ∀ x, dot 2 ((c.basis k).grad x i) (evalGrad (c.basis k) u x) =
      ∑ j ∈ range (cbs k), u j * dot 2 ((c.basis k).grad x i) ((c.basis k).grad x j) := fun x => dot_sum ..
  simp only [h]
  rw [quad_sum]
  refine sum_congr rfl fun j _ => ?_
  rw [G_succ c hk hi, quad_mul]
  ring

theorem bfSide_app {n nb : Nat} (g : Pt K → Nat → K) {i : Nat} (hi : i < n) (hnb : 0 < nb) (v : Nat → K) (f : Pt K → K)
    (qs : List (QP (Pt K) K)) : ∀ (p : Nat) (M : Mat K), (∀ t x, qs[t]? = some x → v ((p + t) % nb) = f x.pt) →
    app nb (bfSide n nb g qs p M) v i = app nb M v i + quad qs fun x => g x i * f x := by
  induction qs with
  | nil => intro p M _; simp [bfSide, quad]
  | cons q qs ih =>
    intro p M h
    have h0 := h 0 q rfl
    have hp : p % nb + 1 ≤ nb := Nat.mod_lt _ hnb
    rw [bfSide, ih (p + 1) _ fun t x ht => by
      have := h (t + 1) x (by simpa using ht)
      rwa [show p + 1 + t = p + (t + 1) by omega]]
    rw [app_addBlock hp, if_pos (by omega), quad_cons, ← h0]
    simp only [app, seg, sum_range_one, Nat.add_zero, Nat.sub_zero]
    ring

theorem bfSides_app (b : Basis (Pt K) K) {k nb : Nat} {i : Nat} (hi : i < b.size) (hnb : 0 < nb) (v : Nat → K)
    (f : Pt K → K) (ss : List (VSide K)) : ∀ (p : Nat) (M : Mat K),
    (∀ t s, ss[t]? = some s → ∀ q x, (s.lobatto (2 * k - 1))[q]? = some x → v (((p + t) * k + q) % nb) = f x.pt) →
    app nb (bfSides b k nb ss p M) v i = app nb M v i +
      (ss.map fun s => quad (s.lobatto (2 * k - 1)) fun x => dot 2 (b.grad x i) s.normal * f x).sum := by
  induction ss with
  | nil => intro p M _; simp [bfSides]
  | cons s ss ih =>
    intro p M h
    rw [bfSides, ih (p + 1) _ fun t s' ht q x hx => by
      have := h (t + 1) s' (by simpa using ht) q x hx
      rwa [show p + 1 + t = p + (t + 1) by omega]]
    rw [bfSide_app _ hi hnb v f _ _ _ fun t x hx => by simpa using h 0 s rfl t x hx, List.map_cons, List.sum_cons, add_assoc]

/-- Row of `matrix_BT` of a monomial. -/
def btRow (fx2 fy2 : K) (e : Nat × Nat) (l : Nat) : K :=
  (if l = tri (e.1 - 2) + e.2 then -(((e.1 - e.2) * (e.1 - e.2 - 1) : Nat) : K) * fx2 else 0) +
    if l = tri (e.1 - 2) + (e.2 - 2) then -((e.2 * (e.2 - 1) : Nat) : K) * fy2 else 0

theorem btStep_eq (fx2 fy2 : K) (st : Mat K × Nat) (e : Nat × Nat) (h2 : 2 ≤ e.1) (he : e.2 ≤ e.1)
    (h0 : ∀ l, st.1 (st.2 + 1) l = 0) (r l : Nat) :
    (btStep fx2 fy2 st e).1 r l = if r = st.2 + 1 then btRow fx2 fy2 e l else st.1 r l := by
  have ht : (e.1 - 2 + 1) * (e.1 - 2) / 2 = tri (e.1 - 2) := by unfold tri; rw [Nat.mul_comm]
  unfold btStep btRow
  dsimp only
  rw [ht]
  by_cases hr : r = st.2 + 1
  · subst hr
    rw [if_pos rfl]
    have hx : ¬ (e.1 - e.2) * (e.1 - e.2 - 1) > 0 → (((e.1 - e.2) * (e.1 - e.2 - 1) : Nat) : K) = 0 := by
      intro h; rw [show (e.1 - e.2) * (e.1 - e.2 - 1) = 0 by omega]; simp
    have hy : ¬ e.2 * (e.2 - 1) > 0 → ((e.2 * (e.2 - 1) : Nat) : K) = 0 := by
      intro h; rw [show e.2 * (e.2 - 1) = 0 by omega]; simp
    by_cases h1 : (e.1 - e.2) * (e.1 - e.2 - 1) > 0 <;> by_cases h3 : e.2 * (e.2 - 1) > 0
    · have h4 : 2 ≤ e.2 := by
        rcases Nat.lt_or_ge e.2 2 with h | h
        · obtain h | h : e.2 = 0 ∨ e.2 = 1 := by omega
          all_goals simp [h] at h3
        · exact h
      rw [if_pos h1, if_pos h3]
      unfold setEntry
      by_cases h5 : l = tri (e.1 - 2) + (e.2 - 2)
      · have h6 : ¬ l = tri (e.1 - 2) + e.2 := by omega
        rw [if_pos ⟨rfl, h5⟩, if_neg h6, if_pos h5, zero_add]
      · rw [if_neg fun h => h5 h.2, if_neg h5, add_zero]
        simp only [true_and]
        rw [h0]
    · rw [if_pos h1, if_neg h3, hy h3]
      unfold setEntry
      simp only [true_and]
      rw [h0]
      simp
    · rw [if_neg h1, if_pos h3, hx h1]
      unfold setEntry
      simp only [true_and]
      rw [h0]
      simp
    · rw [if_neg h1, if_neg h3, hx h1, hy h3, h0]
      simp
  · rw [if_neg hr]
    split_ifs <;> simp [setEntry, hr]

theorem btFold (fx2 fy2 : K) (L : List (Nat × Nat)) : ∀ (M : Mat K) (p : Nat), (∀ e ∈ L, 2 ≤ e.1 ∧ e.2 ≤ e.1) →
    (∀ r, p < r → ∀ l, M r l = 0) → ∀ r l, (L.foldl (btStep fx2 fy2) (M, p)).1 r l =
      if r ≤ p then M r l else match L[r - p - 1]? with
        | some e => btRow fx2 fy2 e l
        | none => 0 := by
  induction L with
  | nil =>
    intro M p _ h r l
    split_ifs with h1
    · rfl
    · exact h r (by omega) l
  | cons e L ih =>
    intro M p hL h r l
    have he := hL e (List.mem_cons_self ..)
    have hs := btStep_eq fx2 fy2 (M, p) e he.1 he.2 (h (p + 1) (by omega))
    have e2 : (btStep fx2 fy2 (M, p) e) = ((btStep fx2 fy2 (M, p) e).1, p + 1) := rfl
    rw [List.foldl_cons, e2, ih _ (p + 1) (fun e he => hL e (List.mem_cons_of_mem _ he)) (fun r hr l => by
      rw [hs]
      dsimp only
      rw [if_neg (by omega), h r (by omega)])]
    by_cases h1 : r ≤ p
    · rw [if_pos (by omega), if_pos h1, hs]
      dsimp only
      rw [if_neg (by omega)]
    · rw [if_neg h1]
      by_cases h2 : r = p + 1
      · subst h2
        rw [if_pos (le_refl _), hs]
        simp
      · rw [if_neg (by omega), show r - p - 1 = r - (p + 1) - 1 + 1 by omega, List.getElem?_cons_succ]

theorem btPairs_mem {k : Nat} {e : Nat × Nat} (h : e ∈ btPairs k) : 2 ≤ e.1 ∧ e.2 ≤ e.1 := by
  unfold btPairs at h
  simp only [List.mem_flatMap, List.mem_map, List.mem_range] at h
  obtain ⟨t, _, i, hi, rfl⟩ := h
  exact ⟨by dsimp only; omega, by dsimp only; omega⟩

theorem BT_eq (c : VCell K) {k t i : Nat} (ht : t ≤ k) (hi : i ≤ t) (l : Nat) : matrixBT c k (tri t + i) l =
    if t < 2 then 0 else btRow (c.factor 0 * c.factor 0) (c.factor 1 * c.factor 1) (t, i) l * c.area := by
  unfold matrixBT
  rw [btFold _ _ _ zero _ (fun e he => btPairs_mem he) fun _ _ _ => rfl]
  split_ifs with h1 h2 h2
  · simp [zero]
  · exfalso
    have := tri_mono (show 2 ≤ t by omega)
    have : tri 2 = 3 := rfl
    omega
  · exfalso
    obtain rfl | rfl : t = 0 ∨ t = 1 := by omega
    · have : tri 0 = 0 := rfl
      omega
    · have : tri 1 = 1 := rfl
      omega
  · have h3 : tri t + i - 2 - 1 = tri t + i - 3 := by omega
    rw [h3, btPairs_get (by omega) ht hi]

/-- The rows of `matrix_BT` are minus the area times the coefficients of the Laplacians. -/
theorem BT_lap (c : VCell K) {k : Nat} (hk : 1 ≤ k) {i : Nat} (hi : i < cbs k) (x : Pt K) :
    ∑ l ∈ range (lbs k), matrixBT c k i l * mono c (exOf (k - 2) l) x = -c.area * lapMono c (exOf k i) x := by
  rw [cbs_tri] at hi
  obtain ⟨t, j, ht, hj, rfl⟩ := split_index hi
  rw [exOf_tri ht hj]
  simp only [BT_eq c ht hj]
  have hsmall : ∀ n : Nat, n < 2 → n * (n - 1) = 0 := by
    intro n hn
    obtain rfl | rfl : n = 0 ∨ n = 1 := by omega
    all_goals rfl
  by_cases h2 : t < 2
  · simp only [if_pos h2, zero_mul, sum_const_zero]
    unfold lapMono
    rw [hsmall (t - j) (by omega), hsmall j (by omega)]
    simp
  · simp only [if_neg h2]
    have hl : lbs k = tri (k - 2 + 1) := by rw [lbs_tri hk]; congr 1; omega
    have key : ∀ (a : K) (s : Nat), (s ≤ t - 2 ∨ a = 0) →
        (∑ l ∈ range (lbs k), (if l = tri (t - 2) + s then a else 0) * c.area * mono c (exOf (k - 2) l) x) =
          a * c.area * mono c (t - 2 - s, s) x := by
      intro a s hs
      rcases hs with hs | rfl
      · have hlt : tri (t - 2) + s < lbs k := by
          rw [hl]
          have := tri_mono (show t - 2 + 1 ≤ k - 2 + 1 by omega)
          rw [tri_succ (t - 2)] at this
          omega
        rw [sum_eq_single (tri (t - 2) + s)]
        · rw [if_pos rfl, exOf_tri (by omega) hs]
        · intro b _ hb
          rw [if_neg hb]; ring
        · intro h; exact absurd (mem_range.2 hlt) h
      · simp
    unfold btRow
    dsimp only
    simp only [add_mul, sum_add_distrib]
    rw [key _ _ (by
        rcases Nat.lt_or_ge (t - j) 2 with h | h
        · right; rw [hsmall _ h]; simp
        · left; omega),
      key _ _ (by left; omega)]
    unfold lapMono VCell.factor
    rcases Nat.lt_or_ge j 2 with h | h
    · rw [hsmall j h, show t - 2 - j = t - j - 2 by omega]
      simp only [Nat.cast_zero]
      ring
    · rw [show t - 2 - j = t - j - 2 by omega, show t - 2 - (j - 2) = t - j by omega]
      ring

theorem lin_sum (I : (Pt K → K) →ₗ[K] K) (s : Finset Nat) (f : Nat → Pt K → K) :
    I (fun x => ∑ j ∈ s, f j x) = ∑ j ∈ s, I (f j) := by
  rw [← map_sum]
  congr 1
  funext x
  rw [Finset.sum_apply]

theorem lin_mul (I : (Pt K → K) →ₗ[K] K) (a : K) (f : Pt K → K) : I (fun x => a * f x) = a * I f :=
  I.map_smul a f

theorem lin_neg (I : (Pt K → K) →ₗ[K] K) (f : Pt K → K) : I (fun x => -f x) = -I f := I.map_neg f

theorem list_sum_map_sum {α : Type} (l : List α) (s : Finset Nat) (f : α → Nat → K) :
    (l.map fun a => ∑ j ∈ s, f a j).sum = ∑ j ∈ s, (l.map fun a => f a j).sum := by
  induction l with
  | nil => simp
  | cons a l ih => simp only [List.map_cons, List.sum_cons, ih, sum_add_distrib]

theorem list_sum_map_mul {α : Type} (l : List α) (a : K) (f : α → K) :
    (l.map fun x => a * f x).sum = a * (l.map f).sum := by
  induction l with
  | nil => simp
  | cons x l ih => simp only [List.map_cons, List.sum_cons, ih, mul_add]

/-! ### The values at the nodes and the moments -/

theorem dSide_count (b : Basis (Pt K) K) (qs : List (QP (Pt K) K)) : ∀ (M : Mat K) (p : Nat),
    (dSide b qs (M, p)).2 = p + qs.length := by
  induction qs with
  | nil => intro M p; rfl
  | cons q qs ih => intro M p; rw [dSide, ih, List.length_cons]; omega

theorem dSide_out (b : Basis (Pt K) K) (qs : List (QP (Pt K) K)) : ∀ (M : Mat K) (p r j : Nat),
    (r < p ∨ p + qs.length ≤ r) → (dSide b qs (M, p)).1 r j = M r j := by
  induction qs with
  | nil => intro M p r j _; rfl
  | cons q qs ih =>
    intro M p r j h
    rw [List.length_cons] at h
    rw [dSide, ih _ _ _ _ (by dsimp only; omega)]
    unfold setBlock
    dsimp only
    rw [if_neg (by omega)]

theorem dSide_in (b : Basis (Pt K) K) (qs : List (QP (Pt K) K)) : ∀ (M : Mat K) (p t j : Nat) (x : QP (Pt K) K),
    qs[t]? = some x → j < b.size → (dSide b qs (M, p)).1 (p + t) j = b.fn x.pt j := by
  induction qs with
  | nil => intro M p t j x h; simp at h
  | cons q qs ih =>
    intro M p t j x h hj
    cases t with
    | zero =>
      obtain rfl : q = x := by simpa using h
      rw [dSide, dSide_out _ _ _ _ _ _ (by dsimp only; omega)]
      unfold setBlock
      dsimp only
      rw [if_pos (by omega), Nat.sub_zero]
    | succ t =>
      have := ih (setBlock M p 0 1 b.size (fun _ j => b.fn q.pt j)) (p + 1) t j x (by simpa using h) hj
      rw [dSide]
      dsimp only
      rw [show p + (t + 1) = p + 1 + t by omega]
      exact this

/-- The state of the loop over the faces of `matrix_D`. -/
def dFold (b : Basis (Pt K) K) (k : Nat) (ss : List (VSide K)) (st : Mat K × Nat) : Mat K × Nat :=
  ss.foldl (fun st s => dSide b (s.lobatto (2 * k - 1)).dropLast st) st

theorem dFold_out (b : Basis (Pt K) K) (k : Nat) (ss : List (VSide K)) : ∀ (M : Mat K) (p r j : Nat),
    (∀ s ∈ ss, (s.lobatto (2 * k - 1)).length = k + 1) → (r < p ∨ p + ss.length * k ≤ r) →
    (dFold b k ss (M, p)).1 r j = M r j := by
  induction ss with
  | nil => intro M p r j _ _; rfl
  | cons s ss ih =>
    intro M p r j hs h
    have hl : (s.lobatto (2 * k - 1)).dropLast.length = k := by
      rw [List.length_dropLast, hs s (List.mem_cons_self ..)]; omega
    have e : dFold b k (s :: ss) (M, p) =
        dFold b k ss ((dSide b (s.lobatto (2 * k - 1)).dropLast (M, p)).1, p + k) := by
      unfold dFold
      rw [List.foldl_cons]
      congr 1
      refine Prod.ext rfl ?_
      rw [dSide_count, hl]
    rw [List.length_cons, Nat.succ_mul] at h
    rw [e, ih _ _ _ _ (fun s hs' => hs s (List.mem_cons_of_mem _ hs')) (by omega), dSide_out _ _ _ _ _ _ (by omega)]

theorem dFold_in (b : Basis (Pt K) K) (k : Nat) (ss : List (VSide K)) : ∀ (M : Mat K) (p t q j : Nat) (s : VSide K)
    (x : QP (Pt K) K), (∀ s ∈ ss, (s.lobatto (2 * k - 1)).length = k + 1) → ss[t]? = some s → q < k →
    (s.lobatto (2 * k - 1))[q]? = some x → j < b.size → (dFold b k ss (M, p)).1 (p + (t * k + q)) j = b.fn x.pt j := by
  induction ss with
  | nil => intro M p t q j s x _ h; simp at h
  | cons s ss ih =>
    intro M p t q j s' x hs h hq hx hj
    have hl : (s.lobatto (2 * k - 1)).dropLast.length = k := by
      rw [List.length_dropLast, hs s (List.mem_cons_self ..)]; omega
    have e : dFold b k (s :: ss) (M, p) =
        dFold b k ss ((dSide b (s.lobatto (2 * k - 1)).dropLast (M, p)).1, p + k) := by
      unfold dFold
      rw [List.foldl_cons]
      congr 1
      refine Prod.ext rfl ?_
      rw [dSide_count, hl]
    have hs' : ∀ s ∈ ss, (s.lobatto (2 * k - 1)).length = k + 1 := fun s hs' => hs s (List.mem_cons_of_mem _ hs')
    rw [e]
    cases t with
    | zero =>
      obtain rfl : s = s' := by simpa using h
      rw [Nat.zero_mul, Nat.zero_add, dFold_out _ _ _ _ _ _ _ hs' (by omega)]
      refine dSide_in _ _ _ _ _ _ _ ?_ hj
      rw [List.getElem?_dropLast, if_pos (by rw [hs s (List.mem_cons_self ..)]; omega), hx]
    | succ t =>
      rw [show p + ((t + 1) * k + q) = p + k + (t * k + q) by rw [Nat.succ_mul]; omega]
      exact ih _ _ _ _ _ _ _ hs' (by simpa using h) hq hx hj

variable {c : VCell K} {k : Nat}

theorem node_lt {c : VCell K} {k i q : Nat} {s : VSide K} (hs : c.sides[i]? = some s) (hq : q < k) : i * k + q < c.nb k := by
  have hi : i < c.sides.length := (List.getElem?_eq_some_iff.1 hs).1
  have : (i + 1) * k ≤ c.sides.length * k := Nat.mul_le_mul_right _ hi
  rw [Nat.succ_mul] at this
  unfold VCell.nb
  omega

theorem D_node (E : Exact c k) {i q j : Nat} {s : VSide K} {x : QP (Pt K) K} (hs : c.sides[i]? = some s) (hq : q < k)
    (hx : (s.lobatto (2 * k - 1))[q]? = some x) (hj : j < cbs k) : matrixD c k (i * k + q) j = (c.basis k).fn x.pt j := by
  have h := dFold_in (c.basis k) k c.sides zero 0 i q j s x E.lob_len hs hq hx hj
  rw [Nat.zero_add] at h
  have hlt := node_lt (c := c) hs hq
  unfold matrixD
  dsimp only
  split_ifs with hk
  · exact h
  · unfold setBlock
    rw [if_neg (by omega), blockFold, if_neg (by omega), add_zero]
    exact h

theorem D_moment (E : Exact c k) (hk : 2 ≤ k) {l j : Nat} (hl : l < lbs k) (hj : j < cbs k) :
    matrixD c k (c.nb k + l) j =
      quad (c.integrate (2 * k - 2)) (fun x => (c.basis (k - 2)).fn x l * (c.basis k).fn x j) / c.area := by
  have h := dFold_out (c.basis k) k c.sides zero 0 (c.nb k + l) j E.lob_len (by unfold VCell.nb; omega)
  unfold matrixD
  dsimp only
  rw [if_neg (by omega)]
  unfold setBlock
  rw [if_pos (by omega), Nat.sub_zero, Nat.add_sub_cancel_left]
  dsimp only
  rw [blockFold, if_pos (by omega)]
  simp only [Nat.add_sub_cancel_left]
  unfold dFold at h
  rw [h]
  simp [zero]

theorem lbs_eq (hk : 2 ≤ k) : lbs k = cbs (k - 2) := by unfold lbs cbs; rw [if_neg (by omega)]

/-- The columns of `matrix_D` are degrees of freedom. -/
theorem D_dofs (E : Exact c k) (u : Nat → K) : IsDofs E (evalFn (c.basis k) u) (app (cbs k) (matrixD c k) u) := by
  constructor
  · intro i s q x hs hq hx
    unfold app evalFn
    refine sum_congr rfl fun j hj => ?_
    rw [D_node E hs hq hx (mem_range.1 hj), mul_comm]
  · intro hk l hl
    have hl' : l < lbs k := by rw [lbs_eq hk]; exact hl
    have e : (fun x => (c.basis (k - 2)).fn x l * evalFn (c.basis k) u x) =
        fun x => ∑ j ∈ range (cbs k), u j * ((c.basis (k - 2)).fn x l * (c.basis k).fn x j) := by
      funext x
      unfold evalFn
      rw [mul_sum]
      exact sum_congr rfl fun j _ => by ring
    rw [e, lin_sum, sum_div]
    unfold app
    refine sum_congr rfl fun j hj => ?_
    have hj' := mem_range.1 hj
    have := D_moment E hk hl' hj'
    unfold VCell.nb at this
    rw [this, lin_mul, ← E.cell_exact (2 * k - 2) (by omega) (fun x => (c.basis (k - 2)).fn x l * (c.basis k).fn x j)
      (mul_mem' c (by omega) (fn_mem c hl) (fn_mem c hj'))]
    ring

theorem dofs_unique (E : Exact c k) (hk : 1 ≤ k) {p : Pt K → K} {v v' : Nat → K} (h : IsDofs E p v) (h' : IsDofs E p v') :
    ∀ r < c.ndof k, v r = v' r := by
  intro r hr
  rcases Nat.lt_or_ge r (c.nb k) with h1 | h1
  · have hi : r / k < c.sides.length := (Nat.div_lt_iff_lt_mul (by omega)).2 h1
    have hq : r % k < k := Nat.mod_lt _ (by omega)
    have hs : c.sides[r / k]? = some c.sides[r / k] := List.getElem?_eq_getElem hi
    have hlen := E.lob_len _ (List.getElem_mem hi)
    have hx : (c.sides[r / k].lobatto (2 * k - 1))[r % k]? = some ((c.sides[r / k].lobatto (2 * k - 1))[r % k]'(by omega)) :=
      List.getElem?_eq_getElem _
    have e : r = r / k * k + r % k := by rw [Nat.mul_comm]; exact (Nat.div_add_mod r k).symm
    rw [e, h.1 _ _ _ _ hs hq hx, h'.1 _ _ _ _ hs hq hx]
  · unfold VCell.ndof at hr
    rcases Nat.lt_or_ge k 2 with h2 | h2
    · obtain rfl : k = 1 := by omega
      have : lbs 1 = 0 := rfl
      omega
    · rw [lbs_eq h2] at hr
      have e : r = c.sides.length * k + (r - c.nb k) := by unfold VCell.nb at *; omega
      rw [e, h.2 h2 _ (by rw [basis_size]; omega), h'.2 h2 _ (by rw [basis_size]; omega)]

theorem dofs_closed (E : Exact c k) (hk : 1 ≤ k) {p : Pt K → K} {v : Nat → K} (h : IsDofs E p v) (t : Nat) (s : VSide K)
    (hs : c.sides[t]? = some s) (q : Nat) (x : QP (Pt K) K) (hx : (s.lobatto (2 * k - 1))[q]? = some x) :
    v ((t * k + q) % c.nb k) = p x.pt := by
  have ht : t < c.sides.length := (List.getElem?_eq_some_iff.1 hs).1
  have hq : q < k + 1 := by
    rw [← E.lob_len s (List.mem_of_getElem? hs)]
    exact (List.getElem?_eq_some_iff.1 hx).1
  rcases Nat.lt_or_ge q k with h1 | h1
  · rw [Nat.mod_eq_of_lt (node_lt hs h1)]
    exact h.1 t s q x hs h1 hx
  · obtain rfl : q = k := by omega
    have hn : (t + 1) % c.sides.length < c.sides.length := Nat.mod_lt _ (by omega)
    have hs' : c.sides[(t + 1) % c.sides.length]? = some c.sides[(t + 1) % c.sides.length] := List.getElem?_eq_getElem hn
    have hlen := E.lob_len _ (List.getElem_mem hn)
    have hx' : (c.sides[(t + 1) % c.sides.length].lobatto (2 * q - 1))[0]? =
        some ((c.sides[(t + 1) % c.sides.length].lobatto (2 * q - 1))[0]'(by omega)) := List.getElem?_eq_getElem _
    have e : (t * q + q) % c.nb q = (t + 1) % c.sides.length * q + 0 := by
      unfold VCell.nb
      rw [← Nat.succ_mul, Nat.mul_mod_mul_right]
      rfl
    rw [e, h.1 _ _ 0 _ hs' (by omega) hx', E.closed t s _ x _ hs hs' hx hx']

/-! ### The right hand side of the projection -/

theorem B_left {i j : Nat} (hi : i < cbs k) (hj : j < c.nb k) (h0 : k = 1 → i ≠ 0) : matrixB c k i j = matrixBF c k i j := by
  unfold matrixB
  split_ifs with hk
  · unfold setBlock
    rw [if_neg (by have := h0 hk; omega), if_pos (by omega)]
    rfl
  · unfold setEntry setBlock
    rw [if_neg (by omega), if_neg (by omega), if_pos (by omega)]
    rfl

theorem B_right (hk : 2 ≤ k) {i l : Nat} (hi : i < cbs k) (hl : l < lbs k) (h0 : ¬ (i = 0 ∧ l = 0)) :
    matrixB c k i (c.nb k + l) = matrixBT c k i l := by
  unfold matrixB
  rw [if_neg (by omega)]
  unfold setEntry setBlock
  rw [if_neg (by omega), if_pos (by omega)]
  simp

theorem app_B_succ (hk : 1 ≤ k) (v : Nat → K) {i : Nat} (hi : i < cbs k) (h0 : i ≠ 0) : app (c.ndof k) (matrixB c k) v i =
    app (c.nb k) (matrixBF c k) v i + ∑ l ∈ range (lbs k), matrixBT c k i l * v (c.nb k + l) := by
  unfold app VCell.ndof
  rw [sum_range_add]
  congr 1
  · exact sum_congr rfl fun j hj => by rw [B_left hi (mem_range.1 hj) fun _ => h0]
  · refine sum_congr rfl fun l hl => ?_
    rcases Nat.lt_or_ge k 2 with h2 | h2
    · obtain rfl : k = 1 := by omega
      exact absurd (mem_range.1 hl) (Nat.not_lt_zero _)
    · rw [B_right h2 hi (mem_range.1 hl) fun h => h0 h.1]

theorem bfSide_zero {n nb : Nat} {g : Pt K → Nat → K} (hg : ∀ x, g x 0 = 0) (qs : List (QP (Pt K) K)) :
    ∀ (p : Nat) (M : Mat K) (j : Nat), (∀ j, M 0 j = 0) → bfSide n nb g qs p M 0 j = 0 := by
  induction qs with
  | nil => intro p M j h; exact h j
  | cons q qs ih =>
    intro p M j h
    rw [bfSide]
    refine ih _ _ _ fun j => ?_
    unfold addBlock
    simp [h, hg]

theorem bfSides_zero {b : Basis (Pt K) K} {k nb : Nat} (hb : ∀ x, b.grad x 0 = fun _ => 0) (ss : List (VSide K)) :
    ∀ (p : Nat) (M : Mat K) (j : Nat), (∀ j, M 0 j = 0) → bfSides b k nb ss p M 0 j = 0 := by
  induction ss with
  | nil => intro p M j h; exact h j
  | cons s ss ih =>
    intro p M j h
    rw [bfSides]
    refine ih _ _ _ fun j => bfSide_zero (fun x => ?_) _ _ _ _ h
    rw [hb, dot_zero_left]

theorem BF_zero (j : Nat) : matrixBF c k 0 j = 0 := bfSides_zero (grad_zero c k) _ _ _ _ fun _ => rfl

theorem BT_zero (l : Nat) : matrixBT c k 0 l = 0 := by
  have := BT_eq c (k := k) (t := 0) (i := 0) (Nat.zero_le _) (le_refl _) l
  simpa [tri] using this

theorem app_B_zero (hk : 2 ≤ k) (v : Nat → K) : app (c.ndof k) (matrixB c k) v 0 = v (c.nb k) := by
  have hl : 0 < lbs k := by rw [lbs_eq hk]; exact cbs_pos _
  unfold app VCell.ndof
  rw [sum_range_add, sum_eq_zero, zero_add, sum_eq_single 0]
  · have : matrixB c k 0 (c.nb k + 0) = 1 := by
      unfold matrixB
      rw [if_neg (by omega)]
      unfold setEntry
      rw [if_pos ⟨rfl, rfl⟩]
    rw [this, one_mul, Nat.add_zero]
  · intro l hl' h
    rw [B_right hk (cbs_pos k) (mem_range.1 hl') (by omega), BT_zero, zero_mul]
  · intro h; exact absurd (mem_range.2 hl) h
  · intro j hj
    rw [B_left (cbs_pos k) (mem_range.1 hj) (by omega), BF_zero, zero_mul]

theorem app_B_zero_lin (v : Nat → K) : app (c.ndof 1) (matrixB c 1) v 0 =
    (∑ r ∈ range c.sides.length, v r) / (c.sides.length : K) := by
  have e : c.ndof 1 = c.sides.length := by unfold VCell.ndof VCell.nb; rw [Nat.mul_one]; rfl
  unfold app
  rw [sum_div, e]
  refine sum_congr rfl fun r hr => ?_
  have : matrixB c 1 0 r = 1 / (c.sides.length : K) := by
    have := mem_range.1 hr
    unfold matrixB
    rw [if_pos rfl]
    unfold setBlock
    rw [if_pos (by rw [e]; omega)]
  rw [this]
  ring

/-- `p = Σ u_j m_j` -/
theorem evalFn_mono (c : VCell K) (n : Nat) (u : Nat → K) (x : Pt K) :
    evalFn (c.basis n) u x = ∑ j ∈ range (cbs n), u j * mono c (exOf n j) x :=
  sum_congr rfl fun j hj => by rw [basis_fn c x (mem_range.1 hj)]

theorem dot_basis (c : VCell K) (x : Pt K) {n i : Nat} (hi : i < cbs n) (b : Nat → K) :
    dot 2 ((c.basis n).grad x i) b = dot 2 (gradMono c (exOf n i) x) b :=
  sum_congr rfl fun m _ => by rw [basis_grad c x hi]

theorem dot_evalGrad (c : VCell K) (n : Nat) (u : Nat → K) (x : Pt K) (a : Nat → K) :
    dot 2 a (evalGrad (c.basis n) u x) = ∑ j ∈ range (cbs n), u j * dot 2 a (gradMono c (exOf n j) x) := by
  have : dot 2 a (evalGrad (c.basis n) u x) = ∑ j ∈ range (cbs n), u j * dot 2 a ((c.basis n).grad x j) := dot_sum ..
  rw [this]
  exact sum_congr rfl fun j hj => by rw [dot_comm, dot_basis c x (mem_range.1 hj), dot_comm]

/-- The rows of `matrix_B` but the first integrate by parts, for any function. -/
theorem app_B_fun (E : Exact c k) (hk : 1 ≤ k) {q : Pt K → K} {v : Nat → K} (h : IsDofs E q v) {i : Nat}
    (hi : i < cbs k) (h0 : i ≠ 0) : app (c.ndof k) (matrixB c k) v i =
      (c.sides.map fun s => quad (s.lobatto (2 * k - 1)) fun x => dot 2 ((c.basis k).grad x i) s.normal * q x).sum -
        E.IT fun x => lapMono c (exOf k i) x * q x := by
  have hBF : app (c.nb k) (matrixBF c k) v i = (c.sides.map fun s => quad (s.lobatto (2 * k - 1)) fun x =>
      dot 2 ((c.basis k).grad x i) s.normal * q x).sum := by
    rcases Nat.eq_zero_or_pos c.sides.length with hz | hz
    · have : c.sides = [] := List.length_eq_zero_iff.1 hz
      unfold VCell.nb app
      rw [this]
      simp
    · have hnb : 0 < c.nb k := Nat.mul_pos hz hk
      unfold matrixBF
      rw [bfSides_app (c.basis k) hi hnb v q c.sides 0 zero (fun t s hs q x hx => by
        rw [Nat.zero_add]; exact dofs_closed E hk h t s hs q x hx), app_zero, zero_add]
  have hBT : ∑ l ∈ range (lbs k), matrixBT c k i l * v (c.nb k + l) = -E.IT (fun x => lapMono c (exOf k i) x * q x) := by
    have e1 : ∑ l ∈ range (lbs k), matrixBT c k i l * v (c.nb k + l) =
        E.IT (fun x => ∑ l ∈ range (lbs k), matrixBT c k i l * mono c (exOf (k - 2) l) x * q x) / c.area := by
      rw [lin_sum, sum_div]
      refine sum_congr rfl fun l hl => ?_
      rcases Nat.lt_or_ge k 2 with h2 | h2
      · obtain rfl : k = 1 := by omega
        exact absurd (mem_range.1 hl) (Nat.not_lt_zero _)
      · have hl' : l < cbs (k - 2) := by rw [← lbs_eq h2]; exact mem_range.1 hl
        have := h.2 h2 l hl'
        simp only [basis_fn c _ hl'] at this
        unfold VCell.nb
        rw [this]
        simp only [mul_assoc]
        rw [lin_mul]
        ring
    have e2 : (fun x => ∑ l ∈ range (lbs k), matrixBT c k i l * mono c (exOf (k - 2) l) x * q x) =
        fun x => -c.area * (lapMono c (exOf k i) x * q x) := by
      funext x
      rw [← sum_mul, BT_lap c hk hi]
      ring
    rw [e1, e2, lin_mul]
    have := E.area_ne
    field_simp
  rw [app_B_succ hk v hi h0, hBF, hBT, sub_eq_add_neg]

/-- For a polynomial of degree `k` this is the integral of the gradients. -/
theorem app_B_green (E : Exact c k) (hk : 1 ≤ k) {u v : Nat → K} (h : IsDofs E (evalFn (c.basis k) u) v) {i : Nat}
    (hi : i < cbs k) (h0 : i ≠ 0) : app (c.ndof k) (matrixB c k) v i =
      E.IT fun x => dot 2 ((c.basis k).grad x i) (evalGrad (c.basis k) u x) := by
  have hBF : (c.sides.map fun s => quad (s.lobatto (2 * k - 1)) fun x =>
      dot 2 ((c.basis k).grad x i) s.normal * evalFn (c.basis k) u x).sum =
      ∑ j ∈ range (cbs k), u j * (c.sides.map fun s => E.IF s fun x =>
        dot 2 (gradMono c (exOf k i) x) s.normal * mono c (exOf k j) x).sum := by
    simp only [← list_sum_map_mul]
    rw [← list_sum_map_sum]
    refine congrArg _ (List.map_congr_left fun s hs => ?_)
    have e : (fun x => dot 2 ((c.basis k).grad x i) s.normal * evalFn (c.basis k) u x) =
        fun x => ∑ j ∈ range (cbs k), u j * (dot 2 (gradMono c (exOf k i) x) s.normal * mono c (exOf k j) x) := by
      funext x
      rw [dot_basis c x hi, evalFn_mono, mul_sum]
      exact sum_congr rfl fun j _ => by ring
    have hm : (fun x => dot 2 ((c.basis k).grad x i) s.normal) ∈ polys c (k - 1) :=
      sum_mem' c _ fun m _ => by
        have := scal_mem c (s.normal m) (gradFn_mem c hi m)
        simpa only [mul_comm] using this
    rw [E.lob_exact s hs (fun x => dot 2 ((c.basis k).grad x i) s.normal * evalFn (c.basis k) u x)
      (mul_mem' c (by omega) hm (evalFn_mem c k u)), e, lin_sum]
    exact sum_congr rfl fun j _ => lin_mul ..
  have hBT : (E.IT fun x => lapMono c (exOf k i) x * evalFn (c.basis k) u x) =
      ∑ j ∈ range (cbs k), u j * E.IT (fun x => lapMono c (exOf k i) x * mono c (exOf k j) x) := by
    have e2 : (fun x => lapMono c (exOf k i) x * evalFn (c.basis k) u x) =
        fun x => ∑ j ∈ range (cbs k), u j * (lapMono c (exOf k i) x * mono c (exOf k j) x) := by
      funext x
      rw [evalFn_mono, mul_sum]
      exact sum_congr rfl fun j _ => by ring
    rw [e2, lin_sum]
    exact sum_congr rfl fun j _ => lin_mul ..
  rw [app_B_fun E hk h hi h0, hBF, hBT, ← sum_sub_distrib]
  simp only [dot_evalGrad, dot_basis c _ hi]
  rw [lin_sum]
  refine sum_congr rfl fun j _ => ?_
  rw [lin_mul, E.green (exOf k i) (exOf k j) (exOf_deg k i) (exOf_deg k j)]
  ring

/-! ### The projection -/

theorem quad_grad (E : Exact c k) (u w : Nat → K) :
    quad (c.integrate (2 * (k - 1))) (fun x => dot 2 (evalGrad (c.basis k) w x) (evalGrad (c.basis k) u x)) =
      E.IT fun x => dot 2 (evalGrad (c.basis k) w x) (evalGrad (c.basis k) u x) :=
  E.cell_exact _ (by omega) _ (sum_mem' c _ fun m _ => mul_mem' c (by omega) (evalGrad_mem c k w m) (evalGrad_mem c k u m))

theorem quad_grad_basis (E : Exact c k) (u : Nat → K) {i : Nat} (hi : i < cbs k) :
    quad (c.integrate (2 * (k - 1))) (fun x => dot 2 ((c.basis k).grad x i) (evalGrad (c.basis k) u x)) =
      E.IT fun x => dot 2 ((c.basis k).grad x i) (evalGrad (c.basis k) u x) :=
  E.cell_exact _ (by omega) _ (sum_mem' c _ fun m _ => mul_mem' c (by omega) (gradFn_mem c hi m) (evalGrad_mem c k u m))

theorem G_rows (E : Exact c k) (hk : 1 ≤ k) (u : Nat → K) {i : Nat} (hi : i < cbs k) (h0 : i ≠ 0) :
    app (cbs k) (matrixG c k) u i = E.IT fun x => dot 2 ((c.basis k).grad x i) (evalGrad (c.basis k) u x) := by
  rw [app_G_succ c hk u h0, quad_grad_basis E u hi]

theorem fn_zero (c : VCell K) (n : Nat) (x : Pt K) : (c.basis n).fn x 0 = 1 := by
  rw [basis_fn c x (cbs_pos n), exOf_zero, mono_zero]

theorem one_mem (c : VCell K) (n : Nat) : (fun _ => (1 : K)) ∈ polys c n := by
  have := mono_mem c (e := (0, 0)) (Nat.zero_le n)
  have e : mono c (0, 0) = fun _ => (1 : K) := by funext x; exact mono_zero c x
  rwa [e] at this

theorem G_nonsing (E : Exact c k) (hk : 1 ≤ k) (hd : Definite E) : Nonsing (cbs k) (matrixG c k) := by
  intro x hx
  have hrow : ∀ i < cbs k, i ≠ 0 → E.IT (fun p => dot 2 ((c.basis k).grad p i) (evalGrad (c.basis k) x p)) = 0 := by
    intro i hi h0
    rw [← G_rows E hk x hi h0]
    exact hx i hi
  have hz : ∀ i, 0 < i → i < cbs k → x i = 0 := by
    refine hd x ?_
    have e : (fun p => dot 2 (evalGrad (c.basis k) x p) (evalGrad (c.basis k) x p)) =
        fun p => ∑ i ∈ range (cbs k), x i * dot 2 ((c.basis k).grad p i) (evalGrad (c.basis k) x p) := by
      funext p
      have : dot 2 (evalGrad (c.basis k) x p) (evalGrad (c.basis k) x p) =
        ∑ i ∈ range (cbs k), x i * dot 2 (evalGrad (c.basis k) x p) ((c.basis k).grad p i) := dot_sum ..
      rw [this]
      exact sum_congr rfl fun i _ => by rw [dot_comm]
    rw [e, lin_sum]
    refine sum_eq_zero fun i hi => ?_
    rw [lin_mul]
    by_cases h0 : i = 0
    · subst h0
      simp only [grad_zero, dot_zero_left]
      have : E.IT (fun _ => (0 : K)) = 0 := E.IT.map_zero
      rw [this, mul_zero]
    · rw [hrow i (mem_range.1 hi) h0, mul_zero]
  intro j hj
  rcases Nat.eq_zero_or_pos j with rfl | h
  · have h1 := hx 0 hj
    rw [sum_eq_single 0 (fun b hb hb0 => by rw [hz b (by omega) (mem_range.1 hb), mul_zero])
      (fun h => absurd (mem_range.2 hj) h), G_zero c hk hj] at h1
    simp only [fn_zero] at h1
    rw [E.cell_exact _ (by omega) _ (one_mem c _), E.area_eq, div_self E.area_ne, one_mul] at h1
    exact h1
  · exact hz j h hj

theorem app_LU (F : LU K) (E : Exact c k) (hk : 1 ≤ k) (hd : Definite E) (m : Nat) (v : Nat → K) {i : Nat} (hi : i < cbs k) :
    app (cbs k) (matrixG c k) (app m (projectorNabla F c k (matrixG c k)) v) i = app m (matrixB c k) v i := by
  unfold app
  simp only [mul_sum]
  rw [sum_comm]
  refine sum_congr rfl fun j _ => ?_
  have := F.solves (cbs k) (matrixG c k) (fun r => matrixB c k r j) (G_nonsing E hk hd) i hi
  rw [← this, sum_mul]
  exact sum_congr rfl fun l _ => by simp only [projectorNabla]; ring

/-- The projection of a polynomial, `k ≥ 2`. -/
theorem nabla_poly (F : LU K) (E : Exact c k) (hk : 2 ≤ k) (hd : Definite E) {u v : Nat → K}
    (h : IsDofs E (evalFn (c.basis k) u) v) {j : Nat} (hj : j < cbs k) :
    app (c.ndof k) (projectorNabla F c k (matrixG c k)) v j = u j := by
  refine solve_unique (G_nonsing E (by omega) hd) (fun i hi => ?_) j hj
  rw [app_LU F E (by omega) hd _ v hi]
  by_cases h0 : i = 0
  · subst h0
    rw [app_B_zero hk, app_G_zero c (by omega), E.cell_exact _ (by omega) _ (polys_mono c (by omega) (evalFn_mem c k u))]
    have := h.2 hk 0 (cbs_pos _)
    rw [Nat.add_zero] at this
    simp only [fn_zero, one_mul] at this
    exact this
  · rw [app_B_green E (by omega) h hi h0, G_rows E (by omega) u hi h0]

theorem sum_sides (f : VSide K → K) (l : List (VSide K)) : ∀ (v : Nat → K), (∀ i s, l[i]? = some s → v i = f s) →
    ∑ r ∈ range l.length, v r = (l.map f).sum := by
  induction l with
  | nil => intro v _; rfl
  | cons s l ih =>
    intro v h
    rw [List.length_cons, sum_range_succ', List.map_cons, List.sum_cons, h 0 s rfl,
      ih (fun r => v (r + 1)) fun i s' hs => h (i + 1) s' (by simpa using hs), add_comm]

theorem lin_mean {E : Exact c 1} {p : Pt K → K} {v : Nat → K} (h : IsDofs E p v) :
    (∑ r ∈ range c.sides.length, v r) / (c.sides.length : K) = vertexMean c 1 p := by
  unfold vertexMean
  congr 1
  refine sum_sides _ _ _ fun i s hs => ?_
  have hlen := E.lob_len s (List.mem_of_getElem? hs)
  have hx : (s.lobatto (2 * 1 - 1))[0]? = some ((s.lobatto (2 * 1 - 1))[0]'(by omega)) := List.getElem?_eq_getElem _
  have := h.1 i s 0 _ hs (by omega) hx
  rw [hx]
  simpa using this

/-- The projection of a polynomial of degree one, `k = 1`. -/
theorem nabla_lin (F : LU K) (E : Exact c 1) (hd : Definite E) {u v : Nat → K} (h : IsDofs E (evalFn (c.basis 1) u) v) {j : Nat}
    (hj : j < cbs 1) : app (c.ndof 1) (projectorNabla F c 1 (matrixG c 1)) v j =
      u j + if j = 0 then vertexMean c 1 (evalFn (c.basis 1) u) -
        quad (c.integrate 0) (evalFn (c.basis 1) u) / c.area else 0 := by
  set δ := vertexMean c 1 (evalFn (c.basis 1) u) - quad (c.integrate 0) (evalFn (c.basis 1) u) / c.area with hδ
  refine solve_unique (y := fun j => u j + if j = 0 then δ else 0) (G_nonsing E (le_refl _) hd) (fun i hi => ?_) j hj
  rw [app_LU F E (le_refl _) hd _ v hi]
  by_cases h0 : i = 0
  · subst h0
    have e : evalFn (c.basis 1) (fun j => u j + if j = 0 then δ else 0) = fun x => evalFn (c.basis 1) u x + δ * 1 := by
      funext x
      unfold evalFn
      simp only [add_mul, sum_add_distrib, ite_mul, zero_mul]
      rw [sum_ite_eq', if_pos (mem_range.2 (show 0 < (c.basis 1).size from cbs_pos 1)), fn_zero]
    rw [app_B_zero_lin, lin_mean h, app_G_zero c (le_refl _), e, quad_add, quad_mul,
      E.cell_exact (2 * (1 - 1)) (by omega) _ (one_mem c _), E.area_eq, add_div, mul_div_assoc, div_self E.area_ne,
      mul_one, hδ]
    ring
  · rw [app_B_green E (le_refl _) h hi h0, G_rows E (le_refl _) _ hi h0]
    congr 1
    funext x
    congr 1
    funext m
    unfold evalGrad
    simp only [add_mul, sum_add_distrib, ite_mul, zero_mul]
    rw [sum_ite_eq', if_pos (mem_range.2 (show 0 < (c.basis 1).size from cbs_pos 1)), grad_zero]
    simp

/-! ### The stiffness matrix -/

theorem form_tmul (n m : Nat) (A B : Mat K) (w v : Nat → K) :
    form n (mul m (tpose A) B) w v = ∑ r ∈ range m, app n A w r * app n B v r := by
  unfold form
  simp only [app_mul]
  simp only [app, tpose, mul_sum, sum_mul]
  rw [sum_comm]
  refine sum_congr rfl fun r _ => ?_
  rw [sum_comm]
  refine sum_congr rfl fun j _ => sum_congr rfl fun i _ => ?_
  ring

theorem form_add (n : Nat) (A B : Mat K) (w v : Nat → K) :
    form n (fun i j => A i j + B i j) w v = form n A w v + form n B w v := by
  unfold form app
  simp only [add_mul, sum_add_distrib, mul_add]

/-- The bilinear form of the stiffness matrix. -/
theorem stiffness_form (hk : 1 ≤ k) (PI : Mat K) (w v : Nat → K) :
    form (c.ndof k) (localStiffness c k (matrixG c k) (matrixD c k) PI) w v =
      quad (c.integrate (2 * (k - 1))) (fun x => dot 2 (evalGrad (c.basis k) (app (c.ndof k) PI w) x)
        (evalGrad (c.basis k) (app (c.ndof k) PI v) x)) +
      ∑ r ∈ range (c.ndof k), (w r - app (cbs k) (matrixD c k) (app (c.ndof k) PI w) r) *
        (v r - app (cbs k) (matrixD c k) (app (c.ndof k) PI v) r) := by
  have hR : ∀ (v : Nat → K) (r : Nat), r < c.ndof k →
      app (c.ndof k) (fun i j => ident i j - mul (cbs k) (matrixD c k) PI i j) v r =
        v r - app (cbs k) (matrixD c k) (app (c.ndof k) PI v) r := by
    intro v r hr
    rw [← app_mul, ← app_ident hr v]
    unfold app
    rw [← sum_sub_distrib]
    exact sum_congr rfl fun j _ => sub_mul _ _ _
  have hA : ∀ a < cbs k, app (c.ndof k) (fun i j => if i = 0 then 0 else mul (cbs k) (matrixG c k) PI i j) v a =
      quad (c.integrate (2 * (k - 1))) fun x =>
        dot 2 ((c.basis k).grad x a) (evalGrad (c.basis k) (app (c.ndof k) PI v) x) := by
    intro a _
    by_cases h0 : a = 0
    · subst h0
      simp only [grad_zero, dot_zero_left]
      rw [quad_zero]
      unfold app
      exact sum_eq_zero fun j _ => by dsimp only; rw [if_pos rfl, zero_mul]
    · rw [← app_G_succ c hk _ h0, ← app_mul]
      unfold app
      exact sum_congr rfl fun j _ => by dsimp only; rw [if_neg h0]
  unfold localStiffness
  dsimp only
  rw [form_add, form_tmul, form_tmul]
  congr 1
  · have e : ∀ x, dot 2 (evalGrad (c.basis k) (app (c.ndof k) PI w) x) (evalGrad (c.basis k) (app (c.ndof k) PI v) x) =
        ∑ a ∈ range (cbs k), app (c.ndof k) PI w a *
          dot 2 ((c.basis k).grad x a) (evalGrad (c.basis k) (app (c.ndof k) PI v) x) := by
      intro x
      rw [dot_comm]
      have : dot 2 (evalGrad (c.basis k) (app (c.ndof k) PI v) x) (evalGrad (c.basis k) (app (c.ndof k) PI w) x) =
        ∑ a ∈ range (cbs k), app (c.ndof k) PI w a *
          dot 2 (evalGrad (c.basis k) (app (c.ndof k) PI v) x) ((c.basis k).grad x a) := dot_sum ..
      rw [this]
      exact sum_congr rfl fun a _ => by rw [dot_comm]
    simp only [e]
    rw [quad_sum]
    refine sum_congr rfl fun a ha => ?_
    rw [hA a (mem_range.1 ha), quad_mul]
  · refine sum_congr rfl fun r hr => ?_
    rw [hR w r (mem_range.1 hr), hR v r (mem_range.1 hr)]

/-- A form that is symmetric comes from a symmetric matrix. -/
theorem sym_of_form {n : Nat} {M : Mat K} (h : ∀ w v : Nat → K, form n M w v = form n M v w) : SymOn n M := by
  have e : ∀ i < n, ∀ j < n, form n M (fun a => if a = i then 1 else 0) (fun a => if a = j then 1 else 0) = M i j := by
    intro i hi j hj
    unfold form app
    simp only [mul_ite, mul_one, mul_zero, ite_mul, one_mul, zero_mul]
    simp [hi, hj]
  intro i hi j hj
  rw [← e i hi j hj, h, e j hj i hi]

/-! ### The other projection -/

theorem pbs_ge (hk : 1 ≤ k) : lbs k ≤ cbs (k - 1) := by
  rw [lbs_tri hk, cbs_tri]
  exact tri_mono (by omega)

theorem cbs_mono {m n : Nat} (h : m ≤ n) : cbs m ≤ cbs n := by rw [cbs_tri, cbs_tri]; exact tri_mono (by omega)

theorem fn_nested (c : VCell K) {m n i : Nat} (h : m ≤ n) (hi : i < cbs m) (x : Pt K) :
    (c.basis n).fn x i = (c.basis m).fn x i := by
  rw [basis_fn c x hi, basis_fn c x (hi.trans_le (cbs_mono h)), exOf_nested h (by rw [← cbs_tri]; exact hi)]

theorem app_H (E : Exact c k) (x : Nat → K) {i : Nat} (hi : i < cbs (k - 1)) :
    app (cbs (k - 1)) (mass c.elem (k - 1) (c.basis (k - 1))) x i =
      E.IT fun p => (c.basis (k - 1)).fn p i * evalFn (c.basis (k - 1)) x p := by
  rw [app_eval (fun j _ => mass_eq _ _ _ _ _)]
  exact E.cell_exact (2 * (k - 1)) (by omega) _ (mul_mem' c (by omega) (fn_mem c hi) (evalFn_mem c (k - 1) x))

theorem H_nonsing (E : Exact c k) (hm : MassOk E) : Nonsing (cbs (k - 1)) (mass c.elem (k - 1) (c.basis (k - 1))) := by
  intro x hx
  refine hm x ?_
  have e : (fun p => evalFn (c.basis (k - 1)) x p * evalFn (c.basis (k - 1)) x p) = fun p =>
      ∑ i ∈ range (cbs (k - 1)), x i * ((c.basis (k - 1)).fn p i * evalFn (c.basis (k - 1)) x p) := by
    funext p
    conv_lhs => arg 1; unfold evalFn
    rw [sum_mul]
    exact sum_congr rfl fun i _ => by ring
  rw [e, lin_sum]
  refine sum_eq_zero fun i hi => ?_
  rw [lin_mul, ← app_H E x (mem_range.1 hi)]
  have := hx i (mem_range.1 hi)
  unfold app
  rw [this, mul_zero]

/-- The first rows of `projector_zero`: moments. -/
theorem zero_moment (S : Solver K) (E : Exact c k) (hk : 2 ≤ k) (hm : MassOk E) (PIN : Mat K) (v : Nat → K) {l : Nat}
    (hl : l < lbs k) :
    (E.IT fun p => (c.basis (k - 1)).fn p l *
      evalFn (c.basis (k - 1)) (app (c.ndof k) (projectorZero S c k PIN) v) p) = c.area * v (c.nb k + l) := by
  have hp := pbs_ge (show 1 ≤ k by omega)
  rw [← app_H E _ (hl.trans_le hp)]
  unfold projectorZero
  dsimp only
  rw [if_neg (by omega), show scalarBasisSize (k - 1) 2 = cbs (k - 1) from rfl,
    app_solveMat S (mass_sym _ _ _ _) (H_nonsing E hm) v (hl.trans_le hp)]
  unfold app
  rw [sum_eq_single (c.nb k + l)]
  · unfold setBlock
    rw [if_neg (by omega), if_pos (by omega)]
    simp [ident]
  · intro j hj hne
    unfold setBlock
    rw [if_neg (by omega)]
    split_ifs with h
    · simp only [ident, Nat.sub_zero]
      rw [if_neg (by omega), zero_mul, zero_mul]
    · simp [zero]
  · intro h
    exact absurd (mem_range.2 (by unfold VCell.ndof; omega)) h

/-- The remaining rows: those of the gradient projection cut off at the degree `k - 1`. -/
theorem zero_rest (S : Solver K) (E : Exact c k) (hk : 2 ≤ k) (hm : MassOk E) (PIN : Mat K) (v : Nat → K) {i : Nat}
    (hl : lbs k ≤ i) (hi : i < cbs (k - 1)) :
    (E.IT fun p => (c.basis (k - 1)).fn p i *
      evalFn (c.basis (k - 1)) (app (c.ndof k) (projectorZero S c k PIN) v) p) =
    E.IT fun p => (c.basis (k - 1)).fn p i * evalFn (c.basis (k - 1)) (app (c.ndof k) PIN v) p := by
  rw [← app_H E _ hi, ← app_H E _ hi]
  unfold projectorZero
  dsimp only
  rw [if_neg (by omega), show scalarBasisSize (k - 1) 2 = cbs (k - 1) from rfl,
    app_solveMat S (mass_sym _ _ _ _) (H_nonsing E hm) v hi, ← app_mul]
  unfold app
  refine sum_congr rfl fun j hj => ?_
  have := mem_range.1 hj
  unfold setBlock
  rw [if_pos (by omega)]
  simp only [mul, block, Nat.sub_zero, Nat.zero_add]
  rw [show lbs k + (i - lbs k) = i by omega]

theorem zero_low (S : Solver K) (E : Exact c 1) (hm : MassOk E) (PIN : Mat K) (v : Nat → K) :
    app (c.ndof 1) (projectorZero S c 1 PIN) v 0 = app (c.ndof 1) PIN v 0 := by
  refine solve_unique (H_nonsing E hm) (fun i hi => ?_) 0 (cbs_pos _)
  unfold projectorZero
  dsimp only
  rw [if_pos rfl, show scalarBasisSize (1 - 1) 2 = cbs (1 - 1) from rfl,
    app_solveMat S (mass_sym _ _ _ _) (H_nonsing E hm) v hi, app_mul]

theorem rhs_eq (PI0 : Mat K) (f : Pt K → K) (v : Nat → K) :
    ∑ r ∈ range (c.ndof k), v r * localRhs c k PI0 f r =
      quad (c.integrate (2 * k)) fun x => f x * evalFn (c.basis (k - 1)) (app (c.ndof k) PI0 v) x := by
  have h : ∀ (qs : List (QP (Pt K) K)) (w : Nat → K) (r : Nat), (qs.foldl (fun v q => fun r =>
      v r + (∑ i ∈ range (scalarBasisSize (k - 1) 2), PI0 i r * (c.basis (k - 1)).fn q.pt i) * (q.w * f q.pt)) w) r =
      w r + quad qs fun x => (∑ i ∈ range (cbs (k - 1)), PI0 i r * (c.basis (k - 1)).fn x i) * f x := by
    intro qs
    induction qs with
    | nil => intro w r; simp [quad]
    | cons q qs ih =>
      intro w r
      rw [List.foldl_cons, ih, quad_cons]
      unfold cbs
      ring
  unfold localRhs
  simp only [h, zero_add, ← quad_mul]
  rw [← quad_sum]
  refine quad_congr fun q _ => ?_
  have e : evalFn (c.basis (k - 1)) (app (c.ndof k) PI0 v) q.pt =
      ∑ i ∈ range (cbs (k - 1)), ∑ r ∈ range (c.ndof k), PI0 i r * v r * (c.basis (k - 1)).fn q.pt i :=
    sum_congr rfl fun i _ => by unfold app; rw [sum_mul]
  rw [e, sum_comm, mul_sum]
  refine sum_congr rfl fun r _ => ?_
  rw [mul_sum, sum_mul, mul_sum]
  exact sum_congr rfl fun i _ => by ring

/-- The result of `compute_local`. -/
theorem local_eq {F : LU K} {S : Solver K} {c : VCell K} {k : Nat} {f : Pt K → K} {M : Mat K} {b : Nat → K}
    (h : computeLocal F S c k f = .ok (M, b)) : 1 ≤ k ∧
      M = localStiffness c k (matrixG c k) (matrixD c k) (projectorNabla F c k (matrixG c k)) ∧
      b = localRhs c k (projectorZero S c k (projectorNabla F c k (matrixG c k))) f := by
  unfold computeLocal at h
  by_cases hk : k = 0
  · rw [if_pos hk] at h; cases h
  · rw [if_neg hk] at h
    injection h with h
    injection h with h1 h2
    exact ⟨by omega, h1.symm, h2.symm⟩

theorem hasGrad_comb {f g : Pt ℝ → ℝ} {a b x : Pt ℝ} (hf : Verif.Spec.HasGrad f a x) (hg : Verif.Spec.HasGrad g b x)
    (s t : ℝ) : Verif.Spec.HasGrad (fun y => s * f y + t * g y) (fun m => s * a m + t * b m) x := by
  obtain ⟨L, hL, hL'⟩ := hf
  obtain ⟨M, hM, hM'⟩ := hg
  refine ⟨s • L + t • M, (hL.const_mul s).add (hM.const_mul t), fun v => ?_⟩
  simp only [ContinuousLinearMap.add_apply, ContinuousLinearMap.smul_apply, smul_eq_mul, hL', hM', dotProduct]
  rw [mul_sum, mul_sum, ← sum_add_distrib]
  exact sum_congr rfl fun i _ => by ring

end Verif.Vem
