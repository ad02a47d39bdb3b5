import Mathlib.Tactic.NormNum
import Mathlib.Tactic.Positivity
import Mathlib.Tactic.Linarith
import Verif.Lemmas.HhoExample
import Verif.Lemmas.Vem
/-!
Instances of the hypotheses of the virtual element theorems: an exact factorisation; the triangle (-3, 0), (3, 0), (0, 4)
with the closed Newton-Cotes rule of degree 4, for the method of degree two; the unit square with a hanging node in the
middle of its lower side, with Simpson's rule, for the method of degree one.
-/
namespace Verif.Vem
open Finset Verif.Bases Verif.Util Verif.Hho LocalMatrix Verif.Spec.Hho Verif.Spec.Vem Verif.Lemmas.Hho

open Classical in
/-- An exact factorisation. -/
noncomputable def exactLU (K : Type) [Field K] : LU K where
  solve n A b := if h : ∃ x : Nat → K, ∀ i < n, ∑ j ∈ range n, A i j * x j = b i then Classical.choose h else fun _ => 0
  solves n A b hn i hi := by
    have h := exists_solution n A b hn
    rw [dif_pos h]
    exact Classical.choose_spec h i hi

/-- A rule as a linear form. -/
def ruleLin {K : Type} [Field K] (qs : List (QP (Pt K) K)) : (Pt K → K) →ₗ[K] K where
  toFun := quad qs
  map_add' u v := quad_add qs u v
  map_smul' a v := quad_mul qs a v

/-- A side with a fixed rule. -/
def sideOf (n0 n1 : ℚ) (qs : List (QP (Pt ℚ) ℚ)) : VSide ℚ := ⟨fun m => if m = 0 then n0 else n1, fun _ => qs⟩

/-- The rule on the triangle. -/
def triRule : List (QP (Pt ℚ) ℚ) :=
  [⟨![3 / 4, 3], 16 / 15⟩, ⟨![3 / 2, 2], -4 / 15⟩, ⟨![9 / 4, 1], 16 / 15⟩, ⟨![-3 / 4, 3], 16 / 15⟩, 
   ⟨![0, 2], 32 / 15⟩, ⟨![3 / 4, 1], 32 / 15⟩, ⟨![3 / 2, 0], 16 / 15⟩, ⟨![-3 / 2, 2], -4 / 15⟩, 
   ⟨![-3 / 4, 1], 32 / 15⟩, ⟨![0, 0], -4 / 15⟩, ⟨![-9 / 4, 1], 16 / 15⟩, ⟨![-3 / 2, 0], 16 / 15⟩]

/-- The triangle. -/
def triCell : VCell ℚ where
  axes := 1
  len := fun _ => 2
  bar := ![0, 4 / 3]
  integrate := fun _ => triRule
  area := 12
  sides := [sideOf 0 (-1) [⟨![-3, 0], 1⟩, ⟨![0, 0], 4⟩, ⟨![3, 0], 1⟩],
    sideOf (4 / 5) (3 / 5) [⟨![3, 0], 5 / 6⟩, ⟨![3 / 2, 2], 20 / 6⟩, ⟨![0, 4], 5 / 6⟩],
    sideOf (-4 / 5) (3 / 5) [⟨![0, 4], 5 / 6⟩, ⟨![-3 / 2, 2], 20 / 6⟩, ⟨![-3, 0], 5 / 6⟩]]

/-- The rule on the square. -/
def pentRule : List (QP (Pt ℚ) ℚ) :=
  [⟨![0, 0], 1 / 36⟩, ⟨![0, 1 / 2], 1 / 9⟩, ⟨![0, 1], 1 / 36⟩, ⟨![1 / 2, 0], 1 / 9⟩,
   ⟨![1 / 2, 1 / 2], 4 / 9⟩, ⟨![1 / 2, 1], 1 / 9⟩, ⟨![1, 0], 1 / 36⟩, ⟨![1, 1 / 2], 1 / 9⟩,
   ⟨![1, 1], 1 / 36⟩]

/-- The square with a hanging node. -/
def pentCell : VCell ℚ where
  axes := 1
  len := fun _ => 1
  bar := ![1 / 2, 1 / 2]
  integrate := fun _ => pentRule
  area := 1
  sides := [sideOf 0 (-1) [⟨![0, 0], 1 / 4⟩, ⟨![1 / 2, 0], 1 / 4⟩], sideOf 0 (-1) [⟨![1 / 2, 0], 1 / 4⟩, ⟨![1, 0], 1 / 4⟩],
    sideOf 1 0 [⟨![1, 0], 1 / 2⟩, ⟨![1, 1], 1 / 2⟩], sideOf 0 1 [⟨![1, 1], 1 / 2⟩, ⟨![0, 1], 1 / 2⟩],
    sideOf (-1) 0 [⟨![0, 1], 1 / 2⟩, ⟨![0, 0], 1 / 2⟩]]

/-- The point of a node. -/
def nodePt (c : VCell ℚ) (k i q : Nat) : Option (Pt ℚ) := (c.sides[i]?.bind fun s => (s.lobatto (2 * k - 1))[q]?).map QP.pt

theorem closed_of {c : VCell ℚ} {k : Nat} (h : ∀ i < c.sides.length, nodePt c k i k = nodePt c k ((i + 1) % c.sides.length) 0)
    (i : Nat) (s s' : VSide ℚ) (x x' : QP (Pt ℚ) ℚ) (hs : c.sides[i]? = some s)
    (hs' : c.sides[(i + 1) % c.sides.length]? = some s') (hx : (s.lobatto (2 * k - 1))[k]? = some x)
    (hx' : (s'.lobatto (2 * k - 1))[0]? = some x') : x.pt = x'.pt := by
  have := h i (List.getElem?_eq_some_iff.1 hs).1
  unfold nodePt at this
  rw [hs, hs', Option.bind_some, Option.bind_some, hx, hx'] at this
  simpa using this

/-- Green's formula is a finite number of equations. -/
def greenOk (c : VCell ℚ) (k : Nat) (qs : List (QP (Pt ℚ) ℚ)) : Prop := ∀ a ∈ exps2 k, ∀ b ∈ exps2 k,
  quad qs (fun x => dot 2 (gradMono c a x) (gradMono c b x)) = -quad qs (fun x => lapMono c a x * mono c b x) +
    (c.sides.map fun s => quad (s.lobatto (2 * k - 1)) fun x => dot 2 (gradMono c a x) s.normal * mono c b x).sum

/-- The exact integrals on the triangle. -/
def triExact : Exact triCell 2 where
  IT := ruleLin triRule
  IF s := ruleLin (s.lobatto 3)
  area_eq := by change quad triRule (fun _ => 1) = 12; decide +kernel
  area_ne := by change (12 : ℚ) ≠ 0; norm_num
  cell_exact _ _ _ _ := rfl
  lob_exact _ _ _ _ := rfl
  lob_len := by decide +kernel
  closed := closed_of (by decide +kernel)
  green := by
    have h : greenOk triCell 2 triRule := by unfold greenOk; decide +kernel
    intro a b ha hb
    exact h a ((mem_exps2 2 _ _).2 ha) b ((mem_exps2 2 _ _).2 hb)

/-- The exact integrals on the square. -/
def pentExact : Exact pentCell 1 where
  IT := ruleLin pentRule
  IF s := ruleLin (s.lobatto 1)
  area_eq := by change quad pentRule (fun _ => 1) = 1; decide +kernel
  area_ne := by change (1 : ℚ) ≠ 0; norm_num
  cell_exact _ _ _ _ := rfl
  lob_exact _ _ _ _ := rfl
  lob_len := by decide +kernel
  closed := closed_of (by decide +kernel)
  green := by
    have h : greenOk pentCell 1 pentRule := by unfold greenOk; decide +kernel
    intro a b ha hb
    exact h a ((mem_exps2 1 _ _).2 ha) b ((mem_exps2 1 _ _).2 hb)

theorem tri_grad (x : Nat → ℚ) (p : Pt ℚ) : evalGrad (triCell.basis 2) x p 0 = x 1 + 2 * x 3 * p 0 + x 4 * (p 1 - 4 / 3) ∧
    evalGrad (triCell.basis 2) x p 1 = x 2 + x 4 * p 0 + 2 * x 5 * (p 1 - 4 / 3) := by
  have h : ∀ m, evalGrad (triCell.basis 2) x p m = ∑ j ∈ range 6, x j * gradMono triCell (exOf 2 j) p m :=
    fun m => sum_congr rfl fun j hj => by rw [basis_grad triCell p (mem_range.1 hj)]
  have e : exOf 2 0 = (0, 0) ∧ exOf 2 1 = (1, 0) ∧ exOf 2 2 = (0, 1) ∧ exOf 2 3 = (2, 0) ∧ exOf 2 4 = (1, 1) ∧ exOf 2 5 = (0, 2) := by
    decide
  have c0 : coord triCell 0 p = p 0 := by simp [coord, coordGrad, triCell]
  have c1 : coord triCell 1 p = p 1 - 4 / 3 := by simp [coord, coordGrad, triCell]
  have g00 : coordGrad triCell 0 0 = 1 := by decide +kernel
  have g01 : coordGrad triCell 0 1 = 0 := by decide +kernel
  have g10 : coordGrad triCell 1 0 = 0 := by decide +kernel
  have g11 : coordGrad triCell 1 1 = 1 := by decide +kernel
  obtain ⟨e0, e1, e2, e3, e4, e5⟩ := e
  constructor <;>
  · rw [h]
    simp only [sum_range_succ, sum_range_zero, e0, e1, e2, e3, e4, e5, gradMono, mono, c0, c1, g00, g01, g10, g11]
    norm_num
    ring

theorem tri_definite : Definite triExact := by
  intro x hx
  have hq : quad triRule (fun p => dot 2 (evalGrad (triCell.basis 2) x p) (evalGrad (triCell.basis 2) x p)) =
      12 * (x 1 ^ 2 + 6 * x 3 ^ 2 + 8 / 9 * x 4 ^ 2 + (x 2 ^ 2 + 3 / 2 * x 4 ^ 2 + 32 / 9 * x 5 ^ 2)) := by
    simp only [dot, sum_range_succ, sum_range_zero, (tri_grad x _).1, (tri_grad x _).2, quad, triRule, List.map_cons, List.map_nil,
      List.sum_cons, List.sum_nil, Matrix.cons_val_zero, Matrix.cons_val_one]
    ring
  have hx' : quad triRule (fun p => dot 2 (evalGrad (triCell.basis 2) x p) (evalGrad (triCell.basis 2) x p)) = 0 := hx
  rw [hq] at hx'
  have z : ∀ y : ℚ, y ^ 2 ≤ 0 → y = 0 := fun y hy => by
    have := le_antisymm hy (sq_nonneg y)
    exact pow_eq_zero_iff (two_ne_zero) |>.1 this
  have s1 := sq_nonneg (x 1)
  have s2 := sq_nonneg (x 2)
  have s3 := sq_nonneg (x 3)
  have s4 := sq_nonneg (x 4)
  have s5 := sq_nonneg (x 5)
  intro i hi hi6
  have hi6' : i < 6 := hi6
  obtain rfl | rfl | rfl | rfl | rfl : i = 1 ∨ i = 2 ∨ i = 3 ∨ i = 4 ∨ i = 5 := by omega
  all_goals exact z _ (by linarith)

theorem tri_mass : MassOk triExact := by
  intro x hx
  have hv : ∀ p, evalFn (triCell.basis 1) x p = x 0 + x 1 * p 0 + x 2 * (p 1 - 4 / 3) := by
    intro p
    have e : exOf 1 0 = (0, 0) ∧ exOf 1 1 = (1, 0) ∧ exOf 1 2 = (0, 1) := by decide
    have c0 : coord triCell 0 p = p 0 := by simp [coord, coordGrad, triCell]
    have c1 : coord triCell 1 p = p 1 - 4 / 3 := by simp [coord, coordGrad, triCell]
    obtain ⟨e0, e1, e2⟩ := e
    rw [evalFn_mono]
    change ∑ j ∈ range 3, _ = _
    simp only [sum_range_succ, sum_range_zero, e0, e1, e2, mono, c0, c1]
    ring
  have hq : quad triRule (fun p => evalFn (triCell.basis 1) x p * evalFn (triCell.basis 1) x p) =
      12 * (x 0 ^ 2 + 3 / 2 * x 1 ^ 2 + 8 / 9 * x 2 ^ 2) := by
    simp only [hv, quad, triRule, List.map_cons, List.map_nil,
      List.sum_cons, List.sum_nil, Matrix.cons_val_zero, Matrix.cons_val_one]
    ring
  have hx' : quad triRule (fun p => evalFn (triCell.basis 1) x p * evalFn (triCell.basis 1) x p) = 0 := hx
  rw [hq] at hx'
  have z : ∀ y : ℚ, y ^ 2 ≤ 0 → y = 0 := fun y hy => by
    have := le_antisymm hy (sq_nonneg y)
    exact pow_eq_zero_iff (two_ne_zero) |>.1 this
  have s0 := sq_nonneg (x 0)
  have s1 := sq_nonneg (x 1)
  have s2 := sq_nonneg (x 2)
  intro i hi3
  have hi3' : i < 3 := hi3
  obtain rfl | rfl | rfl : i = 0 ∨ i = 1 ∨ i = 2 := by omega
  all_goals exact z _ (by linarith)

theorem pent_grad (x : Nat → ℚ) (p : Pt ℚ) : evalGrad (pentCell.basis 1) x p 0 = 2 * x 1 ∧
    evalGrad (pentCell.basis 1) x p 1 = 2 * x 2 := by
  have h : ∀ m, evalGrad (pentCell.basis 1) x p m = ∑ j ∈ range 3, x j * gradMono pentCell (exOf 1 j) p m :=
    fun m => sum_congr rfl fun j hj => by rw [basis_grad pentCell p (mem_range.1 hj)]
  have e : exOf 1 0 = (0, 0) ∧ exOf 1 1 = (1, 0) ∧ exOf 1 2 = (0, 1) := by decide
  have g00 : coordGrad pentCell 0 0 = 2 := by decide +kernel
  have g01 : coordGrad pentCell 0 1 = 0 := by decide +kernel
  have g10 : coordGrad pentCell 1 0 = 0 := by decide +kernel
  have g11 : coordGrad pentCell 1 1 = 2 := by decide +kernel
  obtain ⟨e0, e1, e2⟩ := e
  constructor <;>
  · rw [h]
    simp only [sum_range_succ, sum_range_zero, e0, e1, e2, gradMono, mono, g00, g01, g10, g11]
    norm_num
    ring

theorem pent_energy (x : Nat → ℚ) :
    quad pentRule (fun p => dot 2 (evalGrad (pentCell.basis 1) x p) (evalGrad (pentCell.basis 1) x p)) =
      4 * (x 1 ^ 2 + x 2 ^ 2) := by
  simp only [dot, sum_range_succ, sum_range_zero, (pent_grad x _).1, (pent_grad x _).2, quad, pentRule, List.map_cons, List.map_nil,
    List.sum_cons, List.sum_nil]
  ring

theorem pent_definite : Definite pentExact := by
  intro x hx
  have hx' : quad pentRule (fun p => dot 2 (evalGrad (pentCell.basis 1) x p) (evalGrad (pentCell.basis 1) x p)) = 0 := hx
  rw [pent_energy] at hx'
  have z : ∀ y : ℚ, y ^ 2 ≤ 0 → y = 0 := fun y hy => by
    have := le_antisymm hy (sq_nonneg y)
    exact pow_eq_zero_iff (two_ne_zero) |>.1 this
  have s1 := sq_nonneg (x 1)
  have s2 := sq_nonneg (x 2)
  intro i hi hi3
  have hi3' : i < 3 := hi3
  obtain rfl | rfl : i = 1 ∨ i = 2 := by omega
  all_goals exact z _ (by linarith)

theorem triIT (f : Pt ℚ → ℚ) : triExact.IT f = quad triRule f := rfl

theorem pentIT (f : Pt ℚ → ℚ) : pentExact.IT f = quad pentRule f := rfl

end Verif.Vem
