import Verif.Lemmas.HhoSolverExample
import Verif.Lemmas.DgSolverExact
/-!
Meshes for the discontinuous Galerkin solver: the segments `[0, 1]` and `[1, 2]` with quadratic polynomials, and the
unit square as a single cell with linear polynomials.
-/
namespace Verif.Lemmas.Dg
open Finset Verif.Hho Verif.HhoSolver Verif.DgSolver Verif.Spec.Hho Verif.Spec.Dg Verif.Lemmas.Hho LocalMatrix
open Verif.Lemmas.HhoSolver (lineCell segAt booleAt linePoly)

/-- The two segments. -/
def lineDg : DgSolver.Mesh ℚ ℚ := ⟨2, lineCell, 3, fun i => (endPoint i 1 1).toElem⟩

theorem lineDg_two (f : Nat) : (sides lineDg f).length ≤ 2 := by
  have hc : ∀ a, ((lineCell a).fcs.filter fun q => q.1 = f).length ≤ 1 := by
    intro a
    rw [filter_length]
    exact List.nodup_iff_count_le_one.1 (by simp [lineCell]) f
  have h0 := hc 0
  have h1 := hc 1
  have e : (sides lineDg f).length = ((lineCell 0).fcs.filter fun q => q.1 = f).length +
      ((lineCell 1).fcs.filter fun q => q.1 = f).length := by
    simp [sides, lineDg, List.range_succ]
  omega

theorem lineDg_ok : MeshOk 1 2 3 lineDg where
  pos := by decide
  size _ _ := rfl
  nodup a _ := by simp [lineDg, lineCell]
  range a ha q hq := by
    have ha : a < 2 := ha
    simp only [lineDg, lineCell, List.mem_cons, List.not_mem_nil, or_false] at hq ⊢
    rcases hq with rfl | rfl <;> simp <;> omega
  two := lineDg_two
  unit a _ q hq := by
    simp only [lineDg, lineCell, List.mem_cons, List.not_mem_nil, or_false] at hq
    rcases hq with rfl | rfl <;> simp [dot]
  opposite a ha b hb hab q hq r hr hqr c _ := by
    have ha : a < 2 := ha
    have hb : b < 2 := hb
    simp only [lineDg, lineCell, List.mem_cons, List.not_mem_nil, or_false] at hq hr
    rcases hq with rfl | rfl <;> rcases hr with rfl | rfl <;> simp at hqr ⊢ <;> omega

theorem lineGradSq (a : Nat) (w : Nat → ℚ) : quad ((lineDg.cell a).elem.integrate (2 * 2)) (fun x =>
    dot 1 (evalGrad ((lineDg.cell a).elem.basis 2) w x) (evalGrad ((lineDg.cell a).elem.basis 2) w x)) =
    ((w 1 + 2 * w 2 * a) ^ 2 + (w 1 + 2 * w 2 * a) * (w 1 + 2 * w 2 * (a + 1)) + (w 1 + 2 * w 2 * (a + 1)) ^ 2) / 3 := by
  simp [quad, lineDg, lineCell, segAt, booleAt, lineBasis, evalGrad, dot, sum_range_succ]
  ring

theorem lineDg_trace : TraceBound 1 2 lineDg 6 := by
  intro a _ w
  rw [lineGradSq]
  have e : ((lineDg.cell a).fcs.map fun q => (lineDg.face q.1).diam * quad ((lineDg.face q.1).integrate (2 * 2))
      fun x => dot 1 (evalGrad ((lineDg.cell a).elem.basis 2) w x) q.2 ^ 2).sum =
      (w 1 + 2 * w 2 * a) ^ 2 + (w 1 + 2 * w 2 * (a + 1)) ^ 2 := by
    simp [quad, lineDg, lineCell, segAt, lineBasis, evalGrad, dot, sum_range_succ, endPoint]
    ring
  rw [e]
  nlinarith [sq_nonneg (w 1 + 2 * w 2 * a + (w 1 + 2 * w 2 * (a + 1)))]

theorem lineDg_pos : PosMesh 1 2 lineDg where
  weights a _ q hq := by
    simp only [lineDg, lineCell, segAt, booleAt, List.mem_cons, List.not_mem_nil, or_false] at hq
    rcases hq with rfl | rfl | rfl | rfl | rfl <;> norm_num
  faceWeights i _ q hq := by
    simp only [lineDg, endPoint, List.mem_cons, List.not_mem_nil, or_false] at hq
    subst hq
    norm_num
  diam i _ := by simp [lineDg, endPoint]
  measure i _ := by simp [lineDg, endPoint, quad]
  one a _ x := pow_zero x
  const a _ w hz j h1 h2 := by
    rw [lineGradSq] at hz
    have h2 : j < 3 := h2
    have e0 : w 1 + 2 * w 2 * a = 0 := by
      by_contra h
      have : 0 < (w 1 + 2 * w 2 * a) ^ 2 := by positivity
      nlinarith [sq_nonneg ((w 1 + 2 * w 2 * a) + 2 * (w 1 + 2 * w 2 * (a + 1)))]
    have e1 : w 1 + 2 * w 2 * (a + 1) = 0 := by
      rw [e0] at hz
      have : (w 1 + 2 * w 2 * (a + 1)) ^ 2 = 0 := by linarith
      exact pow_eq_zero_iff two_ne_zero |>.1 this
    have w2 : w 2 = 0 := by linarith
    have w1 : w 1 = 0 := by rw [w2] at e0; linarith
    interval_cases j
    · exact w1
    · exact w2
  linked a ha := by
    have ha : a < 2 := ha
    interval_cases a
    · exact .boundary (q := (0, fun _ => -1)) (by simp [lineDg, lineCell]) (by
        simp [sides, lineDg, lineCell, List.range_succ])
    · exact .boundary (q := (2, fun _ => 1)) (by simp [lineDg, lineCell]) (by
        simp [sides, lineDg, lineCell, List.range_succ])

theorem lineDg_faces (a : Nat) : ∀ g ∈ facesOf lineDg a, ∃ x n h, g = endPoint x n h := by
  intro g hg
  simp only [facesOf, lineDg, lineCell, List.map_cons, List.map_nil, List.mem_cons, List.not_mem_nil, or_false] at hg
  rcases hg with rfl | rfl
  · exact ⟨a, -1, 1, rfl⟩
  · exact ⟨(a + 1 : Nat), 1, 1, rfl⟩

/-- `u = x (2 - x)` solves `-u'' = 2` and vanishes at both ends. -/
theorem lineDg_exact : ExactMesh 1 2 lineDg (fun _ => 2) (fun x => x * (2 - x)) (fun x _ => 2 - 2 * x) where
  cell a ha := by
    refine ⟨5, by decide, linePoly (booleAt a) 1 _ (lineDg_faces a) 5, ?_, ?_, ?_, ?_⟩
    · refine ⟨fun i => if i = 1 then 2 else if i = 2 then -1 else 0, fun x => ?_, fun x c _ => ?_⟩
      · simp [evalFn, lineDg, lineCell, segAt, lineBasis, sum_range_succ]; ring
      · simp [evalGrad, lineDg, lineCell, segAt, lineBasis, sum_range_succ]; ring
    · have := (lineV 2).smul_mem (2 : ℚ) (lineFn_mem (Nat.zero_le 2))
      have e : (fun _ : ℚ => (2 : ℚ)) = (2 : ℚ) • fun x : ℚ => x ^ 0 := by funext x; simp
      rw [e]
      exact this
    · intro j hj
      have hj : j < 3 := hj
      have ha : a < 2 := ha
      interval_cases a <;> interval_cases j <;>
        simp [linePoly, quadLin, quad, facesOf, lineDg, lineCell, segAt, booleAt, endPoint, lineBasis, dot] <;>
        norm_num
    · intro x h j hj
      have hj : j < 3 := hj
      have ha : a < 2 := ha
      have h0 := h 0 (show 0 < 3 by decide)
      have h1 := h 1 (show 1 < 3 by decide)
      have h2 := h 2 (show 2 < 3 by decide)
      simp only [mass_eq, quad, lineDg, lineCell, segAt, booleAt, lineBasis, List.map_cons, List.map_nil, List.sum_cons,
        List.sum_nil, sum_range_succ, sum_range_zero] at h0 h1 h2
      interval_cases a <;> norm_num at h0 h1 h2 <;> interval_cases j <;> linarith
  boundary i hi h1 q hq := by
    have hi : i < 3 := hi
    simp only [lineDg, endPoint, List.mem_cons, List.not_mem_nil, or_false] at hq
    subst hq
    interval_cases i
    · norm_num
    · simp [sides, lineDg, lineCell, List.range_succ] at h1
    · norm_num

/-! ### The unit square -/

/-- `1`, `x - 1/2`, `y - 1/2`. -/
def sqBasis : Basis (ℚ × ℚ) ℚ where
  size := 3
  fn p i := if i = 0 then 1 else if i = 1 then p.1 - 1 / 2 else p.2 - 1 / 2
  grad _ i c := if i = c + 1 then 1 else 0

/-- Simpson's rule on the side from `a` to `b`. -/
def simpson (a b : ℚ × ℚ) : List (QP (ℚ × ℚ) ℚ) :=
  [⟨a, 1 / 6⟩, ⟨((a.1 + b.1) / 2, (a.2 + b.2) / 2), 4 / 6⟩, ⟨b, 1 / 6⟩]

/-- Simpson's rule on the square. -/
def sqRule : List (QP (ℚ × ℚ) ℚ) :=
  [⟨(0, 0), 1 / 36⟩, ⟨(1 / 2, 0), 4 / 36⟩, ⟨(1, 0), 1 / 36⟩, ⟨(0, 1 / 2), 4 / 36⟩, ⟨(1 / 2, 1 / 2), 16 / 36⟩,
    ⟨(1, 1 / 2), 4 / 36⟩, ⟨(0, 1), 1 / 36⟩, ⟨(1 / 2, 1), 4 / 36⟩, ⟨(1, 1), 1 / 36⟩]

/-- A vector of two components. -/
def vec2 (a b : ℚ) (c : Nat) : ℚ := if c = 0 then a else b

/-- The square with its four sides. -/
def sqCell : DCell (ℚ × ℚ) ℚ :=
  ⟨⟨fun _ => sqBasis, fun _ => sqRule, 1⟩, [(0, vec2 0 (-1)), (1, vec2 1 0), (2, vec2 0 1), (3, vec2 (-1) 0)]⟩

/-- The sides by number. -/
def sqFace (i : Nat) : Elem (ℚ × ℚ) ℚ :=
  ⟨fun _ => sqBasis, fun _ => if i = 0 then simpson (0, 0) (1, 0) else if i = 1 then simpson (1, 0) (1, 1)
    else if i = 2 then simpson (1, 1) (0, 1) else simpson (0, 1) (0, 0), 1⟩

/-- The unit square as a mesh. -/
def square : DgSolver.Mesh (ℚ × ℚ) ℚ := ⟨1, fun _ => sqCell, 4, sqFace⟩

theorem square_ok : MeshOk 2 1 3 square where
  pos := by decide
  size _ _ := rfl
  nodup a _ := by simp [square, sqCell]
  range a _ q hq := by
    simp only [square, sqCell, List.mem_cons, List.not_mem_nil, or_false] at hq ⊢
    rcases hq with rfl | rfl | rfl | rfl <;> simp
  two f := by
    have h : (sqCell.fcs.filter fun q => q.1 = f).length ≤ 1 := by
      rw [filter_length]
      exact List.nodup_iff_count_le_one.1 (by simp [sqCell]) f
    have e : (sides square f).length = (sqCell.fcs.filter fun q => q.1 = f).length := by
      simp [sides, square, List.range_succ]
    omega
  unit a _ q hq := by
    simp only [square, sqCell, List.mem_cons, List.not_mem_nil, or_false] at hq
    rcases hq with rfl | rfl | rfl | rfl <;> simp [dot, vec2, sum_range_succ]
  opposite a ha b hb hab := by
    have ha : a < 1 := ha
    have hb : b < 1 := hb
    omega

theorem squareGradSq (a : Nat) (w : Nat → ℚ) : quad ((square.cell a).elem.integrate (2 * 1)) (fun x =>
    dot 2 (evalGrad ((square.cell a).elem.basis 1) w x) (evalGrad ((square.cell a).elem.basis 1) w x)) =
    w 1 ^ 2 + w 2 ^ 2 := by
  simp [quad, square, sqCell, sqRule, sqBasis, evalGrad, dot, sum_range_succ]
  ring

theorem square_trace : TraceBound 2 1 square 2 := by
  intro a _ w
  rw [squareGradSq]
  have e : ((square.cell a).fcs.map fun q => (square.face q.1).diam * quad ((square.face q.1).integrate (2 * 1))
      fun x => dot 2 (evalGrad ((square.cell a).elem.basis 1) w x) q.2 ^ 2).sum = 2 * (w 1 ^ 2 + w 2 ^ 2) := by
    simp [quad, square, sqCell, sqFace, simpson, sqBasis, evalGrad, dot, sum_range_succ, vec2]
    ring
  rw [e]

theorem square_pos : PosMesh 2 1 square where
  weights a _ q hq := by
    simp only [square, sqCell, sqRule, List.mem_cons, List.not_mem_nil, or_false] at hq
    rcases hq with rfl | rfl | rfl | rfl | rfl | rfl | rfl | rfl | rfl <;> norm_num
  faceWeights i hi q hq := by
    have hi : i < 4 := hi
    interval_cases i <;>
      simp only [square, sqFace, simpson] at hq <;> norm_num at hq <;>
      rcases hq with rfl | rfl | rfl <;> norm_num
  diam i _ := by simp [square, sqFace]
  measure i hi := by
    have hi : i < 4 := hi
    interval_cases i <;> simp [square, sqFace, simpson, quad] <;> norm_num
  one a _ x := rfl
  const a _ w hz j h1 h2 := by
    rw [squareGradSq] at hz
    have h2 : j < 3 := h2
    have p1 := sq_nonneg (w 1)
    have p2 := sq_nonneg (w 2)
    interval_cases j
    · exact pow_eq_zero_iff two_ne_zero |>.1 (show w 1 ^ 2 = 0 by linarith)
    · exact pow_eq_zero_iff two_ne_zero |>.1 (show w 2 ^ 2 = 0 by linarith)
  linked a _ := .boundary (q := (0, vec2 0 (-1))) (by simp [square, sqCell]) (by
    simp [sides, square, sqCell, List.range_succ])

/-- An entry of the matrix assembled on the unit square. -/
def sqEntry (eta : ℚ) (i j : Nat) : Outcome ℚ :=
  (assemble 2 1 3 eta square fun _ => 0).bind fun s => .ok (s.lhs i j)

theorem sqEntry_default : sqEntry 1 1 1 = .ok (-1 / 3) := by decide +kernel

theorem sqEntry_singular : sqEntry (3 / 2) 0 1 = .ok 0 ∧ sqEntry (3 / 2) 1 1 = .ok 0 ∧ sqEntry (3 / 2) 2 1 = .ok 0 := by
  decide +kernel

end Verif.Lemmas.Dg
