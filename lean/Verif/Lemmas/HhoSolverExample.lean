import Mathlib.Algebra.Order.Ring.Rat
import Verif.Lemmas.HhoExample
import Verif.Lemmas.HhoSolverDiscrete
/-!
An instance of the hypotheses of the theorems on the HHO diffusion solver: the segments `[0, 1]` and `[1, 2]` with
constant cell and face unknowns and a linear reconstruction.
-/
namespace Verif.Lemmas.HhoSolver
open Finset Verif.Hho Verif.HhoSolver Verif.Spec.Hho Verif.Spec.HhoSolver Verif.Lemmas.Hho LocalMatrix
open Verif.Condensation

/-- Boole's rule on `[a, a + 1]`. -/
def booleAt (a : ℚ) : List (QP ℚ ℚ) :=
  [⟨a, 7 / 90⟩, ⟨a + 1 / 4, 32 / 90⟩, ⟨a + 1 / 2, 12 / 90⟩, ⟨a + 3 / 4, 32 / 90⟩, ⟨a + 1, 7 / 90⟩]

/-- The segment `[a, a + 1]` with monomials. -/
def segAt (a : ℚ) : Elem ℚ ℚ := ⟨lineBasis, fun _ => booleAt a, 1⟩

/-- The polynomial spaces of a segment with end points as faces. -/
def linePoly (qs : List (QP ℚ ℚ)) (h : ℚ) (faces : List (Face ℚ ℚ)) (hf : ∀ g ∈ faces, ∃ a n h, g = endPoint a n h)
    (N : Nat) : PolyCell 1 ⟨lineBasis, fun _ => qs, h⟩ faces N where
  V := lineV
  mono := segPoly.mono
  mul := segPoly.mul
  IT := quadLin qs
  IF f := quadLin (f.integrate 0)
  on f := {x | x ∈ (f.integrate 0).map (·.pt)}
  cell_exact _ _ _ _ := rfl
  cell_mem k i hi := lineFn_mem (Nat.le_of_lt_succ hi)
  cell_span k v hv := lineV_span hv
  cell_pos k := Nat.succ_pos k
  cell_one k x := pow_zero x
  grad_mem := segPoly.grad_mem
  grad_one := segPoly.grad_one
  face_pts f hg n q hq := by
    obtain ⟨a, n', h, rfl⟩ := hf f hg
    exact List.mem_map_of_mem hq
  face_congr f hg u v h := quad_congr fun q hq => h q.pt (List.mem_map_of_mem hq)
  face_exact f hg n _ v _ := by
    obtain ⟨a, n', h, rfl⟩ := hf f hg
    rfl
  face_mem f hg k i hi := by
    obtain ⟨a, n', h, rfl⟩ := hf f hg
    exact ⟨fun x => x ^ 0, lineFn_mem (Nat.zero_le k), fun x _ => by simp [endPoint]⟩
  face_span f hg k v hv := by
    obtain ⟨a, n', h, rfl⟩ := hf f hg
    refine ⟨fun _ => v a, fun x hx => ?_⟩
    simp [endPoint] at hx
    simp [evalFn, endPoint, hx]

/-- One dimension, unit tensor, degrees `rd = 1`, `cd = fd = 0`. -/
def lineCfg (up : Bool) : Config ℚ := ⟨1, fun _ _ => 1, up, 1, 0, 0, 1⟩

/-- The cell `[i, i + 1]` with faces `i` and `i + 1`. -/
def lineCell (i : Nat) : DCell ℚ ℚ := ⟨segAt i, [(i, fun _ => -1), (i + 1, fun _ => 1)]⟩

/-- The two segments. -/
def lineMesh : DMesh ℚ ℚ := ⟨fun i => (endPoint i 1 1).toElem, [true, false, true], [lineCell 0, lineCell 1]⟩

theorem lineFaces (i : Nat) : ∀ g ∈ lineMesh.faces (lineCell i), ∃ a n h, g = endPoint a n h := by
  intro g hg
  simp only [DMesh.faces, lineCell, List.map_cons, List.map_nil, List.mem_cons, List.not_mem_nil, or_false] at hg
  rcases hg with rfl | rfl
  · exact ⟨i, -1, 1, rfl⟩
  · exact ⟨(i + 1 : Nat), 1, 1, rfl⟩

theorem lineDegrees (up : Bool) : Degrees (lineCfg up) 5 := by
  constructor <;> simp [lineCfg]

theorem lineTens (up : Bool) : TensSym (lineCfg up).d (some (lineCfg up).tens) := fun _ _ _ _ => rfl

theorem lineTensNonneg (up : Bool) : TensNonneg (lineCfg up) := by
  intro g
  simp [lineCfg, dot, fluxOf]
  exact mul_self_nonneg _

theorem lineRegular (up : Bool) (i : Nat) : Regular (lineCfg up) (lineCell i).elem (lineMesh.faces (lineCell i))
    (linePoly (booleAt i) 1 (lineMesh.faces (lineCell i)) (lineFaces i) 5) where
  green := by
    intro j hj
    have hj : j = 0 := by
      have : j + 1 < 2 := hj
      omega
    subst hj
    refine ⟨fun _ => 0, Submodule.zero_mem _, fun k hk l hl => ?_⟩
    have hl : l < 2 := by
      rcases hk with rfl | rfl <;> simp [lineCell, segAt, lineBasis, lineCfg] at hl <;> omega
    have hk' : ((lineCell i).elem.basis k).fn = fun x i => x ^ i := rfl
    have hk'' : ((lineCell i).elem.basis k).grad = fun x (i : Nat) _ => (i : ℚ) * x ^ (i - 1) := rfl
    rw [hk', hk'']
    interval_cases l <;>
      simp [linePoly, quadLin, quad, lineCell, segAt, booleAt, lineMesh, DMesh.faces, endPoint, lineBasis, rflux, flux,
        fluxN, tailRows, dot, lineCfg] <;> norm_num
  size g hg := by
    obtain ⟨a, n, h, rfl⟩ := lineFaces i g hg
    rfl
  massCell := by
    intro x h j hj
    have hj : j = 0 := by have : j < 1 := hj; omega
    subst hj
    have h0 := h 0 (by simp [lineCell, segAt, lineBasis])
    simp only [mass_eq] at h0
    simp [quad, lineCell, segAt, booleAt, lineBasis, lineCfg] at h0
    norm_num at h0
    exact h0
  massFace g hg := by
    obtain ⟨a, n, h, rfl⟩ := lineFaces i g hg
    intro x h j hj
    have hj : j = 0 := by have : j < 1 := hj; omega
    subst hj
    have h0 := h 0 (by simp [endPoint])
    simp only [mass_eq] at h0
    simpa [quad, endPoint] using h0
  massProj _ g hg := by
    obtain ⟨a, n, h, rfl⟩ := lineFaces i g hg
    intro x h j hj
    have hj : j = 0 := by have : j < 1 := hj; omega
    subst hj
    have h0 := h 0 (by simp [endPoint])
    simp only [accum_eq] at h0
    simpa [quad, endPoint] using h0
  stiff := by
    intro x h j hj
    have hj : j = 0 := by have : j < 1 := hj; omega
    subst hj
    have h0 := h 0 (by simp [lineCell, segAt, lineBasis, lineCfg])
    simp only [lapLhs, accumDot_eq] at h0
    simp [quad, lineCell, segAt, booleAt, lineBasis, lineCfg, rflux, flux, tailRows, dot] at h0
    norm_num at h0
    exact h0

theorem lineSolvable (up : Bool) : SolvableMesh (lineCfg up) lineMesh 5 where
  cell c hc := by
    simp only [lineMesh, List.mem_cons, List.not_mem_nil, or_false] at hc
    rcases hc with rfl | rfl
    · exact ⟨_, lineRegular up 0⟩
    · exact ⟨_, lineRegular up 1⟩
  positive c hc := by
    have h : ∀ i, Positive (lineCfg up) (lineCell i).elem (lineMesh.faces (lineCell i)) := by
      intro i
      refine ⟨fun m n h => ⟨by simp [lineCell, segAt, lineBasis]; exact h, fun i _ x => ⟨rfl, rfl⟩⟩, fun q hq => ?_,
        fun g hg q hq => ?_, fun g hg => ?_, by simp [lineCell, segAt], fun g hg => ?_⟩
      · simp only [lineCell, segAt, booleAt, List.mem_cons, List.not_mem_nil, or_false] at hq
        rcases hq with rfl | rfl | rfl | rfl | rfl <;> norm_num
      · simp only [lineMesh, DMesh.faces, lineCell, List.map_cons, List.map_nil, List.mem_cons, List.not_mem_nil,
          or_false] at hg
        rcases hg with rfl | rfl <;>
        · simp [endPoint] at hq
          subst hq
          norm_num
      · simp only [lineMesh, DMesh.faces, lineCell, List.map_cons, List.map_nil, List.mem_cons, List.not_mem_nil,
          or_false] at hg
        rcases hg with rfl | rfl <;> simp [quad, endPoint]
      · simp only [lineMesh, DMesh.faces, lineCell, List.map_cons, List.map_nil, List.mem_cons, List.not_mem_nil,
          or_false] at hg
        rcases hg with rfl | rfl <;> simp [endPoint]
    simp only [lineMesh, List.mem_cons, List.not_mem_nil, or_false] at hc
    rcases hc with rfl | rfl
    · exact h 0
    · exact h 1
  range c hc q hq := by
    simp only [lineMesh, List.mem_cons, List.not_mem_nil, or_false] at hc
    rcases hc with rfl | rfl <;>
    · simp only [lineCell, List.mem_cons, List.not_mem_nil, or_false] at hq
      rcases hq with rfl | rfl <;> simp [lineMesh]
  anchored c hc := by
    have h0 : Anchored lineMesh (lineCell 0) := .boundary (q := (0, fun _ => -1)) (by simp [lineCell]) rfl
    simp only [lineMesh, List.mem_cons, List.not_mem_nil, or_false] at hc
    rcases hc with rfl | rfl
    · exact h0
    · exact .step (q := (1, fun _ => -1)) (q' := (1, fun _ => 1)) (by simp [lineMesh]) h0 (by simp [lineCell])
        (by simp [lineCell]) rfl
  used i hi := by
    have : i = 1 := by
      rcases i with _ | _ | _ | i <;> simp [lineMesh] at hi ⊢
    subst this
    exact ⟨lineCell 0, by simp [lineMesh], (1, fun _ => 1), by simp [lineCell], rfl⟩

/-- The solution `x` with load zero. -/
theorem lineExact (up : Bool) (i : Nat) : ExactOn (lineCfg up) (lineCell i).elem (lineMesh.faces (lineCell i))
    (linePoly (booleAt i) 1 (lineMesh.faces (lineCell i)) (lineFaces i) 5) (fun _ => 0) (fun x => x)
    (fun _ _ => 1) where
  sol := ⟨fun i => if i = 1 then 1 else 0, fun x => by
    simp [evalFn, lineCell, segAt, lineBasis, lineCfg], fun x k hk => by
    simp [evalGrad, lineCell, segAt, lineBasis, lineCfg]⟩
  load_mem := Submodule.zero_mem _
  load j hj := by
    have hj : j = 0 := by have : j < 1 := hj; omega
    subst hj
    simp [linePoly, quadLin, quad, lineCell, segAt, booleAt, lineMesh, DMesh.faces, endPoint, lineBasis, dot, lineCfg,
      fluxOf]

theorem linePatch (up : Bool) : (∀ c ∈ lineMesh.cells, PatchCell (lineCfg up) lineMesh 5 (fun _ => 0) (fun x => x)
    (fun _ _ => 1) c) ∧ NormalsCancel (lineCfg up).d lineMesh := by
  constructor
  · intro c hc
    simp only [lineMesh, List.mem_cons, List.not_mem_nil, or_false] at hc
    rcases hc with rfl | rfl
    · exact ⟨_, lineRegular up 0, lineExact up 0⟩
    · exact ⟨_, lineRegular up 1, lineExact up 1⟩
  · intro i hi k _
    have : i = 1 := by
      rcases i with _ | _ | _ | i <;> simp [lineMesh] at hi ⊢
    subst this
    simp [lineMesh, lineCell, cellNormal]

/-- The exact factorization accepts positive definite matrices. -/
theorem exactLDLT_spd {K : Type} [Field K] [LinearOrder K] [IsStrictOrderedRing K] : AcceptsSPD (exactLDLT K) := by
  intro n A hs hp
  refine exactLDLT_success A ?_
  rw [symL_of_symm A hs, ← Matrix.isUnit_iff_isUnit_det, ← Matrix.mulVec_injective_iff_isUnit]
  intro x y e
  by_contra hne
  have := hp (x - y) (sub_ne_zero.2 hne)
  have hz : ∀ i, (∑ j, A i j * (x - y) j) = 0 := by
    intro i
    have := congrFun e i
    simp only [Matrix.mulVec, dotProduct] at this
    simp only [Pi.sub_apply, mul_sub, Finset.sum_sub_distrib, this, sub_self]
  simp only [hz, mul_zero, Finset.sum_const_zero, lt_self_iff_false] at this

open Classical in
/-- An exact solver for the global system. -/
noncomputable def exactLU (K : Type) [Field K] : LU K where
  solve n A b := if h : ∃ x : Nat → K, ∀ i < n, ∑ j ∈ range n, A i j * x j = b i then Classical.choose h else fun _ => 0
  solves n A b hn i hi := by
    have h := exists_solution n A b hn
    rw [dif_pos h]
    exact Classical.choose_spec h i hi

end Verif.Lemmas.HhoSolver
