import Mathlib.LinearAlgebra.Span.Basic
import Verif.Lemmas.HhoExample
import Verif.Lemmas.HhoVector
/-!
A plane instance of the hypotheses of the HHO theorems: the unit square with monomials, the tensor product of Boole's
rule and its four edges.
-/
namespace Verif.Lemmas.Hho
open Finset Verif.Hho Verif.Spec.Hho LocalMatrix

/-- Exponents of the monomials of total degree at most `k`. -/
def sqExps (k : Nat) : List (Nat × Nat) :=
  (List.range (k + 1)).flatMap fun n => (List.range (n + 1)).map fun j => (n - j, j)

/-- A monomial. -/
def sqMon (p : Nat × Nat) (x : ℚ × ℚ) : ℚ := x.1 ^ p.1 * x.2 ^ p.2

/-- Monomials of total degree at most `k`. -/
def sqBasis (k : Nat) : Basis (ℚ × ℚ) ℚ :=
  ⟨(sqExps k).length, fun x i => sqMon ((sqExps k).getD i (0, 0)) x, fun x i c =>
    let p := (sqExps k).getD i (0, 0)
    if c = 0 then p.1 * sqMon (p.1 - 1, p.2) x else p.2 * sqMon (p.1, p.2 - 1) x⟩

/-- Boole's rule. -/
def boole : List (ℚ × ℚ) := [(0, 7 / 90), (1 / 4, 32 / 90), (1 / 2, 12 / 90), (3 / 4, 32 / 90), (1, 7 / 90)]

/-- The unit square. -/
def sqCell : Elem (ℚ × ℚ) ℚ :=
  ⟨sqBasis, fun _ => boole.flatMap fun p => boole.map fun q => ⟨(p.1, q.1), p.2 * q.2⟩, 1⟩

/-- An edge: `x = a` (`ax = true`) or `y = a`; the face functions are the powers of the other coordinate. -/
def sqEdge (ax : Bool) (a n : ℚ) : Face (ℚ × ℚ) ℚ :=
  ⟨⟨fun k => ⟨k + 1, fun x i => (if ax then x.2 else x.1) ^ i, fun _ _ _ => 0⟩,
    fun _ => boole.map fun p => ⟨if ax then (a, p.1) else (p.1, a), p.2⟩, 1⟩,
    fun c => if ax then (if c = 0 then n else 0) else (if c = 0 then 0 else n)⟩

/-- The four edges with their outer normals. -/
def sqFaces : List (Face (ℚ × ℚ) ℚ) :=
  [sqEdge true 0 (-1), sqEdge true 1 1, sqEdge false 0 (-1), sqEdge false 1 1]

/-- Polynomial functions of bounded total degree. -/
def sqV (k : Nat) : Submodule ℚ (ℚ × ℚ → ℚ) := Submodule.span ℚ {f | ∃ p : Nat × Nat, p.1 + p.2 ≤ k ∧ f = sqMon p}

theorem mem_sqExps {k : Nat} {p : Nat × Nat} : p ∈ sqExps k ↔ p.1 + p.2 ≤ k := by
  unfold sqExps
  simp only [List.mem_flatMap, List.mem_range, List.mem_map]
  constructor
  · rintro ⟨n, hn, j, hj, rfl⟩
    simp only
    omega
  · intro h
    exact ⟨p.1 + p.2, by omega, p.2, by omega, by rw [Nat.add_sub_cancel]⟩

theorem sqMon_mem {k : Nat} {p : Nat × Nat} (h : p.1 + p.2 ≤ k) : sqMon p ∈ sqV k := Submodule.subset_span ⟨p, h, rfl⟩

theorem getD_eq {α : Type} (l : List α) (z : α) {i : Nat} (hi : i < l.length) : l.getD i z = l[i] := by
  simp [List.getD, hi]

theorem sqGetD_mem {k i : Nat} (hi : i < (sqExps k).length) : ((sqExps k).getD i (0, 0)).1 + ((sqExps k).getD i (0, 0)).2 ≤ k := by
  rw [getD_eq _ _ hi]
  exact mem_sqExps.1 (List.getElem_mem hi)

theorem sq_span {k : Nat} {v : ℚ × ℚ → ℚ} (hv : v ∈ sqV k) : ∃ c, ∀ x, v x = evalFn (sqBasis k) c x := by
  induction hv using Submodule.span_induction with
  | mem f hf =>
    obtain ⟨p, hp, rfl⟩ := hf
    obtain ⟨i, hi, e⟩ := List.getElem_of_mem (mem_sqExps.2 hp)
    refine ⟨fun j => if j = i then 1 else 0, fun x => ?_⟩
    unfold evalFn
    simp only [ite_mul, one_mul, zero_mul]
    rw [sum_ite_eq', if_pos (mem_range.2 (show i < (sqBasis k).size from hi))]
    simp only [sqBasis]
    rw [getD_eq _ _ hi, e]
  | zero => exact ⟨fun _ => 0, fun x => by simp [evalFn]⟩
  | add f g _ _ hf hg =>
    obtain ⟨c, hc⟩ := hf
    obtain ⟨e, he⟩ := hg
    refine ⟨fun j => c j + e j, fun x => ?_⟩
    rw [Pi.add_apply, hc, he]
    simp only [evalFn, add_mul, sum_add_distrib]
  | smul a f _ hf =>
    obtain ⟨c, hc⟩ := hf
    refine ⟨fun j => a * c j, fun x => ?_⟩
    rw [Pi.smul_apply, hc]
    simp only [evalFn, smul_eq_mul, mul_sum, mul_assoc]

theorem sq_mul {m n : Nat} {f g : ℚ × ℚ → ℚ} (hf : f ∈ sqV m) (hg : g ∈ sqV n) : f * g ∈ sqV (m + n) := by
  induction hf, hg using Submodule.span_induction₂ with
  | mem_mem f g hf hg =>
    obtain ⟨p, hp, rfl⟩ := hf
    obtain ⟨q, hq, rfl⟩ := hg
    have : sqMon p * sqMon q = sqMon (p.1 + q.1, p.2 + q.2) := by
      funext x
      simp only [Pi.mul_apply, sqMon, pow_add]
      ring
    rw [this]
    exact sqMon_mem (by simp only; omega)
  | zero_left g _ => rw [zero_mul]; exact Submodule.zero_mem _
  | zero_right f _ => rw [mul_zero]; exact Submodule.zero_mem _
  | add_left f g h _ _ _ h1 h2 => rw [add_mul]; exact Submodule.add_mem _ h1 h2
  | add_right f g h _ _ _ h1 h2 => rw [mul_add]; exact Submodule.add_mem _ h1 h2
  | smul_left a f g _ _ h => rw [smul_mul_assoc]; exact Submodule.smul_mem _ _ h
  | smul_right a f g _ _ h => rw [mul_smul_comm]; exact Submodule.smul_mem _ _ h

/-- A quadrature rule of the plane as a linear functional. -/
def quadLin2 (qs : List (QP (ℚ × ℚ) ℚ)) : (ℚ × ℚ → ℚ) →ₗ[ℚ] ℚ where
  toFun := quad qs
  map_add' u v := quad_add qs u v
  map_smul' a v := quad_mul qs a v

/-- Restrictions of polynomials to an edge are polynomials of the other coordinate. -/
theorem sqEdge_span (ax : Bool) (a n : ℚ) {k : Nat} {v : ℚ × ℚ → ℚ} (hv : v ∈ sqV k) :
    ∃ c, ∀ x : ℚ × ℚ, (if ax then x.1 else x.2) = a → v x = evalFn ((sqEdge ax a n).basis k) c x := by
  induction hv using Submodule.span_induction with
  | mem f hf =>
    obtain ⟨p, hp, rfl⟩ := hf
    refine ⟨fun j => if j = (if ax then p.2 else p.1) then a ^ (if ax then p.1 else p.2) else 0, fun x hx => ?_⟩
    unfold evalFn
    simp only [ite_mul, zero_mul]
    rw [sum_ite_eq', if_pos (by simp only [sqEdge, mem_range]; split_ifs <;> omega), ← hx]
    simp only [sqEdge, sqMon]
    cases ax <;> simp [mul_comm]
  | zero => exact ⟨fun _ => 0, fun x _ => by simp [evalFn]⟩
  | add f g _ _ hf hg =>
    obtain ⟨c, hc⟩ := hf
    obtain ⟨e, he⟩ := hg
    refine ⟨fun j => c j + e j, fun x hx => ?_⟩
    rw [Pi.add_apply, hc x hx, he x hx]
    simp only [evalFn, add_mul, sum_add_distrib]
  | smul b f _ hf =>
    obtain ⟨c, hc⟩ := hf
    refine ⟨fun j => b * c j, fun x hx => ?_⟩
    rw [Pi.smul_apply, hc x hx]
    simp only [evalFn, smul_eq_mul, mul_sum, mul_assoc]

theorem sqEdge_mem {f : Face (ℚ × ℚ) ℚ} (hf : f ∈ sqFaces) : ∃ ax a n, f = sqEdge ax a n := by
  simp only [sqFaces, List.mem_cons, List.not_mem_nil, or_false] at hf
  rcases hf with rfl | rfl | rfl | rfl <;> exact ⟨_, _, _, rfl⟩

theorem sqExps_head (k : Nat) : (sqExps k).getD 0 (0, 0) = (0, 0) := by
  unfold sqExps
  rw [List.range_succ_eq_map]
  rfl

/-- The polynomial spaces of the square. -/
def sqPoly : PolyCell 2 sqCell sqFaces 5 where
  V := sqV
  mono := by
    intro m n h
    refine Submodule.span_mono ?_
    rintro f ⟨p, hp, rfl⟩
    exact ⟨p, hp.trans h, rfl⟩
  mul := sq_mul
  IT := quadLin2 (sqCell.integrate 0)
  IF f := quadLin2 (f.integrate 0)
  on f := {x | x ∈ (f.integrate 0).map (·.pt)}
  cell_exact _ _ _ _ := rfl
  cell_mem k i hi := sqMon_mem (sqGetD_mem hi)
  cell_span k v hv := sq_span hv
  cell_pos k := List.length_pos_of_mem ((mem_sqExps (k := k) (p := (0, 0))).2 (Nat.zero_le _))
  cell_one k x := by
    change sqMon ((sqExps k).getD 0 (0, 0)) x = 1
    rw [sqExps_head]
    simp [sqMon]
  grad_mem k i hi c hc := by
    have h := sqGetD_mem hi
    change (fun x => if c = 0 then _ else _) ∈ sqV (k - 1)
    by_cases hc : c = 0
    · simp only [if_pos hc]
      by_cases h0 : ((sqExps k).getD i (0, 0)).1 = 0
      · simp only [h0, Nat.cast_zero, zero_mul]
        exact Submodule.zero_mem _
      · exact Submodule.smul_mem _ _ (sqMon_mem (by simp only; omega))
    · simp only [if_neg hc]
      by_cases h0 : ((sqExps k).getD i (0, 0)).2 = 0
      · simp only [h0, Nat.cast_zero, zero_mul]
        exact Submodule.zero_mem _
      · exact Submodule.smul_mem _ _ (sqMon_mem (by simp only; omega))
  grad_one k x c := by
    simp only [sqCell, sqBasis, sqExps_head, Nat.cast_zero, zero_mul, ite_self]
  face_pts f hf n q hq := by
    obtain ⟨ax, a, m, rfl⟩ := sqEdge_mem hf
    exact List.mem_map_of_mem hq
  face_congr f hf u v h := quad_congr fun q hq => h q.pt (List.mem_map_of_mem hq)
  face_exact f hf n _ v _ := by
    obtain ⟨ax, a, m, rfl⟩ := sqEdge_mem hf
    rfl
  face_mem f hf k i hi := by
    obtain ⟨ax, a, m, rfl⟩ := sqEdge_mem hf
    have hi : i < k + 1 := hi
    refine ⟨sqMon (if ax then (0, i) else (i, 0)), sqMon_mem (by cases ax <;> simp <;> omega), fun x _ => ?_⟩
    cases ax <;> simp [sqEdge, sqMon]
  face_span f hf k v hv := by
    obtain ⟨ax, a, m, rfl⟩ := sqEdge_mem hf
    obtain ⟨c, hc⟩ := sqEdge_span ax a m hv
    refine ⟨c, fun x hx => hc x ?_⟩
    simp only [sqEdge, List.map_map, Set.mem_setOf_eq, List.mem_map, Function.comp] at hx
    obtain ⟨p, _, rfl⟩ := hx
    cases ax <;> rfl

theorem sqParts : ∀ m ≤ 1, ∀ n ≤ 2, Parts sqPoly m n := by
  intro m hm n hn
  have h : ∀ i < (sqCell.basis m).size, ∀ j < (sqCell.basis n).size, ∀ c < 2,
      quad (sqCell.integrate 0) (fun x => (sqCell.basis m).fn x i * (sqCell.basis n).grad x j c) =
      -quad (sqCell.integrate 0) (fun x => (sqCell.basis m).grad x i c * (sqCell.basis n).fn x j) +
        (sqFaces.map fun f => quad (f.integrate 0) fun x =>
          (sqCell.basis m).fn x i * f.normal c * (sqCell.basis n).fn x j).sum := by
    interval_cases m <;> interval_cases n <;> decide +kernel
  exact h

/-- Unknowns on the four edges of the square. -/
abbrev sqInfo : List (InfoFace (ℚ × ℚ) ℚ) := uniform 0 sqFaces

theorem sqFacesIn : FacesIn sqFaces 0 sqInfo := fun f k h => ⟨(mem_uniform h).1, (mem_uniform h).2.le⟩

theorem sqAll : AllUnknowns sqFaces sqInfo := by
  refine ⟨by simp [sqInfo, uniform, Function.comp_def], fun p hp => ?_⟩
  obtain ⟨f, _, rfl⟩ := List.mem_map.1 hp
  simp

theorem sqGradNonsing : Nonsing (2 * (sqCell.basis 0).size) (gradLhs 2 0 sqCell) := by
  have e : ∀ i < 2, ∀ j < 2, gradLhs 2 0 sqCell i j = if i = j then 1 else 0 := by decide +kernel
  intro x h j hj
  have h := h j hj
  have hj : j < 2 := hj
  change ∑ k ∈ range 2, gradLhs 2 0 sqCell j k * x k = 0 at h
  simp only [sum_range_succ, range_zero, sum_empty, e j hj 0 (by omega), e j hj 1 (by omega)] at h
  interval_cases j <;> simpa using h

theorem sqSymNonsing : Nonsing (symCount 2 * (sqCell.basis 0).size) (symLhs 2 0 1 sqCell) := by
  have e : ∀ i < 3, ∀ j < 3, symLhs 2 0 1 sqCell i j = if i = j then (if i = 1 then 2 else 1) else 0 := by
    decide +kernel
  intro x h j hj
  have h := h j hj
  have hj : j < 3 := hj
  change ∑ k ∈ range 3, symLhs 2 0 1 sqCell j k * x k = 0 at h
  simp only [sum_range_succ, range_zero, sum_empty, e j hj 0 (by omega), e j hj 1 (by omega), e j hj 2 (by omega)] at h
  interval_cases j <;> simpa using h

theorem sqMass : Nonsing (sqCell.basis 0).size (mass sqCell 0 (sqCell.basis 0)) := by
  intro x h j hj
  obtain rfl : j = 0 := by
    have : j < 1 := hj
    omega
  have h0 := h 0 hj
  change ∑ k ∈ range 1, mass sqCell 0 (sqCell.basis 0) 0 k * x k = 0 at h0
  rwa [sum_range_one, show mass sqCell 0 (sqCell.basis 0) 0 0 = 1 by decide +kernel, one_mul] at h0

theorem sqFaceMass : ∀ g ∈ sqFaces, Nonsing (g.basis 0).size (mass g.toElem 0 (g.basis 0)) := by
  intro g hg x h j hj
  have e : mass g.toElem 0 (g.basis 0) 0 0 = 1 := by
    simp only [sqFaces, List.mem_cons, List.not_mem_nil, or_false] at hg
    rcases hg with rfl | rfl | rfl | rfl <;> decide +kernel
  obtain ⟨ax, a, m, rfl⟩ := sqEdge_mem hg
  obtain rfl : j = 0 := by
    have : j < 1 := hj
    omega
  have h0 := h 0 hj
  change ∑ k ∈ range 1, _ * x k = 0 at h0
  rwa [sum_range_one, e, one_mul] at h0

/-- Every vector field of linear components has an interpolate on the square. -/
theorem sqInterp (p : Nat → ℚ) : ∃ u : Nat → ℚ, ∀ c < 2,
    IsInterp sqPoly 0 sqInfo (evalFn (sqCell.basis 1) (comp 2 c p)) (comp 2 c u) := by
  refine ⟨fun k => project (exactSolver ℚ) sqCell sqFaces 0 0 1 1 (evalFn (sqCell.basis 1) (comp 2 (k % 2) p)) (k / 2),
    fun c hc => ?_⟩
  have : comp 2 c (fun k => project (exactSolver ℚ) sqCell sqFaces 0 0 1 1
      (evalFn (sqCell.basis 1) (comp 2 (k % 2) p)) (k / 2)) =
      project (exactSolver ℚ) sqCell sqFaces 0 0 1 1 (evalFn (sqCell.basis 1) (comp 2 c p)) := by
    funext k
    unfold comp
    dsimp only
    rw [(divmod_add hc).1, (divmod_add hc).2]
  rw [this]
  refine project_isInterp sqPoly (exactSolver ℚ) (rd := 1) (fun g hg => ?_) sqMass sqFaceMass (by omega) (by omega)
    (by omega) (by omega) (evalFn_mem sqPoly 1 _)
  obtain ⟨ax, a, m, rfl⟩ := sqEdge_mem hg
  rfl

end Verif.Lemmas.Hho
