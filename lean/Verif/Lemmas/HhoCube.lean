import Verif.Lemmas.HhoSquare
import Verif.Lemmas.HhoTangent
/-!
A spatial instance of the hypotheses of the HHO theorems: the unit cube with monomials, the tensor product of Simpson's
rule and its six faces.
-/
namespace Verif.Lemmas.Hho
open Finset Verif.Hho Verif.Spec.Hho LocalMatrix

/-- Points of space. -/
abbrev Pt3 := ℚ × ℚ × ℚ

/-- Exponents of the monomials of total degree at most `k`. -/
def cuExps (k : Nat) : List (Nat × Nat × Nat) :=
  (List.range (k + 1)).flatMap fun n => (List.range (n + 1)).flatMap fun i =>
    (List.range (n - i + 1)).map fun j => (n - i - j, j, i)

/-- A monomial. -/
def cuMon (p : Nat × Nat × Nat) (x : Pt3) : ℚ := x.1 ^ p.1 * x.2.1 ^ p.2.1 * x.2.2 ^ p.2.2

/-- Monomials of total degree at most `k`. -/
def cuBasis (k : Nat) : Basis Pt3 ℚ :=
  ⟨(cuExps k).length, fun x i => cuMon ((cuExps k).getD i (0, 0, 0)) x, fun x i c =>
    let p := (cuExps k).getD i (0, 0, 0)
    if c = 0 then p.1 * cuMon (p.1 - 1, p.2.1, p.2.2) x
    else if c = 1 then p.2.1 * cuMon (p.1, p.2.1 - 1, p.2.2) x
    else p.2.2 * cuMon (p.1, p.2.1, p.2.2 - 1) x⟩

/-- Simpson's rule. -/
def simpson : List (ℚ × ℚ) := [(0, 1 / 6), (1 / 2, 4 / 6), (1, 1 / 6)]

/-- The unit cube. -/
def cuCell : Elem Pt3 ℚ :=
  ⟨cuBasis, fun _ => simpson.flatMap fun p => simpson.flatMap fun q => simpson.map fun r =>
    ⟨(p.1, q.1, r.1), p.2 * q.2 * r.2⟩, 1⟩

/-- The coordinates on a face orthogonal to the axis `ax`. -/
def cuOther (ax : Fin 3) (x : Pt3) : ℚ × ℚ := if ax = 0 then (x.2.1, x.2.2) else if ax = 1 then (x.1, x.2.2) else (x.1, x.2.1)

/-- The coordinate of the axis. -/
def cuCoord (ax : Fin 3) (x : Pt3) : ℚ := if ax = 0 then x.1 else if ax = 1 then x.2.1 else x.2.2

/-- The point with given coordinates. -/
def cuPoint (ax : Fin 3) (a s t : ℚ) : Pt3 := if ax = 0 then (a, s, t) else if ax = 1 then (s, a, t) else (s, t, a)

/-- The face where the coordinate of the axis `ax` is `a`. -/
def cuFace (ax : Fin 3) (a n : ℚ) : Face Pt3 ℚ :=
  ⟨⟨fun k => ⟨(sqExps k).length, fun x i => sqMon ((sqExps k).getD i (0, 0)) (cuOther ax x), fun _ _ _ => 0⟩,
    fun _ => simpson.flatMap fun p => simpson.map fun q => ⟨cuPoint ax a p.1 q.1, p.2 * q.2⟩, 1⟩,
    fun c => if c = ax.1 then n else 0⟩

/-- The six faces with their outer normals. -/
def cuFaces : List (Face Pt3 ℚ) :=
  [cuFace 0 0 (-1), cuFace 0 1 1, cuFace 1 0 (-1), cuFace 1 1 1, cuFace 2 0 (-1), cuFace 2 1 1]

/-- The tangential frames: the two other axes. -/
def cuFrames : Frames Pt3 ℚ := fun f s c =>
  if f.normal 0 ≠ 0 then (if c = s + 1 then 1 else 0)
  else if f.normal 1 ≠ 0 then (if c = 2 * s then 1 else 0)
  else (if c = s then 1 else 0)

/-- Polynomial functions of bounded total degree. -/
def cuV (k : Nat) : Submodule ℚ (Pt3 → ℚ) :=
  Submodule.span ℚ {f | ∃ p : Nat × Nat × Nat, p.1 + p.2.1 + p.2.2 ≤ k ∧ f = cuMon p}

theorem mem_cuExps {k : Nat} {p : Nat × Nat × Nat} : p ∈ cuExps k ↔ p.1 + p.2.1 + p.2.2 ≤ k := by
  unfold cuExps
  simp only [List.mem_flatMap, List.mem_range, List.mem_map]
  constructor
  · rintro ⟨n, hn, i, hi, j, hj, rfl⟩
    simp only
    omega
  · intro h
    refine ⟨p.1 + p.2.1 + p.2.2, by omega, p.2.2, by omega, p.2.1, by omega, ?_⟩
    rw [show p.1 + p.2.1 + p.2.2 - p.2.2 - p.2.1 = p.1 by omega]

theorem cuMon_mem {k : Nat} {p : Nat × Nat × Nat} (h : p.1 + p.2.1 + p.2.2 ≤ k) : cuMon p ∈ cuV k :=
  Submodule.subset_span ⟨p, h, rfl⟩

theorem cuGetD_mem {k i : Nat} (hi : i < (cuExps k).length) :
    ((cuExps k).getD i (0, 0, 0)).1 + ((cuExps k).getD i (0, 0, 0)).2.1 + ((cuExps k).getD i (0, 0, 0)).2.2 ≤ k := by
  rw [getD_eq _ _ hi]
  exact mem_cuExps.1 (List.getElem_mem hi)

theorem cu_span {k : Nat} {v : Pt3 → ℚ} (hv : v ∈ cuV k) : ∃ c, ∀ x, v x = evalFn (cuBasis k) c x := by
  induction hv using Submodule.span_induction with
  | mem f hf =>
    obtain ⟨p, hp, rfl⟩ := hf
    obtain ⟨i, hi, e⟩ := List.getElem_of_mem (mem_cuExps.2 hp)
    refine ⟨fun j => if j = i then 1 else 0, fun x => ?_⟩
    unfold evalFn
    simp only [ite_mul, one_mul, zero_mul]
    rw [sum_ite_eq', if_pos (mem_range.2 (show i < (cuBasis k).size from hi))]
    simp only [cuBasis]
    rw [getD_eq _ _ hi, e]
  | zero => exact ⟨fun _ => 0, fun x => by simp [evalFn]⟩
  | add f g _ _ hf hg =>
    obtain ⟨c, hc⟩ := hf
    obtain ⟨e, he⟩ := hg
    refine ⟨fun j => c j + e j, fun x => ?_⟩
    rw [Pi.add_apply, hc, he]
    simp only [evalFn, add_mul, sum_add_distrib]
  | smul a f _ hf =>
    obtain ⟨c, hc⟩ := hf
    refine ⟨fun j => a * c j, fun x => ?_⟩
    rw [Pi.smul_apply, hc]
    simp only [evalFn, smul_eq_mul, mul_sum, mul_assoc]

theorem cu_mul {m n : Nat} {f g : Pt3 → ℚ} (hf : f ∈ cuV m) (hg : g ∈ cuV n) : f * g ∈ cuV (m + n) := by
  induction hf, hg using Submodule.span_induction₂ with
  | mem_mem f g hf hg =>
    obtain ⟨p, hp, rfl⟩ := hf
    obtain ⟨q, hq, rfl⟩ := hg
    have : cuMon p * cuMon q = cuMon (p.1 + q.1, p.2.1 + q.2.1, p.2.2 + q.2.2) := by
      funext x
      simp only [Pi.mul_apply, cuMon, pow_add]
      ring
    rw [this]
    exact cuMon_mem (by simp only; omega)
  | zero_left g _ => rw [zero_mul]; exact Submodule.zero_mem _
  | zero_right f _ => rw [mul_zero]; exact Submodule.zero_mem _
  | add_left f g h _ _ _ h1 h2 => rw [add_mul]; exact Submodule.add_mem _ h1 h2
  | add_right f g h _ _ _ h1 h2 => rw [mul_add]; exact Submodule.add_mem _ h1 h2
  | smul_left a f g _ _ h => rw [smul_mul_assoc]; exact Submodule.smul_mem _ _ h
  | smul_right a f g _ _ h => rw [mul_smul_comm]; exact Submodule.smul_mem _ _ h

/-- A quadrature rule of space as a linear functional. -/
def quadLin3 (qs : List (QP Pt3 ℚ)) : (Pt3 → ℚ) →ₗ[ℚ] ℚ where
  toFun := quad qs
  map_add' u v := quad_add qs u v
  map_smul' a v := quad_mul qs a v

/-- Exponents on a face. -/
def cuOtherExp (ax : Fin 3) (p : Nat × Nat × Nat) : Nat × Nat :=
  if ax = 0 then (p.2.1, p.2.2) else if ax = 1 then (p.1, p.2.2) else (p.1, p.2.1)

/-- Exponent of the axis. -/
def cuAxisExp (ax : Fin 3) (p : Nat × Nat × Nat) : Nat := if ax = 0 then p.1 else if ax = 1 then p.2.1 else p.2.2

theorem cuMon_split (ax : Fin 3) (p : Nat × Nat × Nat) (x : Pt3) :
    cuMon p x = cuCoord ax x ^ cuAxisExp ax p * sqMon (cuOtherExp ax p) (cuOther ax x) := by
  fin_cases ax <;> simp [cuMon, sqMon, cuCoord, cuAxisExp, cuOtherExp, cuOther] <;> ring

/-- Restrictions of polynomials to a face are polynomials of the other coordinates. -/
theorem cuFace_span (ax : Fin 3) (a n : ℚ) {k : Nat} {v : Pt3 → ℚ} (hv : v ∈ cuV k) :
    ∃ c, ∀ x : Pt3, cuCoord ax x = a → v x = evalFn ((cuFace ax a n).basis k) c x := by
  induction hv using Submodule.span_induction with
  | mem f hf =>
    obtain ⟨p, hp, rfl⟩ := hf
    have hq : cuOtherExp ax p ∈ sqExps k := by
      rw [mem_sqExps]
      unfold cuOtherExp
      split_ifs <;> simp only <;> omega
    obtain ⟨i, hi, e⟩ := List.getElem_of_mem hq
    refine ⟨fun j => if j = i then a ^ cuAxisExp ax p else 0, fun x hx => ?_⟩
    unfold evalFn
    simp only [ite_mul, zero_mul]
    rw [sum_ite_eq', if_pos (mem_range.2 (show i < ((cuFace ax a n).basis k).size from hi)), ← hx, cuMon_split ax]
    simp only [cuFace]
    rw [getD_eq _ _ hi, e]
  | zero => exact ⟨fun _ => 0, fun x _ => by simp [evalFn]⟩
  | add f g _ _ hf hg =>
    obtain ⟨c, hc⟩ := hf
    obtain ⟨e, he⟩ := hg
    refine ⟨fun j => c j + e j, fun x hx => ?_⟩
    rw [Pi.add_apply, hc x hx, he x hx]
    simp only [evalFn, add_mul, sum_add_distrib]
  | smul b f _ hf =>
    obtain ⟨c, hc⟩ := hf
    refine ⟨fun j => b * c j, fun x hx => ?_⟩
    rw [Pi.smul_apply, hc x hx]
    simp only [evalFn, smul_eq_mul, mul_sum, mul_assoc]

theorem cuFace_mem {f : Face Pt3 ℚ} (hf : f ∈ cuFaces) : ∃ ax a n, f = cuFace ax a n := by
  simp only [cuFaces, List.mem_cons, List.not_mem_nil, or_false] at hf
  rcases hf with rfl | rfl | rfl | rfl | rfl | rfl <;> exact ⟨_, _, _, rfl⟩

theorem cuExps_head (k : Nat) : (cuExps k).getD 0 (0, 0, 0) = (0, 0, 0) := by
  unfold cuExps
  rw [List.range_succ_eq_map]
  rfl

/-- The polynomial spaces of the cube. -/
def cuPoly : PolyCell 3 cuCell cuFaces 8 where
  V := cuV
  mono := by
    intro m n h
    refine Submodule.span_mono ?_
    rintro f ⟨p, hp, rfl⟩
    exact ⟨p, hp.trans h, rfl⟩
  mul := cu_mul
  IT := quadLin3 (cuCell.integrate 0)
  IF f := quadLin3 (f.integrate 0)
  on f := {x | x ∈ (f.integrate 0).map (·.pt)}
  cell_exact _ _ _ _ := rfl
  cell_mem k i hi := cuMon_mem (cuGetD_mem hi)
  cell_span k v hv := cu_span hv
  cell_pos k := List.length_pos_of_mem ((mem_cuExps (k := k) (p := (0, 0, 0))).2 (Nat.zero_le _))
  cell_one k x := by
    change cuMon ((cuExps k).getD 0 (0, 0, 0)) x = 1
    rw [cuExps_head]
    simp [cuMon]
  grad_mem k i hi c hc := by
    have h := cuGetD_mem hi
    change (fun x => if c = 0 then _ else if c = 1 then _ else _) ∈ cuV (k - 1)
    by_cases hc : c = 0
    · simp only [if_pos hc]
      by_cases h0 : ((cuExps k).getD i (0, 0, 0)).1 = 0
      · simp only [h0, Nat.cast_zero, zero_mul]
        exact Submodule.zero_mem _
      · exact Submodule.smul_mem _ _ (cuMon_mem (by simp only; omega))
    · simp only [if_neg hc]
      by_cases hc : c = 1
      · simp only [if_pos hc]
        by_cases h0 : ((cuExps k).getD i (0, 0, 0)).2.1 = 0
        · simp only [h0, Nat.cast_zero, zero_mul]
          exact Submodule.zero_mem _
        · exact Submodule.smul_mem _ _ (cuMon_mem (by simp only; omega))
      · simp only [if_neg hc]
        by_cases h0 : ((cuExps k).getD i (0, 0, 0)).2.2 = 0
        · simp only [h0, Nat.cast_zero, zero_mul]
          exact Submodule.zero_mem _
        · exact Submodule.smul_mem _ _ (cuMon_mem (by simp only; omega))
  grad_one k x c := by
    simp only [cuCell, cuBasis, cuExps_head, Nat.cast_zero, zero_mul, ite_self]
  face_pts f hf n q hq := by
    obtain ⟨ax, a, m, rfl⟩ := cuFace_mem hf
    exact List.mem_map_of_mem hq
  face_congr f hf u v h := quad_congr fun q hq => h q.pt (List.mem_map_of_mem hq)
  face_exact f hf n _ v _ := by
    obtain ⟨ax, a, m, rfl⟩ := cuFace_mem hf
    rfl
  face_mem f hf k i hi := by
    obtain ⟨ax, a, m, rfl⟩ := cuFace_mem hf
    have h := sqGetD_mem (show i < (sqExps k).length from hi)
    set p := (sqExps k).getD i (0, 0) with hp
    refine ⟨cuMon (if ax = 0 then (0, p.1, p.2) else if ax = 1 then (p.1, 0, p.2) else (p.1, p.2, 0)),
      cuMon_mem (by split_ifs <;> simp only <;> omega), fun x _ => ?_⟩
    simp only [cuFace, ← hp]
    fin_cases ax <;> simp [cuMon, sqMon, cuOther]
  face_span f hf k v hv := by
    obtain ⟨ax, a, m, rfl⟩ := cuFace_mem hf
    obtain ⟨c, hc⟩ := cuFace_span ax a m hv
    refine ⟨c, fun x hx => hc x ?_⟩
    simp only [cuFace, List.map_flatMap, List.map_map, Set.mem_setOf_eq, List.mem_flatMap, List.mem_map,
      Function.comp] at hx
    obtain ⟨p, _, q, _, rfl⟩ := hx
    fin_cases ax <;> simp [cuCoord, cuPoint]

theorem cuParts01 : Parts cuPoly 0 1 := by
  have h : ∀ i < (cuCell.basis 0).size, ∀ j < (cuCell.basis 1).size, ∀ c < 3,
      quad (cuCell.integrate 0) (fun x => (cuCell.basis 0).fn x i * (cuCell.basis 1).grad x j c) =
      -quad (cuCell.integrate 0) (fun x => (cuCell.basis 0).grad x i c * (cuCell.basis 1).fn x j) +
        (cuFaces.map fun f => quad (f.integrate 0) fun x =>
          (cuCell.basis 0).fn x i * f.normal c * (cuCell.basis 1).fn x j).sum := by
    decide +kernel
  exact h

theorem cuParts00 : Parts cuPoly 0 0 := by
  have h : ∀ i < (cuCell.basis 0).size, ∀ j < (cuCell.basis 0).size, ∀ c < 3,
      quad (cuCell.integrate 0) (fun x => (cuCell.basis 0).fn x i * (cuCell.basis 0).grad x j c) =
      -quad (cuCell.integrate 0) (fun x => (cuCell.basis 0).grad x i c * (cuCell.basis 0).fn x j) +
        (cuFaces.map fun f => quad (f.integrate 0) fun x =>
          (cuCell.basis 0).fn x i * f.normal c * (cuCell.basis 0).fn x j).sum := by
    decide +kernel
  exact h

theorem cuParts12 : Parts cuPoly 1 2 := by
  have h : ∀ i < (cuCell.basis 1).size, ∀ j < (cuCell.basis 2).size, ∀ c < 3,
      quad (cuCell.integrate 0) (fun x => (cuCell.basis 1).fn x i * (cuCell.basis 2).grad x j c) =
      -quad (cuCell.integrate 0) (fun x => (cuCell.basis 1).grad x i c * (cuCell.basis 2).fn x j) +
        (cuFaces.map fun f => quad (f.integrate 0) fun x =>
          (cuCell.basis 1).fn x i * f.normal c * (cuCell.basis 2).fn x j).sum := by
    decide +kernel
  exact h

theorem cuFrames_frame : ∀ f ∈ cuFaces, IsFrame f.normal (cuFrames f) := by
  intro f hf
  simp only [cuFaces, List.mem_cons, List.not_mem_nil, or_false] at hf
  unfold IsFrame
  rcases hf with rfl | rfl | rfl | rfl | rfl | rfl <;> decide +kernel

theorem cuCurlMass : Nonsing (3 * (cuCell.basis 0).size) (curlPkLhs 0 0 cuCell) := by
  have e : ∀ i < 3, ∀ j < 3, curlPkLhs 0 0 cuCell i j = if i = j then 1 else 0 := by decide +kernel
  intro x h j hj
  have h := h j hj
  have hj : j < 3 := hj
  change ∑ k ∈ range 3, curlPkLhs 0 0 cuCell j k * x k = 0 at h
  simp only [sum_range_succ, range_zero, sum_empty, e j hj 0 (by omega), e j hj 1 (by omega), e j hj 2 (by omega)] at h
  interval_cases j <;> simpa using h

theorem cuVecMass : Nonsing (3 * (cuCell.basis 0).size) (accumDot 3 (cuCell.integrate (2 * 0)) (vecFn 3 (cuCell.basis 0))
    (vecFn 3 (cuCell.basis 0))) := cuCurlMass

theorem cuTanMass : ∀ f ∈ cuFaces, Nonsing (2 * (f.basis 0).size) (accumDot 3 (f.integrate (2 * 0))
    (tanFn (cuFrames f) (f.basis 0)) (tanFn (cuFrames f) (f.basis 0))) := by
  have e : ∀ f ∈ cuFaces, ∀ i < 2, ∀ j < 2, accumDot 3 (f.integrate (2 * 0))
      (tanFn (cuFrames f) (f.basis 0)) (tanFn (cuFrames f) (f.basis 0)) i j = if i = j then 1 else 0 := by
    intro f hf
    simp only [cuFaces, List.mem_cons, List.not_mem_nil, or_false] at hf
    rcases hf with rfl | rfl | rfl | rfl | rfl | rfl <;> decide +kernel
  intro f hf x h j hj
  have h := h j hj
  have e := e f hf
  obtain ⟨ax, a, m, rfl⟩ := cuFace_mem hf
  have hj : j < 2 := hj
  change ∑ k ∈ range 2, accumDot 3 ((cuFace ax a m).integrate (2 * 0)) (tanFn (cuFrames (cuFace ax a m))
    ((cuFace ax a m).basis 0)) (tanFn (cuFrames (cuFace ax a m)) ((cuFace ax a m).basis 0)) j k * x k = 0 at h
  simp only [sum_range_succ, range_zero, sum_empty, e j hj 0 (by omega), e j hj 1 (by omega)] at h
  interval_cases j <;> simpa using h

/-- A tangential interpolate exists. -/
theorem cuTanInterp (a : Nat → ℚ) : ∃ u, IsTanInterp cuPoly cuFrames 0 0 (evalVec 3 (cuCell.basis 1) a) u :=
  ⟨projectTangent (exactSolver ℚ) cuFrames cuCell cuFaces 0 0 2 1 (evalVec 3 (cuCell.basis 1) a),
    projectTangent_isInterp cuPoly (exactSolver ℚ) (fun f hf => by
      obtain ⟨ax, a, m, rfl⟩ := cuFace_mem hf
      rfl) cuVecMass cuTanMass cuFrames_frame (by omega) (by omega) (by omega) (by omega)
      fun c _ => evalFn_mem cuPoly 1 _⟩

theorem cuTanMass' : ∀ f ∈ cuFaces, Nonsing (2 * (f.basis 0).size) (tanMass cuFrames 0 0 f) := by
  intro f hf
  have := cuTanMass f hf
  obtain ⟨ax, a, m, rfl⟩ := cuFace_mem hf
  exact this

theorem flatMap_prefix {α : Type} (g : Nat → List α) {m n : Nat} (h : m ≤ n) (z : α) :
    ((List.range m).flatMap g).length ≤ ((List.range n).flatMap g).length ∧
    ∀ i < ((List.range m).flatMap g).length, ((List.range m).flatMap g).getD i z = ((List.range n).flatMap g).getD i z := by
  obtain ⟨k, rfl⟩ := Nat.exists_eq_add_of_le h
  rw [List.range_add, List.flatMap_append]
  refine ⟨by rw [List.length_append]; omega, fun i hi => ?_⟩
  rw [List.getD_eq_getElem?_getD, List.getD_eq_getElem?_getD, List.getElem?_append_left hi]

theorem cuNested : Nested cuCell := by
  intro m n h
  obtain ⟨h1, h2⟩ := flatMap_prefix (fun n => (List.range (n + 1)).flatMap fun i =>
    (List.range (n - i + 1)).map fun j => (n - i - j, j, i)) (show m + 1 ≤ n + 1 by omega) (0, 0, 0)
  refine ⟨h1, fun i hi x => ?_⟩
  have e : (cuExps m).getD i (0, 0, 0) = (cuExps n).getD i (0, 0, 0) := h2 i hi
  simp only [cuCell, cuBasis, e]
  exact ⟨trivial, trivial⟩

theorem sqNested : Nested sqCell := by
  intro m n h
  obtain ⟨h1, h2⟩ := flatMap_prefix (fun n => (List.range (n + 1)).map fun j => (n - j, j))
    (show m + 1 ≤ n + 1 by omega) (0, 0)
  refine ⟨h1, fun i hi x => ?_⟩
  have e : (sqExps m).getD i (0, 0) = (sqExps n).getD i (0, 0) := h2 i hi
  simp only [sqCell, sqBasis, e]
  exact ⟨trivial, trivial⟩

theorem cuConst {v : Pt3 → ℚ} (hv : v ∈ cuV 0) : ∃ a, ∀ x, v x = a := by
  obtain ⟨c, hc⟩ := cu_span hv
  refine ⟨c 0, fun x => ?_⟩
  rw [hc]
  unfold evalFn
  rw [show (cuBasis 0).size = 1 from rfl, sum_range_one]
  change c 0 * cuMon (0, 0, 0) x = c 0
  simp [cuMon]

theorem cuIT_const (a : ℚ) : cuPoly.IT (fun _ => a) = a := by
  have h : quad (cuCell.integrate 0) (fun _ => (1 : ℚ)) = 1 := by decide +kernel
  have := quad_mul (cuCell.integrate 0) a fun _ => 1
  rw [h, mul_one] at this
  exact this

theorem cuEval0 (w : Nat → ℚ) (x : Pt3) (c : Nat) : evalVec 3 (cuCell.basis 0) w x c = w c := by
  unfold evalVec evalFn
  rw [show (cuCell.basis 0).size = 1 from rfl, sum_range_one]
  change comp 3 c w 0 * cuMon (0, 0, 0) x = w c
  simp [comp, cuMon]

/-- The interpolate of a constant field: its face unknowns are the projections of its cell unknowns. -/
theorem cuTanInterp0 (a : Nat → ℚ) : ∃ u : Nat → ℚ, (∀ c < 3, u c = a c) ∧
    tanAll 2 0 (fun f o => IsTanProj cuPoly cuFrames 0 f (evalVec 3 (cuCell.basis 0) u) (seg o u)) cuFaces
      (3 * (cuCell.basis 0).size) := by
  have h := projectTangent_isInterp cuPoly (exactSolver ℚ) (fbs := 2) (di := 0) (fun f hf => by
      obtain ⟨ax, a, m, rfl⟩ := cuFace_mem hf
      rfl) cuVecMass cuTanMass cuFrames_frame (pd := 0) (by omega) (by omega) (by omega) (by omega)
      (p := evalVec 3 (cuCell.basis 0) a) fun c _ => evalFn_mem cuPoly 0 _
  set u := projectTangent (exactSolver ℚ) cuFrames cuCell cuFaces 0 0 2 0 (evalVec 3 (cuCell.basis 0) a)
  have hu : ∀ c < 3, u c = a c := by
    intro c hc
    have := h.1 c hc 0 (by decide)
    simp only [cuEval0] at this
    have e : ∀ r : ℚ, (fun x => (cuCell.basis 0).fn x 0 * r) = fun _ => r := by
      intro r
      funext x
      change cuMon (0, 0, 0) x * r = r
      simp [cuMon]
    rwa [e, e, cuIT_const, cuIT_const] at this
  refine ⟨u, hu, tanAll_mono (fun f _ o hp s hs i hi => ?_) h.2⟩
  rw [hp s hs i hi]
  congr 1
  funext x
  rw [dot_congr3 (fun _ _ => rfl) fun c hc => ?_]
  rw [cuEval0, cuEval0, hu c hc]

theorem sqLapNonsing : Nonsing ((sqCell.basis 1).size - 1) (lapLhs 2 none (sqCell.basis 1) 1 sqCell) := by
  have e : ∀ i < 2, ∀ j < 2, lapLhs 2 none (sqCell.basis 1) 1 sqCell i j = if i = j then 1 else 0 := by decide +kernel
  intro x h j hj
  have h := h j hj
  have hj : j < 2 := hj
  change ∑ k ∈ range 2, lapLhs 2 none (sqCell.basis 1) 1 sqCell j k * x k = 0 at h
  simp only [sum_range_succ, range_zero, sum_empty, e j hj 0 (by omega), e j hj 1 (by omega)] at h
  interval_cases j <;> simpa using h

open Classical in
/-- A solver for systems of any rank. -/
noncomputable def exactRank (K : Type) [Field K] : RankSolver K where
  solve n A b := if h : ∃ x : Nat → K, ∀ i < n, ∑ j ∈ range n, A i j * x j = b i then Classical.choose h else fun _ => 0
  solves n A b h i hi := by
    rw [dif_pos h]
    exact Classical.choose_spec h i hi

/-- The tensor product of Radau's rule with two points, exact for degree 2. -/
def radau : List (ℚ × ℚ) := [(0, 1 / 4), (2 / 3, 3 / 4)]

/-- The cube with a cheaper rule for degrees up to 2. -/
def radCell : Elem Pt3 ℚ :=
  ⟨cuBasis, fun n => if n ≤ 2 then radau.flatMap fun p => radau.flatMap fun q => radau.map fun r =>
    ⟨(p.1, q.1, r.1), p.2 * q.2 * r.2⟩ else cuCell.integrate n, 1⟩

theorem rad_exact {v : Pt3 → ℚ} (hv : v ∈ cuV 2) : quad (radCell.integrate 0) v = quad (cuCell.integrate 0) v := by
  induction hv using Submodule.span_induction with
  | mem f hf =>
    obtain ⟨p, hp, rfl⟩ := hf
    have h : ∀ p ∈ cuExps 2, quad (radCell.integrate 0) (cuMon p) = quad (cuCell.integrate 0) (cuMon p) := by
      decide +kernel
    exact h p (mem_cuExps.2 hp)
  | zero =>
    change quadLin3 (radCell.integrate 0) 0 = quadLin3 (cuCell.integrate 0) 0
    rw [map_zero, map_zero]
  | add f g _ _ hf hg =>
    have := quad_add (radCell.integrate 0) f g
    have := quad_add (cuCell.integrate 0) f g
    simp_all [Pi.add_def]
  | smul a f _ hf =>
    have := quad_mul (radCell.integrate 0) a f
    have := quad_mul (cuCell.integrate 0) a f
    simp_all [Pi.smul_def]

/-- The polynomial spaces of the cube with the cheaper rule. -/
def radPoly : PolyCell 3 radCell cuFaces 8 where
  V := cuV
  mono := cuPoly.mono
  mul := cuPoly.mul
  IT := cuPoly.IT
  IF := cuPoly.IF
  on := cuPoly.on
  cell_exact n _ v hv := by
    by_cases h : n ≤ 2
    · rw [show radCell.integrate n = radCell.integrate 0 by simp [radCell, h]]
      exact rad_exact (cuPoly.mono h hv)
    · rw [show radCell.integrate n = cuCell.integrate n by simp [radCell, h]]
      rfl
  cell_mem := cuPoly.cell_mem
  cell_span := cuPoly.cell_span
  cell_pos := cuPoly.cell_pos
  cell_one := cuPoly.cell_one
  grad_mem := cuPoly.grad_mem
  grad_one := cuPoly.grad_one
  face_pts := cuPoly.face_pts
  face_congr := cuPoly.face_congr
  face_exact := cuPoly.face_exact
  face_mem := cuPoly.face_mem
  face_span := cuPoly.face_span

end Verif.Lemmas.Hho
