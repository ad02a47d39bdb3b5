import Verif.Lemmas.CfemSolver
import Verif.Lemmas.HhoSolverExample
/-!
Property C177: the program with first-order conforming elements, `apps/cfem/src/cfem.cpp`.
-/
namespace Verif.Props.CfemSolver
open Finset Verif.CfemSolver Verif.Spec Verif.Spec.P1 Verif.Hho Verif.Lemmas.P1

/-- C177 (gradients). `slopes` is what it should be: of all affine functions the one with the given values at the
vertices has these slopes. -/
theorem c177_slopes {p0 p1 p2 : P2 ℝ} (h : turn p0 p1 p2 ≠ 0) (u0 u1 u2 a b : ℝ) :
    (∃ c, affineFun c a b p0 = u0 ∧ affineFun c a b p1 = u1 ∧ affineFun c a b p2 = u2) ↔ slopes p0 p1 p2 u0 u1 u2 = (a, b) := by
  constructor
  · rintro ⟨c, rfl, rfl, rfl⟩
    unfold slopes affineFun
    refine Prod.ext ?_ ?_ <;> simp only <;> rw [div_eq_iff h] <;> unfold turn <;> ring
  · intro e
    obtain ⟨d1, d2⟩ := slope_diff h u0 u1 u2
    rw [e] at d1 d2
    refine ⟨u0 - a * p0.x - b * p0.y, ?_, ?_, ?_⟩ <;> unfold affineFun <;> simp only at d1 d2 <;> linarith

example : turn (⟨0, 0⟩ : P2 ℝ) ⟨1, 0⟩ ⟨0, 1⟩ ≠ 0 := by norm_num [turn]

/-- C177 (the system). The matrix is symmetric; if the coefficient is positive it is positive semidefinite; if all
points are linked to the boundary it is positive definite. -/
theorem c177_system_partial {m : Mesh} (hm : Ok m) {eps f : P2 ℝ → ℝ} {s : System} (hs : assemble eps f m = .ok s) :
    SymOn s.size s.gA ∧ ((∀ t ∈ m.cells, 0 < eps (center m t)) → (∀ x, 0 ≤ Spec.Hho.form s.size s.gA x x) ∧
      ((∀ i < m.points.length, Linked m i) →
        (∀ x, Spec.Hho.form s.size s.gA x x = 0 → ∀ i < s.size, x i = 0) ∧ Nonsing s.size s.gA)) := by
  obtain ⟨s', D, e, hN, hl, hD, hx, hf, _⟩ := assemble_ok hm eps f
  obtain rfl : s' = s := by rw [hs] at e; injection e with e; exact e.symm
  refine ⟨fun i hi j hj => ?_, fun he => ⟨fun x => by rw [hf]; exact energy_nonneg he _, fun hL => ?_⟩⟩
  · rw [← Lemmas.HhoSolver.app_unit hj s'.gA i, ← Lemmas.HhoSolver.form_unit hi, hf, energy_symm, ← hf,
      Lemmas.HhoSolver.form_unit hj, Lemmas.HhoSolver.app_unit hi]
  · have hz : ∀ x, Spec.Hho.form s'.size s'.gA x x = 0 → ∀ i < s'.size, x i = 0 := by
      intro x h i hi
      rw [hf] at h
      have hb : ∀ j, OnBoundary m j → spread D x j = 0 := fun j hj => by
        unfold spread
        rw [if_neg]
        rw [(hD j).2 hj]
        simp
      obtain ⟨j, hj, fj, cj⟩ := free_of_lt (D := D) (by rwa [← hN] : i < D.count false)
      have := linked_zero hm he hb h (hL j (by rwa [← hl]))
      unfold spread at this
      rwa [if_pos ⟨fj, hj⟩, cj] at this
    refine ⟨hz, fun x hx0 => hz x ?_⟩
    unfold Spec.Hho.form Spec.Hho.app
    exact sum_eq_zero fun i hi => by rw [hx0 i (mem_range.1 hi), mul_zero]

/-- C177 (the discrete problem). On a mesh all of whose points are linked to the boundary the program returns the
solution of the discrete problem and writes its values at the centers of the cells. -/
theorem c177_discrete_partial (lu : HhoSolver.LU ℝ) {m : Mesh} (hm : Ok m) (hL : ∀ i < m.points.length, Linked m i)
    {eps : P2 ℝ → ℝ} (he : ∀ t ∈ m.cells, 0 < eps (center m t)) (f : P2 ℝ → ℝ) :
    ∃ r, run lu eps f m = .ok r ∧ Solves m eps f r.sol ∧ r.vals = m.cells.map (mean r.sol) := by
  obtain ⟨s, D, e, hN, hl, hD, hx, hf, hb⟩ := assemble_ok hm eps f
  have hns := ((c177_system_partial hm e).2 he).2 hL |>.2
  refine ⟨⟨expandSol s.size s.expand (lu.solve s.size s.gA s.gb),
    m.cells.map (mean (expandSol s.size s.expand (lu.solve s.size s.gA s.gb)))⟩, ?_, ?_, rfl⟩
  · unfold run
    rw [e, Outcome.bind_ok]
    simp only [vals_ok hm _ m.cells fun _ h => h, Outcome.bind_ok]
  · simp only [hx]
    refine ⟨fun i hi => ?_, fun v hv => ?_⟩
    · unfold spread
      rw [if_neg]
      rw [(hD i).2 hi]
      simp
    · obtain ⟨y, hy⟩ := ext_of (D := D) (v := v) fun i hi => hv i ((hD i).1 hi)
      have e1 : energy m eps (spread D (lu.solve s.size s.gA s.gb)) v =
          energy m eps (spread D (lu.solve s.size s.gA s.gb)) (spread D y) := by
        refine energy_congr hm eps (fun i _ => rfl) fun i hi => ?_
        rw [hy i (by rwa [hl])]
      have e2 : loadOf m f v = loadOf m f (spread D y) := load_congr hm f fun i hi => by rw [hy i (by rwa [hl])]
      rw [e1, e2, ← hf, ← hb]
      unfold Spec.Hho.form Spec.Hho.app
      refine sum_congr rfl fun i hi => ?_
      rw [lu.solves _ _ _ hns i (mem_range.1 hi), mul_comm]

/-- C177 (uniqueness). There is no other solution. -/
theorem c177_unique {m : Mesh} (hm : Ok m) (hL : ∀ i < m.points.length, Linked m i) {eps : P2 ℝ → ℝ}
    (he : ∀ t ∈ m.cells, 0 < eps (center m t)) {f : P2 ℝ → ℝ} {u w : Nat → ℝ} (hu : Solves m eps f u)
    (hw : Solves m eps f w) : ∀ i < m.points.length, u i = w i := by
  intro i hi
  have hb : ∀ j, OnBoundary m j → u j - w j = 0 := fun j hj => by rw [hu.boundary j hj, hw.boundary j hj, sub_zero]
  have hz : energy m eps (fun i => u i - w i) (fun i => u i - w i) = 0 := by
    rw [energy_sub, hu.weak _ hb, hw.weak _ hb, sub_self]
  exact sub_eq_zero.1 (linked_zero hm he hb hz (hL i hi))

/-- C177 (energy). The solution has the least energy among the functions vanishing on the boundary. -/
theorem c177_minimal {m : Mesh} {eps : P2 ℝ → ℝ} (he : ∀ t ∈ m.cells, 0 < eps (center m t)) {f : P2 ℝ → ℝ}
    {u : Nat → ℝ} (hu : Solves m eps f u) {w : Nat → ℝ} (hw : ∀ i, OnBoundary m i → w i = 0) :
    energy m eps u u / 2 - loadOf m f u ≤ energy m eps w w / 2 - loadOf m f w := by
  have hn := energy_nonneg he fun i => w i - u i
  have h1 := hu.weak u hu.boundary
  have h2 := hu.weak w hw
  rw [energy_sub, energy_symm m eps w, energy_symm m eps u (fun i => w i - u i), energy_sub, energy_sub,
    energy_symm m eps w u] at hn
  linarith

/-- C177 (the program). The coefficient of the program is at least one, so all this applies to it. -/
theorem c177_program_partial (lu : HhoSolver.LU ℝ) {m : Mesh} (hm : Ok m) (hL : ∀ i < m.points.length, Linked m i) :
    ∃ r, run lu coeff load m = .ok r ∧ Solves m coeff load r.sol ∧ r.vals = m.cells.map (mean r.sol) := by
  refine c177_discrete_partial lu hm hL (fun t _ => ?_) load
  unfold coeff
  have h : ∀ c s : ℝ, 0 < 1 + 100 * c * c * s * s := fun c s => by
    have := mul_nonneg (mul_self_nonneg c) (mul_self_nonneg s)
    nlinarith
  exact h _ _

/-- Four triangles around the center of a square. -/
noncomputable def square : Mesh where
  points := [⟨0, 0⟩, ⟨1, 0⟩, ⟨1, 1⟩, ⟨0, 1⟩, ⟨1 / 2, 1 / 2⟩]
  cells := [![0, 1, 4], ![1, 2, 4], ![2, 3, 4], ![3, 0, 4]]
  bfaces := [(0, 1), (1, 2), (2, 3), (0, 3)]

theorem square_ok : Ok square := by
  refine ⟨?_, ?_, ?_⟩
  · simp [square, Fin.forall_fin_succ]
  · simp [square, pt, turn]
    norm_num
  · simp [square]

theorem square_linked : ∀ i < square.points.length, Linked square i := by
  have hb : ∀ i < 4, Linked square i := by
    intro i hi
    refine .boundary ?_
    unfold OnBoundary square
    interval_cases i <;> simp
  intro i hi
  have hi' : i < 5 := hi
  rcases Nat.lt_succ_iff_lt_or_eq.1 hi' with h | rfl
  · exact hb i h
  · exact Linked.step (t := ![0, 1, 4]) 0 2 (by simp [square]) (hb 0 (by decide))

example (lu : HhoSolver.LU ℝ) : ∃ r, run lu coeff load square = .ok r ∧ Solves square coeff load r.sol ∧
    r.vals = square.cells.map (mean r.sol) := c177_program_partial lu square_ok square_linked

/-- C177 (violation). A point that belongs to no cell and is not on the boundary gives a singular system. -/
theorem c177_unused {m : Mesh} (hm : Ok m) {eps f : P2 ℝ → ℝ} {s : System} (hs : assemble eps f m = .ok s) {i : Nat}
    (hi : i < m.points.length) (hb : ¬ OnBoundary m i) (hc : ∀ t ∈ m.cells, ∀ a, t a ≠ i) : ¬ Nonsing s.size s.gA := by
  obtain ⟨s', D, e, hN, hl, hD, hx, hf, _⟩ := assemble_ok hm eps f
  obtain rfl : s' = s := by rw [hs] at e; injection e with e; exact e.symm
  intro h
  have fi : D.getD i false = false := by
    rcases hcase : D.getD i false with _ | _
    · rfl
    · exact absurd ((hD i).1 hcase) hb
  have hlt : cnt D i < s'.size := by rw [hN]; exact cnt_lt (by rwa [hl]) fi
  have hz := h (Lemmas.HhoSolver.unitVec (cnt D i)) (fun r hr => by
    have e1 := hf (Lemmas.HhoSolver.unitVec r) (Lemmas.HhoSolver.unitVec (cnt D i))
    rw [Lemmas.HhoSolver.form_unit hr] at e1
    refine (show _ = _ from e1).trans ?_
    unfold energy
    refine List.sum_eq_zero fun x hx => ?_
    obtain ⟨t, ht, rfl⟩ := List.mem_map.1 hx
    have hv : ∀ a, spread D (Lemmas.HhoSolver.unitVec (cnt D i)) (t a) = 0 := by
      intro a
      unfold spread Lemmas.HhoSolver.unitVec
      by_cases hfree : D.getD (t a) false = false ∧ t a < D.length
      · rw [if_pos hfree, if_neg]
        intro hc'
        exact hc t ht a (cnt_inj hfree.2 (by rwa [hl]) hfree.1 fi hc')
      · rw [if_neg hfree]
    rw [Lemmas.Cfem.triInt_const]
    unfold gradIn slopes
    rw [hv 0, hv 1, hv 2]
    simp) _ hlt
  simp [Lemmas.HhoSolver.unitVec] at hz

/-- The square with one more point. -/
noncomputable def squareUnused : Mesh := { square with points := square.points ++ [⟨2, 2⟩] }

/-- C177 (violation). Such a mesh. -/
theorem c177_violation : ∃ m, Ok m ∧ ∃ s, assemble coeff load m = .ok s ∧ ¬ Nonsing s.size s.gA := by
  have hm : Ok squareUnused := by
    refine ⟨?_, ?_, ?_⟩
    · simp [squareUnused, square, Fin.forall_fin_succ]
    · simp [squareUnused, square, pt, turn]
      norm_num
    · simp [squareUnused, square]
  obtain ⟨s, _, e, _⟩ := assemble_ok hm coeff load
  refine ⟨squareUnused, hm, s, e, c177_unused hm e (i := 5) (by simp [squareUnused, square]) ?_ ?_⟩
  · simp [OnBoundary, squareUnused, square]
  · simp [squareUnused, square, Fin.forall_fin_succ]

end Verif.Props.CfemSolver
