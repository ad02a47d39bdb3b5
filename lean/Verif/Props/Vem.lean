import Verif.Lemmas.VemExample
import Verif.Spec.Calculus
/-! C143, C144, C145: the matrices of the virtual element method in two dimensions. -/
namespace Verif.Props.Vem
open Finset Verif.Bases Verif.Hho LocalMatrix Verif.Spec Verif.Spec.Hho Verif.Spec.Vem Verif.Vem Verif.Lemmas.Hho

variable {K : Type} [Field K] {c : VCell K} {k : Nat}

/-- C143 (integration by parts): for every degree, cell and function `q` with degrees of freedom `v`, row `i` of
`matrix_B` but the first gives the boundary integral of `∂m_i/∂n q` with the Lobatto rules minus the integral of
`Δm_i q`: the function itself is not needed inside the cell. -/
theorem c143_parts (E : Exact c k) (hk : 1 ≤ k) {q : Pt K → K} {v : Nat → K} (h : IsDofs E q v) {t j : Nat} (ht : t ≤ k)
    (hj : j ≤ t) (h0 : 1 ≤ t) : app (c.ndof k) (matrixB c k) v (t * (t + 1) / 2 + j) =
      (c.sides.map fun s => quad (s.lobatto (2 * k - 1)) fun x => dot 2 (gradMono c (t - j, j) x) s.normal * q x).sum -
        E.IT fun x => lapMono c (t - j, j) x * q x := by
  have hi : tri t + j < cbs k := by
    rw [cbs_tri]
    have := tri_mono (show t + 1 ≤ k + 1 by omega)
    rw [tri_succ t] at this
    omega
  have hp : tri t + j ≠ 0 := by
    have := tri_mono h0
    have : tri 1 = 1 := rfl
    omega
  rw [show t * (t + 1) / 2 + j = tri t + j from rfl, app_B_fun E hk h hi hp, exOf_tri ht hj]
  simp only [dot_basis c _ hi, exOf_tri ht hj]

/-- The hypotheses hold on a triangle with the method of degree two, with exact factorisations. -/
example : Nonempty (Exact triCell 2) ∧ Definite triExact ∧ MassOk triExact ∧ Nonempty (LU ℚ) ∧ Nonempty (Solver ℚ) ∧
    ∃ v, IsDofs triExact (evalFn (triCell.basis 2) fun j => j) v :=
  ⟨⟨triExact⟩, tri_definite, tri_mass, ⟨exactLU ℚ⟩, ⟨exactSolver ℚ⟩, _, D_dofs triExact _⟩

/-- C143 (derivatives): with orthonormal axes, the gradients and Laplacians above are those of the scaled monomials. -/
theorem c143_laplacian (c : VCell ℝ) (ho : ∀ i j : Fin 2, c.axes 0 i * c.axes 0 j + c.axes 1 i * c.axes 1 j = if i = j then 1 else 0)
    (e : Nat × Nat) (x : Pt ℝ) :
    HasGrad (mono c e) (fun m => gradMono c e x m) x ∧
    ∃ H : Fin 2 → Fin 2 → ℝ, (∀ m : Fin 2, HasGrad (fun y => gradMono c e y m) (H m) x) ∧ H 0 0 + H 1 1 = lapMono c e x := by
  have hX : ∀ i : Fin 2, HasGrad (coord c i) (fun m => coordGrad c i m) x := by
    intro i
    have := Spec.HasGrad.coord (passageMatrix c.axes c.len) c.bar x i
    simp only [scaling_coord] at this
    refine this.congr_grad (funext fun m => ?_)
    unfold coordGrad passageMatrix
    rw [dif_pos m.2]
    rfl
  have hM : ∀ e : Nat × Nat, HasGrad (mono c e) (fun m => gradMono c e x m) x := by
    intro e
    refine (((hX 0).pow e.1).mul ((hX 1).pow e.2)).congr_grad (funext fun m => ?_)
    simp only [Pi.add_apply, Pi.smul_apply, smul_eq_mul, gradMono, mono]
    ring
  refine ⟨hM e, fun m l => (e.1 : ℝ) * coordGrad c 0 m * gradMono c (e.1 - 1, e.2) x l +
    (e.2 : ℝ) * coordGrad c 1 m * gradMono c (e.1, e.2 - 1) x l, fun m => ?_, ?_⟩
  · exact hasGrad_comb (hM (e.1 - 1, e.2)) (hM (e.1, e.2 - 1)) _ _
  · have h00 := ho 0 0
    have h01 := ho 0 1
    have h11 := ho 1 1
    simp only [if_true, if_neg (show ¬ ((0 : Fin 2) = 1) by decide)] at h00 h01 h11
    have c00 : coordGrad c 0 0 * coordGrad c 0 0 + coordGrad c 0 1 * coordGrad c 0 1 = (2 / c.len 0) ^ 2 := by
      have : coordGrad c 0 0 * coordGrad c 0 0 + coordGrad c 0 1 * coordGrad c 0 1 =
          (c.axes 0 0 * c.axes 0 0 + c.axes 1 0 * c.axes 1 0) * (2 / c.len 0) ^ 2 := by
        unfold coordGrad
        simp only [Nat.zero_lt_two, Nat.one_lt_two, dif_pos]
        change c.axes 0 0 * _ * (c.axes 0 0 * _) + c.axes 1 0 * _ * (c.axes 1 0 * _) = _
        ring
      rw [this, h00, one_mul]
    have c11 : coordGrad c 1 0 * coordGrad c 1 0 + coordGrad c 1 1 * coordGrad c 1 1 = (2 / c.len 1) ^ 2 := by
      have : coordGrad c 1 0 * coordGrad c 1 0 + coordGrad c 1 1 * coordGrad c 1 1 =
          (c.axes 0 1 * c.axes 0 1 + c.axes 1 1 * c.axes 1 1) * (2 / c.len 1) ^ 2 := by
        unfold coordGrad
        simp only [Nat.zero_lt_two, Nat.one_lt_two, dif_pos]
        change c.axes 0 1 * _ * (c.axes 0 1 * _) + c.axes 1 1 * _ * (c.axes 1 1 * _) = _
        ring
      rw [this, h11, one_mul]
    have c01 : coordGrad c 0 0 * coordGrad c 1 0 + coordGrad c 0 1 * coordGrad c 1 1 = 0 := by
      have : coordGrad c 0 0 * coordGrad c 1 0 + coordGrad c 0 1 * coordGrad c 1 1 =
          (c.axes 0 0 * c.axes 0 1 + c.axes 1 0 * c.axes 1 1) * (2 / c.len 0 * (2 / c.len 1)) := by
        unfold coordGrad
        simp only [Nat.zero_lt_two, Nat.one_lt_two, dif_pos]
        change c.axes 0 0 * _ * (c.axes 0 1 * _) + c.axes 1 0 * _ * (c.axes 1 1 * _) = _
        ring
      rw [this, h01, zero_mul]
    have cast : ∀ n : Nat, ((n * (n - 1) : Nat) : ℝ) = (n : ℝ) * ((n - 1 : Nat) : ℝ) := fun n => by push_cast; ring
    unfold lapMono
    rw [← c00, ← c11, cast, cast]
    simp only [gradMono, Fin.val_zero, Fin.val_one, Nat.sub_sub]
    linear_combination (2 * (e.1 : ℝ) * (e.2 : ℝ) * mono c (e.1 - 1, e.2 - 1) x) * c01

example : ∃ c : VCell ℝ, ∀ i j : Fin 2, c.axes 0 i * c.axes 0 j + c.axes 1 i * c.axes 1 j = if i = j then 1 else 0 :=
  ⟨⟨1, fun _ => 1, 0, fun _ => [], 1, []⟩, fun i j => by
    obtain rfl | rfl : i = 0 ∨ i = 1 := by omega
    all_goals obtain rfl | rfl : j = 0 ∨ j = 1 := by omega
    all_goals simp⟩

/-- C143 (`G = B D`): from degree two on, the product of the two matrices is the third. -/
theorem c143_consistency (E : Exact c k) (hk : 2 ≤ k) {i j : Nat} (hi : i < (c.basis k).size) (hj : j < (c.basis k).size) :
    ∑ r ∈ range (c.ndof k), matrixB c k i r * matrixD c k r j = matrixG c k i j := by
  have hu : ∀ M : Mat K, ∀ r, app (cbs k) M (fun a => if a = j then 1 else 0) r = M r j := by
    intro M r
    unfold app
    simp only [mul_ite, mul_one, mul_zero]
    rw [sum_ite_eq', if_pos (mem_range.2 (show j < cbs k from hj))]
  have h := D_dofs E (fun a => if a = j then 1 else 0)
  have e : app (c.ndof k) (matrixB c k) (app (cbs k) (matrixD c k) fun a => if a = j then 1 else 0) i =
      app (cbs k) (matrixG c k) (fun a => if a = j then 1 else 0) i := by
    by_cases h0 : i = 0
    · subst h0
      rw [app_B_zero hk, app_G_zero c (by omega), E.cell_exact _ (by omega) _ (polys_mono c (by omega) (evalFn_mem c k _))]
      have := h.2 hk 0 (cbs_pos _)
      rw [Nat.add_zero] at this
      simp only [fn_zero, one_mul] at this
      exact this
    · rw [app_B_green E (by omega) h hi h0, G_rows E (by omega) _ hi h0]
  rw [hu] at e
  rw [← e]
  unfold app
  refine sum_congr rfl fun r _ => ?_
  have := hu (matrixD c k) r
  unfold app at this
  rw [this]

example : matrixG triCell 2 4 4 = 86 / 3 ∧ ∑ r ∈ range 7, matrixB triCell 2 4 r * matrixD triCell 2 r 4 = 86 / 3 := by
  decide +kernel

/-- C143 (projection): from degree two on, `projector_nabla` applied to the degrees of freedom of a polynomial of degree
`k` gives the coefficients of that polynomial. -/
theorem c143_projection (F : LU K) (E : Exact c k) (hk : 2 ≤ k) (hd : Definite E) (u : Nat → K) {v : Nat → K}
    (h : IsDofs E (evalFn (c.basis k) u) v) {j : Nat} (hj : j < (c.basis k).size) :
    app (c.ndof k) (projectorNabla F c k (matrixG c k)) v j = u j := nabla_poly F E hk hd h hj

example : app 7 (projectorNabla (exactLU ℚ) triCell 2 (matrixG triCell 2)) (app 6 (matrixD triCell 2) fun j => j) 5 = 5 :=
  c143_projection (exactLU ℚ) triExact (by omega) tri_definite _ (D_dofs triExact _) (by decide)

/-- C143 (violated for degree one): `matrix_G` has the mean over the cell in its first row, `matrix_B` the mean over the
vertices. The projection of a polynomial of degree one is that polynomial plus the difference of its two means. -/
theorem c143_linear (F : LU K) (E : Exact c 1) (hd : Definite E) (u : Nat → K) {v : Nat → K}
    (h : IsDofs E (evalFn (c.basis 1) u) v) {j : Nat} (hj : j < 3) :
    app (c.ndof 1) (projectorNabla F c 1 (matrixG c 1)) v j =
      u j + if j = 0 then vertexMean c 1 (evalFn (c.basis 1) u) -
        quad (c.integrate 0) (evalFn (c.basis 1) u) / c.area else 0 := nabla_lin F E hd h hj

/-- C143 (partial, degree one): the projection reproduces the polynomials of degree one whose mean over the vertices is
that over the cell, for instance all of them on triangles and parallelograms. -/
theorem c143_linear_partial (F : LU K) (E : Exact c 1) (hd : Definite E) (u : Nat → K) {v : Nat → K}
    (h : IsDofs E (evalFn (c.basis 1) u) v)
    (hm : vertexMean c 1 (evalFn (c.basis 1) u) = quad (c.integrate 0) (evalFn (c.basis 1) u) / c.area) {j : Nat} (hj : j < 3) :
    app (c.ndof 1) (projectorNabla F c 1 (matrixG c 1)) v j = u j := by
  rw [c143_linear F E hd u h hj, hm, sub_self, ite_self, add_zero]

/-- The hypothesis on the means holds for the first scaled coordinate on the square with a hanging node. -/
example : vertexMean pentCell 1 (evalFn (pentCell.basis 1) fun j => if j = 1 then 1 else 0) =
    quad (pentCell.integrate 0) (evalFn (pentCell.basis 1) fun j => if j = 1 then 1 else 0) / pentCell.area := by
  decide +kernel

/-- C143 (violated): on the unit square with a hanging node in the middle of the lower side, the projection of the second
scaled coordinate has the constant coefficient -1/5 instead of 0. -/
theorem c143_linear_violated (F : LU ℚ) : ∃ v, IsDofs pentExact (evalFn (pentCell.basis 1) fun j => if j = 2 then 1 else 0) v ∧
    app (pentCell.ndof 1) (projectorNabla F pentCell 1 (matrixG pentCell 1)) v 0 = -1 / 5 := by
  refine ⟨_, D_dofs pentExact _, ?_⟩
  rw [c143_linear F pentExact pent_definite _ (D_dofs pentExact _) (by omega)]
  decide +kernel

/-! ### The stiffness matrix -/

/-- C144 (guard): degree zero fails the assertion, every other degree gives the local matrix and load. -/
theorem c144_guard (F : LU K) (S : Solver K) (c : VCell K) (k : Nat) (f : Pt K → K) :
    (computeLocal F S c 0 f).IsUB ∧ (1 ≤ k → ∃ M b, computeLocal F S c k f = .ok (M, b)) := by
  refine ⟨trivial, fun hk => ?_⟩
  unfold computeLocal
  rw [if_neg (by omega)]
  exact ⟨_, _, rfl⟩

example : (computeLocal (exactLU ℚ) (exactSolver ℚ) triCell 0 fun _ => 1).IsUB ∧
    ∃ M b, computeLocal (exactLU ℚ) (exactSolver ℚ) triCell 2 (fun _ => 1) = .ok (M, b) :=
  ⟨(c144_guard _ _ _ 2 _).1, (c144_guard _ _ _ 2 _).2 (by omega)⟩

/-- C144 (symmetry): the local matrix is symmetric, whatever the quadrature rules. -/
theorem c144_symmetric {F : LU K} {S : Solver K} {f : Pt K → K} {M : Mat K} {b : Nat → K}
    (h : computeLocal F S c k f = .ok (M, b)) : SymOn (c.ndof k) M := by
  obtain ⟨hk, rfl, _⟩ := local_eq h
  refine sym_of_form fun w v => ?_
  rw [stiffness_form hk, stiffness_form hk]
  congr 1
  · exact quad_congr fun q _ => dot_comm ..
  · exact sum_congr rfl fun r _ => mul_comm _ _

/-- C144 (patch test): from degree two on, for every polynomial `p` of degree `k` and every function `q` the local form
is the boundary integral of `∂p/∂n q` minus the integral of `Δp q`: no stabilisation remains. -/
theorem c144_patch {F : LU K} {S : Solver K} {f : Pt K → K} {M : Mat K} {b : Nat → K}
    (h : computeLocal F S c k f = .ok (M, b)) (E : Exact c k) (hk : 2 ≤ k) (hd : Definite E) (u : Nat → K) {q : Pt K → K}
    {v w : Nat → K} (hv : IsDofs E (evalFn (c.basis k) u) v) (hw : IsDofs E q w) :
    form (c.ndof k) M w v =
      (c.sides.map fun s => quad (s.lobatto (2 * k - 1)) fun x => dot 2 (evalGrad (c.basis k) u x) s.normal * q x).sum -
        E.IT fun x => (∑ i ∈ range (c.basis k).size, u i * lapMono c ((exps2 k).getD i (0, 0)) x) * q x := by
  obtain ⟨h1, rfl, _⟩ := local_eq h
  have hPv : ∀ j < cbs k, app (c.ndof k) (projectorNabla F c k (matrixG c k)) v j = u j :=
    fun j hj => nabla_poly F E hk hd hv hj
  have hDv : ∀ r < c.ndof k, app (cbs k) (matrixD c k) (app (c.ndof k) (projectorNabla F c k (matrixG c k)) v) r = v r := by
    intro r hr
    rw [app_congr (fun _ _ => rfl) hPv]
    exact dofs_unique E h1 (D_dofs E u) hv r hr
  have hg : ∀ x, dot 2 (evalGrad (c.basis k) (app (c.ndof k) (projectorNabla F c k (matrixG c k)) w) x)
      (evalGrad (c.basis k) (app (c.ndof k) (projectorNabla F c k (matrixG c k)) v) x) =
      ∑ i ∈ range (cbs k), u i * dot 2 ((c.basis k).grad x i)
        (evalGrad (c.basis k) (app (c.ndof k) (projectorNabla F c k (matrixG c k)) w) x) := by
    intro x
    refine (dot_sum ..).trans (sum_congr rfl fun i hi => ?_)
    rw [hPv i (mem_range.1 hi), dot_comm]
  have hrow : ∀ i < cbs k, quad (c.integrate (2 * (k - 1))) (fun x => dot 2 ((c.basis k).grad x i)
      (evalGrad (c.basis k) (app (c.ndof k) (projectorNabla F c k (matrixG c k)) w) x)) =
      (c.sides.map fun s => quad (s.lobatto (2 * k - 1)) fun x => dot 2 ((c.basis k).grad x i) s.normal * q x).sum -
        E.IT fun x => lapMono c (exOf k i) x * q x := by
    intro i hi
    by_cases h0 : i = 0
    · subst h0
      have e1 : ∀ x, lapMono c (exOf k 0) x * q x = 0 := by intro x; rw [exOf_zero]; simp [lapMono]
      have e2 : (E.IT fun _ => (0 : K)) = 0 := E.IT.map_zero
      simp only [grad_zero, dot_zero_left, zero_mul, e1, quad_zero, e2, sub_zero]
      simp
    · rw [← app_G_succ c h1 _ h0, app_LU F E h1 hd _ w hi, app_B_fun E h1 hw hi h0]
  rw [stiffness_form h1]
  simp only [hg]
  have hz : ∑ r ∈ range (c.ndof k), (w r - app (cbs k) (matrixD c k)
      (app (c.ndof k) (projectorNabla F c k (matrixG c k)) w) r) *
      (v r - app (cbs k) (matrixD c k) (app (c.ndof k) (projectorNabla F c k (matrixG c k)) v) r) = 0 :=
    sum_eq_zero fun r hr => by rw [hDv r (mem_range.1 hr), sub_self, mul_zero]
  rw [hz, add_zero, quad_sum]
  have hs : (c.sides.map fun s => quad (s.lobatto (2 * k - 1)) fun x => dot 2 (evalGrad (c.basis k) u x) s.normal * q x).sum =
      ∑ i ∈ range (cbs k), u i * (c.sides.map fun s => quad (s.lobatto (2 * k - 1)) fun x =>
        dot 2 ((c.basis k).grad x i) s.normal * q x).sum := by
    simp only [← list_sum_map_mul]
    rw [← list_sum_map_sum]
    refine congrArg _ (List.map_congr_left fun s _ => ?_)
    simp only [← quad_mul]
    rw [← quad_sum]
    refine quad_congr fun p _ => ?_
    rw [dot_comm]
    have : dot 2 s.normal (evalGrad (c.basis k) u p.pt) =
      ∑ i ∈ range (cbs k), u i * dot 2 s.normal ((c.basis k).grad p.pt i) := dot_sum ..
    rw [this, sum_mul]
    exact sum_congr rfl fun i _ => by rw [dot_comm]; ring
  have hl : (E.IT fun x => (∑ i ∈ range (c.basis k).size, u i * lapMono c ((exps2 k).getD i (0, 0)) x) * q x) =
      ∑ i ∈ range (cbs k), u i * E.IT fun x => lapMono c (exOf k i) x * q x := by
    have e : (fun x => (∑ i ∈ range (c.basis k).size, u i * lapMono c ((exps2 k).getD i (0, 0)) x) * q x) =
        fun x => ∑ i ∈ range (cbs k), u i * (lapMono c (exOf k i) x * q x) := by
      funext x
      rw [sum_mul]
      exact sum_congr rfl fun i _ => by unfold exOf; ring
    rw [e, lin_sum]
    exact sum_congr rfl fun i _ => lin_mul ..
  rw [hs, hl, ← sum_sub_distrib]
  refine sum_congr rfl fun i hi => ?_
  rw [quad_mul, hrow i (mem_range.1 hi)]
  ring

/-- C144 (energy): from degree two on, the form of two polynomials of degree `k` is the integral of their gradients. -/
theorem c144_energy {F : LU K} {S : Solver K} {f : Pt K → K} {M : Mat K} {b : Nat → K}
    (h : computeLocal F S c k f = .ok (M, b)) (E : Exact c k) (hk : 2 ≤ k) (hd : Definite E) (u y : Nat → K)
    {v w : Nat → K} (hv : IsDofs E (evalFn (c.basis k) u) v) (hw : IsDofs E (evalFn (c.basis k) y) w) :
    form (c.ndof k) M w v = E.IT fun x => dot 2 (evalGrad (c.basis k) y x) (evalGrad (c.basis k) u x) := by
  obtain ⟨h1, rfl, _⟩ := local_eq h
  have hP : ∀ (u v : Nat → K), IsDofs E (evalFn (c.basis k) u) v →
      (∀ x, evalGrad (c.basis k) (app (c.ndof k) (projectorNabla F c k (matrixG c k)) v) x = evalGrad (c.basis k) u x) ∧
      ∀ r < c.ndof k, app (cbs k) (matrixD c k) (app (c.ndof k) (projectorNabla F c k (matrixG c k)) v) r = v r := by
    intro u v hv
    refine ⟨fun x => funext fun m => sum_congr rfl fun j hj => ?_, fun r hr => ?_⟩
    · rw [nabla_poly F E hk hd hv (mem_range.1 hj)]
    · rw [app_congr (fun _ _ => rfl) fun j hj => nabla_poly F E hk hd hv hj]
      exact dofs_unique E h1 (D_dofs E u) hv r hr
  rw [stiffness_form h1]
  simp only [(hP u v hv).1, (hP y w hw).1]
  rw [quad_grad E u y, sum_eq_zero, add_zero]
  intro r hr
  rw [(hP u v hv).2 r (mem_range.1 hr), sub_self, mul_zero]

/-- The hypotheses of the three theorems hold together; the energy of `X` on the triangle is its area. -/
example : ∃ M b, computeLocal (exactLU ℚ) (exactSolver ℚ) triCell 2 (fun _ => 1) = .ok (M, b) ∧ SymOn 7 M ∧
    form 7 M (app 6 (matrixD triCell 2) fun j => if j = 1 then 1 else 0)
      (app 6 (matrixD triCell 2) fun j => if j = 1 then 1 else 0) = 12 := by
  obtain ⟨M, b, h⟩ := (c144_guard (exactLU ℚ) (exactSolver ℚ) triCell 2 fun _ => 1).2 (by omega)
  refine ⟨M, b, h, c144_symmetric h, ?_⟩
  rw [show (7 : Nat) = triCell.ndof 2 from rfl]
  refine (c144_energy h triExact (by omega) tri_definite _ _ (D_dofs triExact _) (D_dofs triExact _)).trans ?_
  rw [triIT]
  decide +kernel

/-- C144 (violated for degree one): the energy of a polynomial of degree one is the integral of its squared gradient plus
the number of vertices times the squared difference of its means over the vertices and over the cell. -/
theorem c144_linear {F : LU K} {S : Solver K} {f : Pt K → K} {M : Mat K} {b : Nat → K}
    (h : computeLocal F S c 1 f = .ok (M, b)) (E : Exact c 1) (hd : Definite E) (u : Nat → K)
    {v : Nat → K} (hv : IsDofs E (evalFn (c.basis 1) u) v) :
    form (c.ndof 1) M v v = E.IT (fun x => dot 2 (evalGrad (c.basis 1) u x) (evalGrad (c.basis 1) u x)) +
      (c.sides.length : K) * (vertexMean c 1 (evalFn (c.basis 1) u) -
        quad (c.integrate 0) (evalFn (c.basis 1) u) / c.area) ^ 2 := by
  obtain ⟨h1, rfl, _⟩ := local_eq h
  set δ := vertexMean c 1 (evalFn (c.basis 1) u) - quad (c.integrate 0) (evalFn (c.basis 1) u) / c.area with hδ
  have hP : ∀ j < cbs 1, app (c.ndof 1) (projectorNabla F c 1 (matrixG c 1)) v j = u j + if j = 0 then δ else 0 :=
    fun j hj => nabla_lin F E hd hv hj
  have hg : ∀ x, evalGrad (c.basis 1) (app (c.ndof 1) (projectorNabla F c 1 (matrixG c 1)) v) x =
      evalGrad (c.basis 1) u x := by
    intro x
    funext m
    refine sum_congr rfl fun j hj => ?_
    rw [hP j (mem_range.1 hj)]
    by_cases h0 : j = 0
    · subst h0; rw [grad_zero]; simp
    · rw [if_neg h0, add_zero]
  have hn : c.ndof 1 = c.sides.length := by unfold VCell.ndof VCell.nb; rw [Nat.mul_one]; rfl
  have hD : ∀ r < c.ndof 1, app (cbs 1) (matrixD c 1) (app (c.ndof 1) (projectorNabla F c 1 (matrixG c 1)) v) r =
      v r + δ := by
    intro r hr
    rw [app_congr (fun _ _ => rfl) hP, ← dofs_unique E h1 (D_dofs E u) hv r hr]
    unfold app
    simp only [mul_add, sum_add_distrib, mul_ite, mul_zero]
    rw [sum_ite_eq', if_pos (mem_range.2 (cbs_pos 1))]
    have hi : r < c.sides.length := by omega
    have hs : c.sides[r]? = some c.sides[r] := List.getElem?_eq_getElem hi
    have hlen := E.lob_len _ (List.getElem_mem hi)
    have := D_node E hs (q := 0) (j := 0) (x := (c.sides[r].lobatto (2 * 1 - 1))[0]'(by omega)) (by omega)
      (List.getElem?_eq_getElem _) (cbs_pos 1)
    rw [fn_zero, Nat.mul_one, Nat.add_zero] at this
    rw [this, one_mul]
  rw [stiffness_form h1]
  simp only [hg]
  rw [quad_grad E u u]
  congr 1
  rw [← hn]
  have : ∀ r ∈ range (c.ndof 1), (v r - app (cbs 1) (matrixD c 1)
      (app (c.ndof 1) (projectorNabla F c 1 (matrixG c 1)) v) r) * (v r - app (cbs 1) (matrixD c 1)
      (app (c.ndof 1) (projectorNabla F c 1 (matrixG c 1)) v) r) = δ ^ 2 := by
    intro r hr
    rw [hD r (mem_range.1 hr)]
    ring
  rw [sum_congr rfl this, sum_const, card_range, nsmul_eq_mul]

/-- C144 (violated): on the unit square with a hanging node the energy of the second scaled coordinate is 4 + 1/5 instead
of 4. -/
theorem c144_linear_violated {F : LU ℚ} {S : Solver ℚ} {f : Pt ℚ → ℚ} {M : Mat ℚ} {b : Nat → ℚ}
    (h : computeLocal F S pentCell 1 f = .ok (M, b)) :
    ∃ v, IsDofs pentExact (evalFn (pentCell.basis 1) fun j => if j = 2 then 1 else 0) v ∧
    form (pentCell.ndof 1) M v v = 4 + 1 / 5 ∧
    (pentExact.IT fun x => dot 2 (evalGrad (pentCell.basis 1) (fun j => if j = 2 then 1 else 0) x)
      (evalGrad (pentCell.basis 1) (fun j => if j = 2 then 1 else 0) x)) = 4 := by
  have e : (pentExact.IT fun x => dot 2 (evalGrad (pentCell.basis 1) (fun j => if j = 2 then 1 else 0) x)
      (evalGrad (pentCell.basis 1) (fun j => if j = 2 then 1 else 0) x)) = 4 := by
    rw [pentIT]
    decide +kernel
  refine ⟨_, D_dofs pentExact _, ?_, e⟩
  rw [c144_linear h pentExact pent_definite _ (D_dofs pentExact _), e]
  decide +kernel

example : ∃ M b, computeLocal (exactLU ℚ) (exactSolver ℚ) pentCell 1 (fun _ => 1) = .ok (M, b) :=
  (c144_guard _ _ _ 1 _).2 (by omega)

/-- C144 (kernel): for every degree the local form is non-negative and vanishes exactly on the degrees of freedom of
constants. -/
theorem c144_kernel {K : Type} [Field K] [LinearOrder K] [IsStrictOrderedRing K] {c : VCell K} {F : LU K} {S : Solver K}
    {f : Pt K → K} {M : Mat K} {b : Nat → K} (h : computeLocal F S c k f = .ok (M, b)) (E : Exact c k) (hd : Definite E)
    (hp : ∀ u, 0 ≤ E.IT fun x => dot 2 (evalGrad (c.basis k) u x) (evalGrad (c.basis k) u x)) (hs : 0 < c.sides.length)
    (v : Nat → K) :
    0 ≤ form (c.ndof k) M v v ∧ (form (c.ndof k) M v v = 0 ↔ ∃ a, IsDofs E (fun _ => a) v) := by
  obtain ⟨h1, rfl, _⟩ := local_eq h
  rw [stiffness_form h1, quad_grad E]
  set y := app (c.ndof k) (projectorNabla F c k (matrixG c k)) v with hy
  have hsq : 0 ≤ ∑ r ∈ range (c.ndof k), (v r - app (cbs k) (matrixD c k) y r) * (v r - app (cbs k) (matrixD c k) y r) :=
    sum_nonneg fun r _ => mul_self_nonneg _
  refine ⟨add_nonneg (hp y) hsq, ?_, ?_⟩
  · intro h0
    have h2 := (add_eq_zero_iff_of_nonneg (hp y) hsq).1 h0
    have hz := hd y h2.1
    have hr := (sum_eq_zero_iff_of_nonneg (fun r _ => mul_self_nonneg _)).1 h2.2
    have hv : ∀ r < c.ndof k, v r = app (cbs k) (matrixD c k) y r := fun r hr' =>
      sub_eq_zero.1 (mul_self_eq_zero.1 (hr r (mem_range.2 hr')))
    have hc : evalFn (c.basis k) y = fun _ => y 0 := by
      funext x
      unfold evalFn
      rw [sum_eq_single 0 (fun b hb hb0 => by rw [hz b (by omega) (mem_range.1 hb), zero_mul])
        (fun h => absurd (mem_range.2 (show 0 < (c.basis k).size from cbs_pos k)) h), fn_zero, mul_one]
    have hd' := D_dofs E y
    rw [hc] at hd'
    refine ⟨y 0, fun i s q x hs hq hx => ?_, fun hk l hl => ?_⟩
    · rw [hv _ ((node_lt hs hq).trans_le (Nat.le_add_right _ _))]
      exact hd'.1 i s q x hs hq hx
    · rw [hv _ (by unfold VCell.ndof VCell.nb; rw [lbs_eq hk]; rw [basis_size] at hl; omega)]
      exact hd'.2 hk l hl
  · rintro ⟨a, ha⟩
    have hc : (fun _ => a) = evalFn (c.basis k) (fun j => if j = 0 then a else 0) := by
      funext x
      unfold evalFn
      simp only [ite_mul, zero_mul]
      rw [sum_ite_eq', if_pos (mem_range.2 (show 0 < (c.basis k).size from cbs_pos k)), fn_zero, mul_one]
    have ha' := ha
    rw [hc] at ha'
    have hy' : ∀ j < cbs k, y j = if j = 0 then a else 0 := by
      rcases Nat.lt_or_ge k 2 with h2 | h2
      · obtain rfl : k = 1 := by omega
        intro j hj
        rw [hy, nabla_lin F E hd ha' hj, ← hc]
        have hn : (c.sides.length : K) ≠ 0 := by
          have : (0 : K) < c.sides.length := by exact_mod_cast hs
          exact ne_of_gt this
        have e1 : vertexMean c 1 (fun _ => a) = a := by
          have hl := lin_mean ha
          have : ∀ r ∈ range c.sides.length, v r = a := by
            intro r hr
            have hi := mem_range.1 hr
            have hs' : c.sides[r]? = some c.sides[r] := List.getElem?_eq_getElem hi
            have hlen := E.lob_len _ (List.getElem_mem hi)
            have := ha.1 r _ 0 ((c.sides[r].lobatto (2 * 1 - 1))[0]'(by omega)) hs' (by omega) (List.getElem?_eq_getElem _)
            simpa using this
          rw [← hl, sum_congr rfl this, sum_const, card_range, nsmul_eq_mul]
          field_simp
        have e2 : quad (c.integrate 0) (fun _ => a) / c.area = a := by
          have : (fun _ : Pt K => a) = fun _ => a * 1 := by funext x; rw [mul_one]
          rw [this, quad_mul, E.cell_exact 0 (by omega) _ (one_mem c _), E.area_eq, mul_div_assoc, div_self E.area_ne, mul_one]
        rw [e1, e2, sub_self, ite_self, add_zero]
      · intro j hj
        rw [hy, nabla_poly F E h2 hd ha' hj]
    have hg : ∀ x, evalGrad (c.basis k) y x = fun _ => 0 := by
      intro x
      funext m
      refine sum_eq_zero fun j hj => ?_
      rw [hy' j (mem_range.1 hj)]
      by_cases h0 : j = 0
      · subst h0; rw [grad_zero, mul_zero]
      · rw [if_neg h0, zero_mul]
    have e2 : (E.IT fun _ => (0 : K)) = 0 := E.IT.map_zero
    simp only [hg, dot_zero_left, e2, zero_add]
    refine sum_eq_zero fun r hr => ?_
    rw [app_congr (fun _ _ => rfl) hy', dofs_unique E h1 (D_dofs E _) ha' r (mem_range.1 hr), sub_self, zero_mul]

example : (∀ u, 0 ≤ pentExact.IT fun x => dot 2 (evalGrad (pentCell.basis 1) u x) (evalGrad (pentCell.basis 1) u x)) ∧
    0 < pentCell.sides.length := by
  refine ⟨fun u => ?_, by decide⟩
  rw [pentIT, pent_energy]
  positivity

/-! ### The L² projection and the load -/

/-- C145 (load): from degree two on, with a load that is a polynomial of degree `k - 2`, the load vector tested with the
degrees of freedom of any function `q` is the exact integral of the load times `q`. -/
theorem c145_load {F : LU K} {S : Solver K} {g : Nat → K} {M : Mat K} {b : Nat → K}
    (h : computeLocal F S c k (evalFn (c.basis (k - 2)) g) = .ok (M, b)) (E : Exact c k) (hk : 2 ≤ k) (hm : MassOk E)
    {q : Pt K → K} {v : Nat → K} (hv : IsDofs E q v) :
    ∑ r ∈ range (c.ndof k), v r * b r = E.IT fun x => evalFn (c.basis (k - 2)) g x * q x := by
  obtain ⟨h1, _, rfl⟩ := local_eq h
  set PIN := projectorNabla F c k (matrixG c k)
  rw [rhs_eq]
  have e : (fun x => evalFn (c.basis (k - 2)) g x * evalFn (c.basis (k - 1)) (app (c.ndof k) (projectorZero S c k PIN) v) x) =
      fun x => ∑ l ∈ range (cbs (k - 2)), g l * ((c.basis (k - 1)).fn x l *
        evalFn (c.basis (k - 1)) (app (c.ndof k) (projectorZero S c k PIN) v) x) := by
    funext x
    conv_lhs => arg 1; unfold evalFn
    rw [sum_mul]
    exact sum_congr rfl fun l hl => by rw [fn_nested c (show k - 2 ≤ k - 1 by omega) (mem_range.1 hl)]; ring
  rw [E.cell_exact (2 * k) (le_refl _) _ (mul_mem' c (show k - 2 + (k - 1) ≤ 2 * k by omega) (evalFn_mem c _ g)
    (evalFn_mem c _ _)), e, lin_sum]
  have e2 : (fun x => evalFn (c.basis (k - 2)) g x * q x) = fun x => ∑ l ∈ range (cbs (k - 2)), g l *
      ((c.basis (k - 2)).fn x l * q x) := by
    funext x
    unfold evalFn
    rw [sum_mul]
    exact sum_congr rfl fun l _ => by ring
  rw [e2, lin_sum]
  refine sum_congr rfl fun l hl => ?_
  have hl' := mem_range.1 hl
  rw [lin_mul, lin_mul, zero_moment S E hk hm PIN v (by rw [lbs_eq hk]; exact hl')]
  have := hv.2 hk l hl'
  unfold VCell.nb
  rw [this, mul_div_cancel₀ _ E.area_ne]

example : ∃ M b, computeLocal (exactLU ℚ) (exactSolver ℚ) triCell 2 (evalFn (triCell.basis 0) fun _ => 3) = .ok (M, b) ∧
    ∑ r ∈ range 7, app 6 (matrixD triCell 2) (fun j => if j = 3 then 1 else 0) r * b r = 3 * 18 := by
  obtain ⟨M, b, h⟩ := (c144_guard (exactLU ℚ) (exactSolver ℚ) triCell 2 (evalFn (triCell.basis 0) fun _ => 3)).2 (by omega)
  refine ⟨M, b, h, ?_⟩
  refine (c145_load h triExact (by omega) tri_mass (D_dofs triExact _)).trans ?_
  rw [triIT]
  decide +kernel

/-- C145 (moments): the moments of the projection up to degree `k - 2` are those of the function. -/
theorem c145_moments (S : Solver K) (E : Exact c k) (hk : 2 ≤ k) (hm : MassOk E) (PIN : Mat K) {q : Pt K → K} {v : Nat → K}
    (hv : IsDofs E q v) {l : Nat} (hl : l < (c.basis (k - 2)).size) :
    (E.IT fun x => (c.basis (k - 2)).fn x l * evalFn (c.basis (k - 1)) (app (c.ndof k) (projectorZero S c k PIN) v) x) =
      E.IT fun x => (c.basis (k - 2)).fn x l * q x := by
  have := zero_moment S E hk hm PIN v (l := l) (by rw [lbs_eq hk]; exact hl)
  have h2 := hv.2 hk l hl
  unfold VCell.nb at this
  rw [h2, mul_div_cancel₀ _ E.area_ne] at this
  rw [← this]
  refine congrArg _ (funext fun x => ?_)
  rw [fn_nested c (show k - 2 ≤ k - 1 by omega) hl]

/-- C145 (partial): `projector_zero` reproduces the polynomials of degree `k - 1`. -/
theorem c145_projection_partial (F : LU K) (S : Solver K) (E : Exact c k) (hk : 2 ≤ k) (hd : Definite E) (hm : MassOk E)
    (u : Nat → K) (hu : ∀ j, (c.basis (k - 1)).size ≤ j → u j = 0) {v : Nat → K}
    (hv : IsDofs E (evalFn (c.basis k) u) v) {j : Nat} (hj : j < (c.basis (k - 1)).size) :
    app (c.ndof k) (projectorZero S c k (projectorNabla F c k (matrixG c k))) v j = u j := by
  refine solve_unique (H_nonsing E hm) (fun i hi => ?_) j hj
  rw [app_H E _ hi, app_H E _ hi]
  have hp : evalFn (c.basis k) u = evalFn (c.basis (k - 1)) u := by
    funext x
    have hle := cbs_mono (show k - 1 ≤ k by omega)
    unfold evalFn
    rw [basis_size, basis_size, ← sum_range_add_sum_Ico _ hle]
    rw [sum_eq_zero (s := Ico _ _) fun b hb => by rw [hu b (mem_Ico.1 hb).1, zero_mul], add_zero]
    exact sum_congr rfl fun b hb => by rw [fn_nested c (show k - 1 ≤ k by omega) (mem_range.1 hb)]
  rcases Nat.lt_or_ge i (lbs k) with hl | hl
  · rw [zero_moment S E hk hm _ v hl]
    have hl' : i < (c.basis (k - 2)).size := by rw [basis_size, ← lbs_eq hk]; exact hl
    have := hv.2 hk i hl'
    unfold VCell.nb
    rw [this, mul_div_cancel₀ _ E.area_ne, hp]
    refine congrArg _ (funext fun x => ?_)
    rw [fn_nested c (show k - 2 ≤ k - 1 by omega) hl']
  · rw [zero_rest S E hk hm _ v hl hi]
    refine congrArg _ (funext fun x => ?_)
    congr 1
    refine sum_congr rfl fun j hj => ?_
    rw [nabla_poly F E hk hd hv ((mem_range.1 hj).trans_le (cbs_mono (by omega)))]

example : app 7 (projectorZero (exactSolver ℚ) triCell 2 (projectorNabla (exactLU ℚ) triCell 2 (matrixG triCell 2)))
    (app 6 (matrixD triCell 2) fun j => if j < 3 then j + 1 else 0) 2 = 3 := by
  refine (c145_projection_partial (exactLU ℚ) (exactSolver ℚ) triExact (by omega) tri_definite tri_mass _ (fun j hj => ?_)
    (D_dofs triExact _) (by decide)).trans (by norm_num)
  have : 3 ≤ j := hj
  rw [if_neg (by omega)]

/-- C145 (violated): on polynomials of degree `k` the moments of degree `k - 1` of the projection are those of the
polynomial without its terms of degree `k`. -/
theorem c145_cut (F : LU K) (S : Solver K) (E : Exact c k) (hk : 2 ≤ k) (hd : Definite E) (hm : MassOk E) (u : Nat → K)
    {v : Nat → K} (hv : IsDofs E (evalFn (c.basis k) u) v) {i : Nat} (hl : (c.basis (k - 2)).size ≤ i)
    (hi : i < (c.basis (k - 1)).size) :
    (E.IT fun x => (c.basis (k - 1)).fn x i * evalFn (c.basis (k - 1))
      (app (c.ndof k) (projectorZero S c k (projectorNabla F c k (matrixG c k))) v) x) =
    E.IT fun x => (c.basis (k - 1)).fn x i * evalFn (c.basis (k - 1)) u x := by
  rw [zero_rest S E hk hm _ v (by rw [lbs_eq hk]; exact hl) hi]
  refine congrArg _ (funext fun x => ?_)
  congr 1
  refine sum_congr rfl fun j hj => ?_
  rw [nabla_poly F E hk hd hv ((mem_range.1 hj).trans_le (cbs_mono (by omega)))]

/-- C145 (violated): on the triangle (-3, 0), (3, 0), (0, 4) the projection of the square of the second coordinate does not
have its first moment in that coordinate: 0 instead of 256/45. -/
theorem c145_violated (F : LU ℚ) (S : Solver ℚ) :
    ∃ v, IsDofs triExact (evalFn (triCell.basis 2) fun j => if j = 5 then 1 else 0) v ∧
    (triExact.IT fun x => (triCell.basis 1).fn x 2 * evalFn (triCell.basis 1)
      (app (triCell.ndof 2) (projectorZero S triCell 2 (projectorNabla F triCell 2 (matrixG triCell 2))) v) x) = 0 ∧
    (triExact.IT fun x => (triCell.basis 1).fn x 2 * evalFn (triCell.basis 2) (fun j => if j = 5 then 1 else 0) x) = 256 / 45 := by
  refine ⟨_, D_dofs triExact _, ?_, ?_⟩
  · refine (c145_cut F S triExact (by omega) tri_definite tri_mass _ (D_dofs triExact _) (i := 2) (by decide) (by decide)).trans ?_
    rw [triIT]
    decide +kernel
  · rw [triIT]
    decide +kernel

/-- C145 (lowest degree): for degree one the projection is the constant coefficient of the gradient projection. -/
theorem c145_lowest (S : Solver K) (E : Exact c 1) (hm : MassOk E) (PIN : Mat K) (v : Nat → K) :
    app (c.ndof 1) (projectorZero S c 1 PIN) v 0 = app (c.ndof 1) PIN v 0 := zero_low S E hm PIN v

example : MassOk pentExact := by
  intro x hx
  have hx' : quad pentRule (fun p => evalFn (pentCell.basis 0) x p * evalFn (pentCell.basis 0) x p) = 0 := hx
  have hv : ∀ p, evalFn (pentCell.basis 0) x p = x 0 := by
    intro p
    rw [evalFn_mono]
    change ∑ j ∈ range 1, _ = _
    rw [sum_range_one, exOf_zero, mono_zero, mul_one]
  simp only [hv, quad, pentRule, List.map_cons, List.map_nil, List.sum_cons, List.sum_nil] at hx'
  intro i hi
  obtain rfl : i = 0 := by have : i < 1 := hi; omega
  have : x 0 * x 0 = 0 := by linarith
  exact mul_self_eq_zero.1 this

end Verif.Props.Vem
