import Verif.Lemmas.DgSolverPos
/-!
Consistency of the interior penalty form with polynomial solutions.
-/
namespace Verif.Lemmas.Dg
open Finset Verif.Hho Verif.DgSolver Verif.Spec.Hho Verif.Spec.Dg Verif.Lemmas.Hho LocalMatrix

variable {K P : Type} [Field K]

theorem dot_congr {d : Nat} {a a' b b' : Nat → K} (ha : ∀ c < d, a c = a' c) (hb : ∀ c < d, b c = b' c) :
    dot d a b = dot d a' b' :=
  sum_congr rfl fun c hc => by rw [ha c (mem_range.1 hc), hb c (mem_range.1 hc)]

/-- On a face, the form with a continuous polynomial that vanishes on the boundary is the flux tested with the jump. -/
theorem face_exact [CharZero K] {d k cbs : Nat} {m : Mesh P K} (h : MeshOk d k cbs m) (eta : K) {u : P → K}
    {gu : P → Nat → K} {U : Nat → Nat → K} (hu : ∀ a < m.ncells, ∀ x, Spec.Dg.val k m U a x = u x)
    (hg : ∀ a < m.ncells, ∀ x, ∀ c < d, grd k m U a x c = gu x c) {f : Nat}
    (hb : (sides m f).length = 1 → ∀ q ∈ (m.face f).integrate (2 * k), u q.pt = 0) (Y : Nat → Nat → K) :
    faceForm d k eta m Y U f = ((sides m f).map fun s => -quad ((m.face f).integrate (2 * k)) fun x =>
      dot d (gu x) s.2 * Spec.Dg.val k m Y s.1 x).sum := by
  have hm : ∀ s ∈ sides m f, s.1 < m.ncells := fun s hs => (mem_sides.1 hs).1
  have hj : ∀ q ∈ (m.face f).integrate (2 * k), ∀ c < d, jump k m f U q.pt c = 0 := by
    intro q hq c hc
    unfold jump
    rcases sides_cases h f with e | ⟨s, e, _⟩ | ⟨s, t, e, _, _, _, ho⟩
    · simp [e]
    · rw [e]
      simp [hu s.1 (hm s (by simp [e])), hb (by simp [e]) q hq]
    · rw [e]
      simp [hu s.1 (hm s (by simp [e])), hu t.1 (hm t (by simp [e])), ho c hc]
  have hgz : ∀ s ∈ sides m f, ∀ x, ∀ c < d, avg k m f U x c = gu x c := by
    intro r hr x c hc
    unfold avg
    rcases sides_cases h f with e | ⟨s, e, _⟩ | ⟨s, t, e, _⟩
    · rw [e] at hr; cases hr
    · rw [e]
      simp [hg s.1 (hm s (by simp [e])) x c hc]
    · rw [e]
      simp only [List.map_cons, List.map_nil, List.sum_cons, List.sum_nil, add_zero, List.length_cons, List.length_nil,
        hg s.1 (hm s (by simp [e])) x c hc, hg t.1 (hm t (by simp [e])) x c hc]
      have h2 : ((0 + 1 + 1 : Nat) : K) ≠ 0 := by norm_num
      rw [div_eq_iff h2]
      push_cast
      ring
  have e : faceForm d k eta m Y U f = quad ((m.face f).integrate (2 * k)) fun x =>
      ((sides m f).map fun s => -(dot d (gu x) s.2 * Spec.Dg.val k m Y s.1 x)).sum := by
    unfold faceForm
    refine quad_congr fun q hq => ?_
    have z : ∀ b, dot d b (jump k m f U q.pt) = 0 := fun b =>
      sum_eq_zero fun c hc => by rw [hj q hq c (mem_range.1 hc), mul_zero]
    rw [z, z, dot_comm, dot_jump_right]
    rw [show ((sides m f).map fun s => -(dot d (gu q.pt) s.2 * Spec.Dg.val k m Y s.1 q.pt)).sum =
      -((sides m f).map fun s => dot d (gu q.pt) s.2 * Spec.Dg.val k m Y s.1 q.pt).sum from by
        rw [← neg_one_mul, ← list_smul]; simp only [neg_one_mul]]
    have e2 : ((sides m f).map fun s => dot d (avg k m f U q.pt) s.2 * Spec.Dg.val k m Y s.1 q.pt).sum =
        ((sides m f).map fun s => dot d (gu q.pt) s.2 * Spec.Dg.val k m Y s.1 q.pt).sum :=
      congrArg List.sum (List.map_congr_left fun s hs => by
        rw [dot_congr (hgz s hs q.pt) fun c _ => rfl])
    rw [e2]
    ring
  rw [e, quad_listSum]
  exact congrArg List.sum (List.map_congr_left fun s _ => by
    rw [← neg_one_mul, ← quad_mul]; exact quad_congr fun q _ => by ring)

/-- On a cell, the discrete Green formula of an exact solution. -/
theorem cell_exact {d k : Nat} {m : Mesh P K} {f u : P → K} {gu : P → Nat → K} {a N : Nat} (hN : 2 * k ≤ N)
    {C : PolyCell d (m.cell a).elem (facesOf m a) N} (hE : ExactCell d k m f u gu a C) (Y : Nat → Nat → K) :
    quad ((m.cell a).elem.integrate (2 * k)) (fun x => dot d (grd k m Y a x) (gu x)) =
      quad ((m.cell a).elem.integrate (2 * k)) (fun x => f x * Spec.Dg.val k m Y a x) +
      ((m.cell a).fcs.map fun q => quad ((m.face q.1).integrate (2 * k)) fun x =>
        dot d (gu x) q.2 * Spec.Dg.val k m Y a x).sum := by
  obtain ⟨w, _, hgw⟩ := hE.sol
  have hgu : ∀ n : P → Nat → K, (fun x => dot d (gu x) (n x)) =
      fun x => dot d (evalGrad ((m.cell a).elem.basis k) w x) (n x) := fun n =>
    funext fun x => dot_congr (hgw x) fun _ _ => rfl
  have hgm : ∀ c < d, (fun x => evalGrad ((m.cell a).elem.basis k) w x c) ∈ C.V (k - 1) := by
    intro c hc
    have : (fun x => evalGrad ((m.cell a).elem.basis k) w x c) =
        ∑ j ∈ range ((m.cell a).elem.basis k).size, w j • fun x => ((m.cell a).elem.basis k).grad x j c := by
      funext x; simp [evalGrad, Finset.sum_apply]
    rw [this]
    exact Submodule.sum_mem _ fun j hj => Submodule.smul_mem _ _ (C.grad_mem k j (mem_range.1 hj) c hc)
  have hdot : ∀ (n : Nat → P → K) (p : Nat), (∀ c < d, n c ∈ C.V p) →
      (fun x => dot d (evalGrad ((m.cell a).elem.basis k) w x) fun c => n c x) ∈ C.V (k - 1 + p) := by
    intro n p hn
    have : (fun x => dot d (evalGrad ((m.cell a).elem.basis k) w x) fun c => n c x) =
        ∑ c ∈ range d, (fun x => evalGrad ((m.cell a).elem.basis k) w x c) * n c := by
      funext x; simp [dot, Finset.sum_apply]
    rw [this]
    exact Submodule.sum_mem _ fun c hc => C.mul (hgm c (mem_range.1 hc)) (hn c (mem_range.1 hc))
  have key : ∀ j < ((m.cell a).elem.basis k).size,
      quad ((m.cell a).elem.integrate (2 * k)) (fun x => dot d (gu x) (((m.cell a).elem.basis k).grad x j)) =
      quad ((m.cell a).elem.integrate (2 * k)) (fun x => f x * ((m.cell a).elem.basis k).fn x j) +
      ((m.cell a).fcs.map fun q => quad ((m.face q.1).integrate (2 * k)) fun x =>
        dot d (gu x) q.2 * ((m.cell a).elem.basis k).fn x j).sum := by
    intro j hj
    have hl := hE.load j hj
    have m1 : (fun x => dot d (gu x) (((m.cell a).elem.basis k).grad x j)) ∈ C.V (2 * k) := by
      rw [hgu]
      exact C.mono (by omega) (hdot (fun c x => ((m.cell a).elem.basis k).grad x j c) (k - 1)
        fun c hc => C.grad_mem k j hj c hc)
    have m2 : (fun x => f x * ((m.cell a).elem.basis k).fn x j) ∈ C.V (2 * k) :=
      C.mono (by omega) (C.mul hE.load_mem (C.cell_mem k j hj))
    rw [C.cell_exact _ hN _ m1, C.cell_exact _ hN _ m2, hl]
    congr 1
    unfold facesOf
    rw [List.map_map]
    refine congrArg List.sum (List.map_congr_left fun q hq => ?_)
    have hmem : ({ toElem := m.face q.1, normal := q.2 } : Face P K) ∈ facesOf m a := List.mem_map.2 ⟨q, hq, rfl⟩
    have m3 : (fun x => dot d (gu x) q.2 * ((m.cell a).elem.basis k).fn x j) ∈ C.V (2 * k) := by
      have e : (fun x => dot d (gu x) q.2 * ((m.cell a).elem.basis k).fn x j) =
          (fun x => dot d (evalGrad ((m.cell a).elem.basis k) w x) q.2) *
            fun x => ((m.cell a).elem.basis k).fn x j := by
        rw [← hgu fun _ => q.2]; rfl
      rw [e]
      have e2 : (fun x => dot d (evalGrad ((m.cell a).elem.basis k) w x) q.2) =
          ∑ c ∈ range d, q.2 c • fun x => evalGrad ((m.cell a).elem.basis k) w x c := by
        funext x; simp [dot, Finset.sum_apply, mul_comm]
      rw [e2]
      exact C.mono (by omega) (C.mul (Submodule.sum_mem _ fun c hc => Submodule.smul_mem _ _ (hgm c (mem_range.1 hc)))
        (C.cell_mem k j hj))
    exact (C.face_exact _ hmem _ hN _ m3).symm
  have e1 : quad ((m.cell a).elem.integrate (2 * k)) (fun x => dot d (grd k m Y a x) (gu x)) =
      ∑ j ∈ range ((m.cell a).elem.basis k).size, Y a j *
        quad ((m.cell a).elem.integrate (2 * k)) (fun x => dot d (gu x) (((m.cell a).elem.basis k).grad x j)) := by
    simp only [← quad_mul]
    rw [← quad_sum]
    refine quad_congr fun q _ => ?_
    rw [dot_comm]
    unfold grd evalGrad
    rw [dot_sum]
  have e2 : ∀ (qs : List (QP P K)) (g : P → K), quad qs (fun x => g x * Spec.Dg.val k m Y a x) =
      ∑ j ∈ range ((m.cell a).elem.basis k).size, Y a j * quad qs fun x => g x * ((m.cell a).elem.basis k).fn x j := by
    intro qs g
    simp only [← quad_mul]
    rw [← quad_sum]
    refine quad_congr fun q _ => ?_
    unfold Spec.Dg.val evalFn
    rw [mul_sum]
    exact sum_congr rfl fun j _ => by ring
  rw [e1, e2, sum_congr rfl fun j hj => by rw [key j (mem_range.1 hj), mul_add]]
  rw [sum_add_distrib]
  congr 1
  simp only [e2, ← list_smul]
  generalize (m.cell a).fcs = l
  induction l with
  | nil => simp
  | cons q l ih => simp only [List.map_cons, List.sum_cons, sum_add_distrib, ih]

/-- A polynomial solution satisfies the discrete equations. -/
theorem sip_exact [CharZero K] {d k cbs : Nat} {m : Mesh P K} (h : MeshOk d k cbs m) (eta : K) {f u : P → K}
    {gu : P → Nat → K} (hE : ExactMesh d k m f u gu) {U : Nat → Nat → K}
    (hu : ∀ a < m.ncells, ∀ x, Spec.Dg.val k m U a x = u x)
    (hg : ∀ a < m.ncells, ∀ x, ∀ c < d, grd k m U a x c = gu x c) (Y : Nat → Nat → K) :
    sipForm d k eta m Y U = loadForm k m f Y := by
  unfold sipForm loadForm
  rw [sum_congr rfl fun f hf => face_exact h eta hu hg (hE.boundary f (mem_range.1 hf)) Y]
  rw [sum_sides h fun f s => -quad ((m.face f).integrate (2 * k)) fun x => dot d (gu x) s.2 * Spec.Dg.val k m Y s.1 x]
  rw [← sum_add_distrib]
  refine sum_congr rfl fun a ha => ?_
  obtain ⟨N, hN, C, hC⟩ := hE.cell a (mem_range.1 ha)
  have := cell_exact hN hC Y
  have e : cellForm d k m Y U a = quad ((m.cell a).elem.integrate (2 * k)) fun x => dot d (grd k m Y a x) (gu x) :=
    quad_congr fun q _ => dot_congr (fun _ _ => rfl) (hg a (mem_range.1 ha) q.pt)
  have e3 : ((m.cell a).fcs.map fun q => -quad ((m.face q.1).integrate (2 * k)) fun x =>
      dot d (gu x) q.2 * Spec.Dg.val k m Y a x).sum = -((m.cell a).fcs.map fun q =>
        quad ((m.face q.1).integrate (2 * k)) fun x => dot d (gu x) q.2 * Spec.Dg.val k m Y a x).sum := by
    rw [← neg_one_mul, ← list_smul]; simp only [neg_one_mul]
  rw [e, this, e3]
  ring

open Classical in
/-- Coefficients of the solution on all cells. -/
theorem exact_coeffs {d k : Nat} {m : Mesh P K} {f u : P → K} {gu : P → Nat → K} (hE : ExactMesh d k m f u gu) :
    ∃ U : Nat → Nat → K, (∀ a < m.ncells, ∀ x, Spec.Dg.val k m U a x = u x) ∧
      ∀ a < m.ncells, ∀ x, ∀ c < d, grd k m U a x c = gu x c := by
  have : ∀ a, ∃ w : Nat → K, a < m.ncells → (∀ x, u x = evalFn ((m.cell a).elem.basis k) w x) ∧
      ∀ x, ∀ c < d, gu x c = evalGrad ((m.cell a).elem.basis k) w x c := by
    intro a
    by_cases ha : a < m.ncells
    · obtain ⟨N, _, C, hC⟩ := hE.cell a ha
      obtain ⟨w, hw⟩ := hC.sol
      exact ⟨w, fun _ => hw⟩
    · exact ⟨fun _ => 0, fun h => absurd h ha⟩
  choose U hU using this
  exact ⟨U, fun a ha x => ((hU a ha).1 x).symm, fun a ha x c hc => ((hU a ha).2 x c hc).symm⟩

/-- The projection of a polynomial is the polynomial. -/
theorem proj_exact (S : Solver K) {e : Elem P K} {k : Nat} (hn : Nonsing (e.basis k).size (mass e k (e.basis k)))
    {u : P → K} {w : Nat → K} (hw : ∀ x, evalFn (e.basis k) w x = u x) {i : Nat} (hi : i < (e.basis k).size) :
    S.solve (e.basis k).size (mass e k (e.basis k)) (rhsOf e k 0 (e.basis k) u) i = w i := by
  refine solve_unique hn (fun r hr => ?_) i hi
  refine (S.solves _ _ _ (mass_sym e k _ _) hn r hr).trans ?_
  rw [rhsOf_eq]
  unfold app
  simp only [mass_eq, add_zero]
  rw [sum_congr rfl fun j _ => by rw [mul_comm, ← quad_mul], ← quad_sum]
  refine quad_congr fun q _ => ?_
  rw [← hw q.pt]
  unfold evalFn
  rw [mul_sum]
  exact sum_congr rfl fun j _ => by ring

end Verif.Lemmas.Dg
