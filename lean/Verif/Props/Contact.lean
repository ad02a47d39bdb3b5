import Verif.Lemmas.ContactEx
/-!
C162: contact forces and their linearization. C163: laws of contact and friction.
-/
noncomputable section
namespace Verif.Props.Contact
open Verif.Contact Verif.Tensor Verif.Spec.Contact Finset
open Verif.Rigidity (symBasis fn mulVec)

variable {D : Nat}

/-- C162: with bases of the right sizes, a function at each face with friction and no Coulomb friction on
`SIGNORINI_CELL`, `compute` returns for every displacement, and the contributions are added to matrix and forces and
subtracted from the residual. -/
theorem c162_terms {d : Data D} (hd : WellSized d) (hs : Limited d)
    (hc : d.frot = .coulomb → ∀ fc ∈ d.faces, fc.isContact = true → fc.ctype ≠ .signoriniCell) (u : Nat → ℝ)
    (K : Nat → Nat → ℝ) (F R : Nat → ℝ) :
    d.compute u = .ok (d.kCont u, d.fCont u) ∧
    d.contactTerms u K F R = .ok (if d.faces.any fun fc => fc.isContact then
      (K + d.kCont u, F + d.fCont u, R - d.fCont u) else (K, F, R)) := by
  have h : d.compute u = .ok (d.kCont u, d.fCont u) := by
    unfold Data.compute
    rw [badSizes_false hd]
    by_cases hf : d.frot = .none
    · simp [hf]
    · have := checkAll_ok (d := d) (fs := d.faces) fun fc hfc h1 => ⟨hs hf fc hfc h1, fun h2 => hc h2 fc hfc h1⟩
      simp [hf, this]
  refine ⟨h, ?_⟩
  unfold Data.contactTerms
  rw [h]
  split <;> rfl

/-- C162: the work of the contact forces: `-theta/gamma (sigma_n(u), sigma_n(v))`, the negative part of the trial pressure
against `theta sigma_nn(v) - gamma v_n`, and with friction the projected trial stress against
`theta sigma_nt(v) - gamma v_t`. -/
theorem c162_forces {d : Data D} (hd : WellSized d) (hs : Limited d) (u v : Nat → ℝ) :
    ∑ i ∈ range d.n, d.fCont u i * v i = -(d.theta * tractionForm d v u) +
      ((contactFaces d.cbs d.faces).map fun x => (x.2.qps.map (pointWork d u v x.1 x.2)).sum).sum :=
  fCont_work hd hs u v

/-- C162: the form of the contact matrix. -/
theorem c162_matrix {d : Data D} (hd : WellSized d) (hs : Limited d) (u v w : Nat → ℝ) :
    ∑ i ∈ range d.n, ∑ j ∈ range d.n, v i * d.kCont u i j * w j = -(d.theta * tractionForm d v w) +
      ((contactFaces d.cbs d.faces).map fun x => (x.2.qps.map (pointForm d u v w x.1 x.2)).sum).sum :=
  kCont_form hd hs u v w

/-- C162, partial: without friction or with Tresca friction, off the kinks, where the gap of the face unknowns changes
with the normal displacement only, the contact matrix is the derivative of the contact forces. -/
theorem c162_tangent_partial {d : Data D} (hd : WellSized d) (hs : Limited d) (hc : d.frot ≠ .coulomb) {u v : Nat → ℝ}
    (hk : OffKinks d u) (hg : LinearGap d u v) {i : Nat} (hi : i < d.n) :
    HasDerivAt (fun t : ℝ => d.fCont (fun k => u k + t * v k) i) (∑ j ∈ range d.n, d.kCont u i j * v j) 0 :=
  fCont_deriv hd hs hc hk hg hi

/-- C162: contact by the cell unknowns. -/
theorem c162_cell {d : Data D} (hd : WellSized d) (hs : Limited d) (hc : d.frot ≠ .coulomb)
    (hcell : ∀ fc ∈ d.faces, fc.isContact = true → fc.ctype = .signoriniCell) {u : Nat → ℝ}
    (hk : OffKinks d u) (v : Nat → ℝ) {i : Nat} (hi : i < d.n) :
    HasDerivAt (fun t : ℝ => d.fCont (fun k => u k + t * v k) i) (∑ j ∈ range d.n, d.kCont u i j * v j) 0 :=
  fCont_deriv hd hs hc hk
    (fun _ hx h => absurd (hcell _ (contactFaces_mem hx).1 (contactFaces_mem hx).2.1) h) hi

/-- C162: contact by the unknowns of edges that face the obstacle and are still level. -/
theorem c162_level_plane {d : Data 2} (hd : WellSized d) (hs : Limited d) (hc : d.frot ≠ .coulomb)
    (hgeo : d.geo = geo2) {u : Nat → ℝ}
    (hl : ∀ x ∈ contactFaces d.cbs d.faces, x.2.n = ![0, -1] ∧ Level2 x.2 x.1 u)
    (hk : OffKinks d u) (v : Nat → ℝ) {i : Nat} (hi : i < d.n) :
    HasDerivAt (fun t : ℝ => d.fCont (fun k => u k + t * v k) i) (∑ j ∈ range d.n, d.kCont u i j * v j) 0 :=
  fCont_deriv hd hs hc hk (fun x hx h q _ => gap2_deriv hgeo x.1 h (hl x hx).1 (hl x hx).2 v q.2) hi

/-- C162: the same for faces in space. -/
theorem c162_level_space {d : Data 3} (hd : WellSized d) (hs : Limited d) (hc : d.frot ≠ .coulomb)
    (hgeo : d.geo = geo3) {u : Nat → ℝ}
    (hl : ∀ x ∈ contactFaces d.cbs d.faces, x.2.n = ![0, 0, -1] ∧ Level3 x.2 x.1 u)
    (hk : OffKinks d u) (v : Nat → ℝ) {i : Nat} (hi : i < d.n) :
    HasDerivAt (fun t : ℝ => d.fCont (fun k => u k + t * v k) i) (∑ j ∈ range d.n, d.kCont u i j * v j) 0 :=
  fCont_deriv hd hs hc hk (fun x hx h q _ => gap3_deriv hgeo x.1 h (hl x hx).1 (hl x hx).2 v q.2) hi

/-- C162: the code violates the claim with face unknowns: on an edge that has turned the gap is measured along the turned
normal, but the matrix has the normal of the reference. -/
theorem c162_face_violated : ∃ (d : Data 2) (u v : Nat → ℝ) (i : Nat), WellSized d ∧ Limited d ∧ d.geo = geo2 ∧
    d.frot = .none ∧ d.compute u = .ok (d.kCont u, d.fCont u) ∧ OffKinks d u ∧ i < d.n ∧
    ¬ HasDerivAt (fun t : ℝ => d.fCont (fun k => u k + t * v k) i) (∑ j ∈ range d.n, d.kCont u i j * v j) 0 := by
  refine ⟨cell .none none, uRot, vUp, 3, cell_sized _ _, none_limited _, rfl, rfl,
    (c162_terms (cell_sized _ _) (none_limited _) (fun h => by cases h) uRot 0 0 0).1, rot_off, by decide, ?_⟩
  rw [rot_matrix]
  intro h
  have h1 : HasDerivAt (fun t : ℝ => 5 / 4 * (t - 1)) (5 / 4) 0 := by
    simpa using ((hasDerivAt_id (0 : ℝ)).sub_const 1).const_mul (5 / 4 : ℝ)
  have h2 : (fun t : ℝ => (cell .none none).fCont (fun k => uRot k + t * vUp k) 3) =ᶠ[nhds 0]
      fun t : ℝ => 5 / 4 * (t - 1) := by
    filter_upwards [gt_mem_nhds (show (0 : ℝ) < 1 by norm_num)] with t ht
    rw [rot_force, min_eq_right (by linarith)]
  have := (h1.congr_of_eventuallyEq h2).unique h
  norm_num at this

/-- C162: the code violates the claim with Coulomb friction: the matrix lacks the derivative of the bound, even on a level
edge. -/
theorem c162_coulomb_violated : ∃ (d : Data 2) (u v : Nat → ℝ) (i : Nat), WellSized d ∧ Limited d ∧ d.geo = geo2 ∧
    d.frot = .coulomb ∧ d.compute u = .ok (d.kCont u, d.fCont u) ∧ OffKinks d u ∧ LinearGap d u v ∧ i < d.n ∧
    ¬ HasDerivAt (fun t : ℝ => d.fCont (fun k => u k + t * v k) i) (∑ j ∈ range d.n, d.kCont u i j * v j) 0 := by
  refine ⟨cell .coulomb (some fun _ => 1), uSlide, vUp, 2, cell_sized _ _, some_limited _ _, rfl, rfl,
    (c162_terms (cell_sized _ _) (some_limited _ _) (fun _ fc hfc _ => ?_) uSlide 0 0 0).1, slide_off, ?_, by decide, ?_⟩
  · simp [cell] at hfc; subst hfc; simp [edge]
  · intro x hx hc q _
    rw [cell_faces] at hx
    simp at hx
    subst hx
    exact gap2_deriv rfl 2 hc rfl (slide_level _) vUp q.2
  rw [slide_matrix]
  intro h
  have h1 : HasDerivAt (fun t : ℝ => t - 1) 1 0 := by
    simpa using (hasDerivAt_id (0 : ℝ)).sub_const 1
  have h2 : (fun t : ℝ => (cell .coulomb (some fun _ => 1)).fCont (fun k => uSlide k + t * vUp k) 2) =ᶠ[nhds 0]
      fun t : ℝ => t - 1 := by
    filter_upwards [gt_mem_nhds (show (0 : ℝ) < 1 by norm_num), lt_mem_nhds (show (-1 : ℝ) < 0 by norm_num)]
      with t ht ht'
    exact slide_force ht' ht
  have := (h1.congr_of_eventuallyEq h2).unique h
  norm_num at this

/-- C162: Coulomb friction with contact by the cell unknowns is refused. -/
theorem c162_coulomb_cell {d : Data D} (hd : WellSized d) (hf : d.frot = .coulomb) (hs : Limited d)
    (hc : ∃ fc ∈ d.faces, fc.isContact = true ∧ fc.ctype = .signoriniCell ∧ fc.qps ≠ []) (u : Nat → ℝ) :
    d.compute u = .throws "Not implemented" := by
  have key : ∀ fs : List (Face D), (∀ fc ∈ fs, fc.isContact = true → fc.s ≠ none) →
      (∃ fc ∈ fs, fc.isContact = true ∧ fc.ctype = .signoriniCell ∧ fc.qps ≠ []) →
      d.checkAll fs = .throws "Not implemented" := by
    intro fs
    induction fs with
    | nil => rintro _ ⟨_, h, _⟩; simp at h
    | cons fc fs ih =>
      intro h1 h2
      unfold Data.checkAll
      by_cases hb : fc.isContact = true ∧ fc.ctype = .signoriniCell ∧ fc.qps ≠ []
      · have : d.checkFriction fc = .throws "Not implemented" := by
          unfold Data.checkFriction
          rw [if_pos hb.1, if_neg (by simpa using h1 fc (by simp) hb.1), if_pos ⟨hf, hb.2⟩]
        rw [this]; rfl
      · have : d.checkFriction fc = .ok () := by
          unfold Data.checkFriction
          split
          · rename_i hc'
            rw [if_neg (by simpa using h1 fc (by simp) hc'), if_neg fun hh => hb ⟨hc', hh.2⟩]
          · rfl
        rw [this, Outcome.bind_ok]
        refine ih (fun g hg => h1 g (by simp [hg])) ?_
        obtain ⟨g, hg, hg'⟩ := h2
        rcases List.mem_cons.1 hg with rfl | hg
        · exact absurd hg' hb
        · exact ⟨g, hg, hg'⟩
  unfold Data.compute
  rw [badSizes_false hd, key _ (fun fc => hs (by rw [hf]; simp) fc) hc]
  simp [hf, Outcome.bind]

/-- C162: with a strain basis of another size than the reconstruction (large deformations use the gradient, with more
functions), the products at a contact face with quadrature points are not defined. -/
theorem c162_sizes {d : Data D} (u : Nat → ℝ)
    (h : ∃ fc ∈ d.faces, fc.isContact = true ∧ ∃ q ∈ fc.qps, (d.gb q.2).length ≠ d.N) :
    d.compute u = .ub "product of matrices of different sizes" := by
  obtain ⟨fc, h1, h2, q, h3, h4⟩ := h
  unfold Data.compute
  rw [if_pos]
  rw [List.any_eq_true]
  refine ⟨fc, h1, ?_⟩
  unfold Data.badSizes
  rw [h2, Bool.true_and, Bool.or_eq_true]
  left
  rw [List.any_eq_true]
  exact ⟨q, h3, by simpa using h4⟩

example : ∃ fc ∈ ({ cell .none none with N := 4 } : Data 2).faces, fc.isContact = true ∧ ∃ q ∈ fc.qps,
    (({ cell .none none with N := 4 } : Data 2).gb q.2).length ≠ ({ cell .none none with N := 4 } : Data 2).N :=
  ⟨edge none, by simp [cell], rfl, (1, ![0, -1]), by simp [edge],
    by simp [cell, symBasis, List.finRange_succ]⟩

example : OffKinks (cell .tresca (some fun _ => 1)) uSlide ∧ Limited (cell .tresca (some fun _ => 1)) ∧
    WellSized (cell .tresca (some fun _ => 1)) ∧
    ∀ x ∈ contactFaces (cell .tresca (some fun _ => 1)).cbs (cell .tresca (some fun _ => 1)).faces,
      x.2.n = ![0, -1] ∧ Level2 x.2 x.1 uSlide := by
  refine ⟨slide_off, some_limited _ _, cell_sized _ _, ?_⟩
  rw [cell_faces]
  intro x hx
  simp at hx
  subst hx
  exact ⟨rfl, slide_level _⟩

example : WellSized cell3 ∧ OffKinks cell3 0 ∧
    ∀ x ∈ contactFaces cell3.cbs cell3.faces, x.2.n = ![0, 0, -1] ∧ Level3 x.2 x.1 0 := by
  refine ⟨cell3_sized, cell3_off 0, ?_⟩
  rw [cell3_faces]
  intro x hx
  simp at hx
  subst hx
  exact ⟨rfl, cell3_level 0⟩

example : WellSized cellC ∧ OffKinks cellC 0 ∧ ∀ fc ∈ cellC.faces, fc.isContact = true → fc.ctype = .signoriniCell := by
  refine ⟨cellC_sized, cellC_off, fun fc hfc _ => ?_⟩
  simp [cellC] at hfc
  subst hfc
  rfl

/-- C163: `make_proj_alpha` is the nearest point of the ball of radius `alpha`. -/
theorem c163_projection (x : Vec D) {a : ℝ} (ha : 0 ≤ a) :
    ∑ k, proj x a k * proj x a k ≤ a ^ 2 ∧ (∑ k, x k * x k ≤ a ^ 2 → proj x a = x) ∧
    ∀ y : Vec D, ∑ k, y k * y k ≤ a ^ 2 →
      ∑ k, (x k - proj x a k) * (x k - proj x a k) ≤ ∑ k, (x k - y k) * (x k - y k) := by
  refine ⟨proj_ball x ha, fun h => ?_, fun y hy => proj_nearest x y ha hy⟩
  unfold proj
  rw [if_pos ((norm_le_iff ha).2 h)]

/-- C163: `make_d_proj_alpha` is the derivative of the projection away from the sphere, symmetric and between zero and the
identity. -/
theorem c163_dprojection (x v : Vec D) {a : ℝ} (ha : 0 ≤ a) :
    (∑ k, x k * x k ≠ a ^ 2 → ∀ i,
      HasDerivAt (fun t : ℝ => proj (fun k => x k + t * v k) a i) (∑ j, dProj x a i j * v j) 0) ∧
    (∀ i j, dProj x a i j = dProj x a j i) ∧
    0 ≤ ∑ i, v i * ∑ j, dProj x a i j * v j ∧ ∑ i, v i * ∑ j, dProj x a i j * v j ≤ ∑ i, v i * v i := by
  refine ⟨fun h i => proj_deriv x v ha (fun hn => h ?_) i, dProj_symm x a, dProj_bounds x v ha⟩
  have := norm_sq x
  rw [hn] at this
  rw [pow_two, this]; rfl

example : ∑ k, (![2, 0] : Vec 2) k * (![2, 0] : Vec 2) k ≠ 1 ^ 2 := by simp; norm_num

/-- C163: the negative part of the trial pressure is the normal stress exactly under Signorini's law. -/
theorem c163_signorini {sigma g c : ℝ} (hc : 0 < c) : min 0 (sigma + c * g) = sigma ↔ Signorini sigma g :=
  signorini_iff hc

example : Signorini (-1) 0 ∧ Signorini 0 1 ∧ ¬ Signorini (-1) 1 := by simp [Signorini]

/-- C163: the projection of the trial stress is the tangential stress exactly under Tresca's law. -/
theorem c163_tresca {s c : ℝ} {sigma u : Vec D} (hs : 0 < s) (hc : 0 < c) :
    proj (fun k => sigma k - c * u k) s = sigma ↔ Tresca s sigma u :=
  ⟨proj_tresca hs hc, tresca_proj hs.le hc⟩

example : Tresca 1 (![1, 0] : Vec 2) ![-3, 0] ∧ ¬ Tresca 1 (![1, 0] : Vec 2) ![3, 0] := by
  constructor
  · refine ⟨by simp, by simp, fun _ => ⟨3, by norm_num, fun k => ?_⟩⟩
    fin_cases k <;> simp
  · rintro ⟨-, -, h⟩
    obtain ⟨c, h1, h2⟩ := h (by simp)
    have := h2 0
    simp at this
    linarith

/-- C163: for displacements that satisfy the laws of contact and friction, the forces do the work of the tractions. -/
theorem c163_consistent {d : Data D} (hd : WellSized d) (hs : Limited d) (hc : Consistent d)
    (hq : SameQuadrature d) (hu : Usual d) {u : Nat → ℝ}
    (hN : ∀ x ∈ contactFaces d.cbs d.faces, ∀ q ∈ x.2.qps,
      Signorini (along x.2.n (traction d x.2 u q.2)) (gap d x.2 x.1 u q.2))
    (hT : ∀ x ∈ contactFaces d.cbs d.faces, ∀ q ∈ x.2.qps,
      if d.frot = .none then ∀ k, rest x.2.n (traction d x.2 u q.2) k = 0 else
        0 ≤ limit d x.2 x.1 u q.2 ∧
        Tresca (limit d x.2 x.1 u q.2) (rest x.2.n (traction d x.2 u q.2)) (rest x.2.n (disp d x.2 x.1 u q.2)))
    (v : Nat → ℝ) :
    ∑ i ∈ range d.n, d.fCont u i * v i = -((contactFaces d.cbs d.faces).map fun x => (x.2.qps.map fun q =>
      q.1 * ∑ k, traction d x.2 u q.2 k * disp d x.2 x.1 v q.2 k).sum).sum :=
  fCont_consistent hd hs hc hq hu hN hT v

example (th : ℝ) : WellSized (cellS th) ∧ Consistent (cellS th) ∧ SameQuadrature (cellS th) ∧ Usual (cellS th) ∧
    (∀ x ∈ contactFaces (cellS th).cbs (cellS th).faces, ∀ q ∈ x.2.qps,
      Signorini (along x.2.n (traction (cellS th) x.2 uLift q.2)) (gap (cellS th) x.2 x.1 uLift q.2)) ∧
    ∀ x ∈ contactFaces (cellS th).cbs (cellS th).faces, ∀ q ∈ x.2.qps, ∀ k,
      rest x.2.n (traction (cellS th) x.2 uLift q.2) k = 0 :=
  ⟨cellS_sized th, cellS_consistent th, cellS_quadrature th, cellS_usual th, cellS_signorini th,
    fun x _ q _ k => by simp [rest, along, cellS_traction]⟩

/-- C163: `theta = 1` gives a symmetric matrix. -/
theorem c163_symmetric {d : Data D} (hd : WellSized d) (hs : Limited d) (hth : d.theta = 1) (u : Nat → ℝ) {i j : Nat}
    (hi : i < d.n) (hj : j < d.n) : d.kCont u i j = d.kCont u j i :=
  kCont_symm hd hs hth u hi hj

/-- C163: `theta = -1` gives a nonnegative matrix for every penalty. -/
theorem c163_skew {d : Data D} (hd : WellSized d) (hs : Limited d) (hth : d.theta = -1) (hc : Consistent d)
    (hq : SameQuadrature d) (hu : Usual d) {u : Nat → ℝ}
    (hl : d.frot ≠ .none → ∀ x ∈ contactFaces d.cbs d.faces, ∀ q ∈ x.2.qps, 0 ≤ limit d x.2 x.1 u q.2) (v : Nat → ℝ) :
    0 ≤ ∑ i ∈ range d.n, ∑ j ∈ range d.n, v i * d.kCont u i j * v j :=
  kCont_nonneg hd hs hth hc hq hu hl v

/-- C163: moving a point by the gap along a normal that points to the obstacle reaches the obstacle; the gap is negative
exactly below it. -/
theorem c163_gap (g : Geo D) {pt n : Vec D} (h : n g.last ≤ -(1 / 10 ^ 12)) :
    pt g.last + computeG0 g pt n * n g.last = 0 ∧ (computeG0 g pt n < 0 ↔ pt g.last < 0) := by
  have hp : (0 : ℝ) < 1 / 10 ^ 12 := by positivity
  have hn : n g.last < 0 := by linarith
  have ha : |n g.last| = -n g.last := abs_of_neg hn
  rw [g0_eq g (by rw [ha]; linarith), ha]
  constructor
  · rw [div_neg, neg_mul, div_mul_cancel₀ _ hn.ne, add_neg_cancel]
  · rw [div_lt_iff₀ (by linarith), zero_mul]

example : (![0, -1] : Vec 2) geo2.last ≤ -(1 / 10 ^ 12) := by
  simp [geo2]; norm_num

/-- C163: `compute_normal` of an edge is a unit vector normal to it. -/
theorem c163_normal_plane (p : Nat → Vec 2) (h : p 0 ≠ p 1) :
    ∑ k, normal2 p k * normal2 p k = 1 ∧ ∑ k, (p 1 k - p 0 k) * normal2 p k = 0 := by
  have hz : Verif.Contact.norm (![-(p 1 1 - p 0 1), p 1 0 - p 0 0] : Vec 2) ≠ 0 := by
    intro h0
    refine h (funext fun k => ?_)
    have a := norm_eq_zero' h0 0
    have b := norm_eq_zero' h0 1
    simp at a b
    fin_cases k
    · simp; linarith
    · simp; linarith
  exact ⟨unit_div hz, by simp [normal2, Fin.sum_univ_two]; ring⟩

/-- C163: `compute_normal` of three points that are not aligned is a unit vector normal to both edges. -/
theorem c163_normal_space (p : Nat → Vec 3)
    (h : cross (fun k => p 1 k - p 0 k) (fun k => p 2 k - p 0 k) ≠ 0) :
    ∑ k, normal3 p k * normal3 p k = 1 ∧ ∑ k, (p 1 k - p 0 k) * normal3 p k = 0 ∧
    ∑ k, (p 2 k - p 0 k) * normal3 p k = 0 := by
  have ht1 : Verif.Contact.norm (fun k => p 1 k - p 0 k) ≠ 0 := by
    intro h0
    refine h (funext fun k => ?_)
    have a := norm_eq_zero' h0
    fin_cases k <;> simp [cross, a]
  have ht2 : Verif.Contact.norm (fun k => p 2 k - p 0 k) ≠ 0 := by
    intro h0
    refine h (funext fun k => ?_)
    have a := norm_eq_zero' h0
    fin_cases k <;> simp [cross, a]
  have hz : Verif.Contact.norm (cross (fun k => (p 1 k - p 0 k) / Verif.Contact.norm fun k => p 1 k - p 0 k)
      fun k => (p 2 k - p 0 k) / Verif.Contact.norm fun k => p 2 k - p 0 k) ≠ 0 := by
    intro h0
    refine h (funext fun k => ?_)
    have a := norm_eq_zero' h0 k
    rw [cross_smul] at a
    rcases mul_eq_zero.1 a with b | b
    · exact absurd b (one_div_ne_zero (mul_ne_zero ht1 ht2))
    · exact b
  refine ⟨unit_div hz, ?_, ?_⟩
  · unfold normal3
    simp only [cross_smul]
    simp [cross, Fin.sum_univ_three]
    ring
  · unfold normal3
    simp only [cross_smul]
    simp [cross, Fin.sum_univ_three]
    ring

example : cross ((fun k => (![1, 0, 0] : Vec 3) k - (![0, 0, 0] : Vec 3) k) : Vec 3)
    (fun k => (![0, 1, 0] : Vec 3) k - (![0, 0, 0] : Vec 3) k) ≠ 0 := by
  intro h
  have := congrFun h 2
  simp [cross] at this

end Verif.Props.Contact
