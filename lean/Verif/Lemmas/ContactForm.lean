import Verif.Lemmas.ContactLaw
/-!
Contact and friction: derivative, symmetry, sign and consistency of the forms.
-/
namespace Verif.Contact
open Tensor Rigidity Finset Spec.Contact

variable {D : Nat}

theorem traction_lin (d : Data D) (fc : Face D) (u v : Nat → ℝ) (p : Vec D) (t : ℝ) (k : Fin D) :
    traction d fc (fun i => u i + t * v i) p k = traction d fc u p k + t * traction d fc v p k := by
  simp only [← sigmaN_sum, mul_sum, ← sum_add_distrib]
  exact sum_congr rfl fun i _ => by ring

theorem disp_lin (d : Data D) (fc : Face D) (off : Nat) (u v : Nat → ℝ) (p : Vec D) (t : ℝ) (k : Fin D) :
    disp d fc off (fun i => u i + t * v i) p k = disp d fc off u p k + t * disp d fc off v p k := by
  simp only [disp_eq, mul_sum, ← sum_add_distrib]
  exact sum_congr rfl fun i _ => by ring

theorem along_lin (n x y : Vec D) (t : ℝ) : along n (fun k => x k + t * y k) = along n x + t * along n y := by
  unfold along
  rw [mul_sum, ← sum_add_distrib]
  exact sum_congr rfl fun k _ => by ring

theorem along_traction (d : Data D) (fc : Face D) (u v : Nat → ℝ) (p : Vec D) (t : ℝ) :
    along fc.n (traction d fc (fun i => u i + t * v i) p) =
      along fc.n (traction d fc u p) + t * along fc.n (traction d fc v p) := by
  rw [← along_lin]; congr 1; funext k; exact traction_lin d fc u v p t k

theorem along_disp (d : Data D) (fc : Face D) (off : Nat) (u v : Nat → ℝ) (p : Vec D) (t : ℝ) :
    along fc.n (disp d fc off (fun i => u i + t * v i) p) =
      along fc.n (disp d fc off u p) + t * along fc.n (disp d fc off v p) := by
  rw [← along_lin]; congr 1; funext k; exact disp_lin d fc off u v p t k

theorem phiTV_lin (d : Data D) (th : ℝ) (fc : Face D) (off : Nat) (u v : Nat → ℝ) (p : Vec D) (t : ℝ) :
    phiTV d th fc off (fun i => u i + t * v i) p =
      fun k => phiTV d th fc off u p k + t * phiTV d th fc off v p k := by
  funext k
  unfold phiTV rest
  rw [along_traction, along_disp, traction_lin, disp_lin]
  ring

theorem tractionForm_lin (d : Data D) (v u w : Nat → ℝ) (t : ℝ) :
    tractionForm d v (fun i => u i + t * w i) = tractionForm d v u + t * tractionForm d v w := by
  unfold tractionForm
  rw [mul_list, list_add]
  refine list_congr _ fun fc _ => ?_
  rw [mul_list, list_add]
  refine list_congr _ fun q _ => ?_
  simp only [traction_lin, mul_add, sum_add_distrib]
  rw [add_right_inj, ← mul_assoc t, mul_comm t, mul_assoc]
  congr 1
  rw [mul_sum]
  exact sum_congr rfl fun k _ => by ring

theorem list_deriv {A : Type} (l : List A) (f : A → ℝ → ℝ) (f' : A → ℝ)
    (h : ∀ a ∈ l, HasDerivAt (f a) (f' a) 0) :
    HasDerivAt (fun t => (l.map fun a => f a t).sum) (l.map f').sum 0 := by
  induction l with
  | nil => simpa using hasDerivAt_const (0 : ℝ) (0 : ℝ)
  | cons a l ih =>
    simp only [List.map_cons, List.sum_cons]
    exact (h a (by simp)).add (ih fun b hb => h b (by simp [hb]))

theorem min_deriv {f : ℝ → ℝ} {f' : ℝ} (h : HasDerivAt f f' 0) (h0 : f 0 ≠ 0) :
    HasDerivAt (fun t => min 0 (f t)) (if f 0 ≤ 0 then f' else 0) 0 := by
  rcases lt_or_gt_of_ne h0 with hl | hg
  · rw [if_pos hl.le]
    refine h.congr_of_eventuallyEq ?_
    filter_upwards [h.continuousAt.eventually_lt_const hl] with t ht
    exact min_eq_right ht.le
  · rw [if_neg (not_le.2 hg)]
    refine (hasDerivAt_const (0 : ℝ) (0 : ℝ)).congr_of_eventuallyEq ?_
    filter_upwards [h.continuousAt.eventually_const_lt hg] with t ht
    exact min_eq_left ht.le

theorem gap_deriv {d : Data D} {u v : Nat → ℝ} (hg : LinearGap d u v) {x : Nat × Face D}
    (hx : x ∈ contactFaces d.cbs d.faces) {q : ℝ × Vec D} (hq : q ∈ x.2.qps) :
    HasDerivAt (fun t : ℝ => gap d x.2 x.1 (fun i => u i + t * v i) q.2) (-along x.2.n (disp d x.2 x.1 v q.2)) 0 := by
  by_cases hc : x.2.ctype = .signoriniCell
  · unfold gap
    simp only [hc, if_true, along_disp]
    have h := (((hasDerivAt_id (0 : ℝ)).mul_const (along x.2.n (disp d x.2 x.1 v q.2))).const_add
      (along x.2.n (disp d x.2 x.1 u q.2))).const_sub (computeG0 d.geo q.2 x.2.n)
    simpa using h
  · exact hg x hx hc q hq

theorem trial_deriv {d : Data D} {u v : Nat → ℝ} (hg : LinearGap d u v) {x : Nat × Face D}
    (hx : x ∈ contactFaces d.cbs d.faces) {q : ℝ × Vec D} (hq : q ∈ x.2.qps) :
    HasDerivAt (fun t : ℝ => trial d x.2 x.1 (fun i => u i + t * v i) q.2) (phiNV d 1 x.2 x.1 v q.2) 0 := by
  unfold trial
  simp only [along_traction]
  have h := (((hasDerivAt_id (0 : ℝ)).mul_const (along x.2.n (traction d x.2 v q.2))).const_add
      (along x.2.n (traction d x.2 u q.2))).add ((gap_deriv hg hx hq).const_mul (d.gamma0 / x.2.hF))
  refine h.congr_deriv ?_
  unfold phiNV
  ring

theorem pointWork_deriv {d : Data D} (hc : d.frot ≠ .coulomb) {u v : Nat → ℝ} (hk : OffKinks d u)
    (hg : LinearGap d u v) (e : Nat → ℝ) {x : Nat × Face D}
    (hx : x ∈ contactFaces d.cbs d.faces) {q : ℝ × Vec D} (hq : q ∈ x.2.qps) :
    HasDerivAt (fun t : ℝ => pointWork d (fun i => u i + t * v i) e x.1 x.2 q) (pointForm d u e v x.1 x.2 q) 0 := by
  unfold pointWork pointForm
  refine HasDerivAt.const_mul _ (HasDerivAt.add ?_ ?_)
  · have hu : (fun i => u i + (0 : ℝ) * v i) = u := by funext i; ring
    have h := (min_deriv (trial_deriv hg hx hq) (by simp only [hu]; exact hk.normal x hx q hq)).mul_const
      (phiNV d d.theta x.2 x.1 e q.2)
    refine h.congr_deriv ?_
    rw [hu]
    split <;> ring
  · by_cases hn : d.frot = .none
    · simp only [hn, if_true]; exact hasDerivAt_const _ _
    · simp only [hn, if_false]
      obtain ⟨h0, h1⟩ := hk.tangent hn x hx q hq
      have hl : ∀ t : ℝ, limit d x.2 x.1 (fun i => u i + t * v i) q.2 = limit d x.2 x.1 u q.2 := by
        intro t; unfold limit; simp [hc]
      simp only [hl, phiTV_lin]
      refine HasDerivAt.congr_deriv (HasDerivAt.fun_sum fun k _ =>
        (proj_deriv (phiTV d 1 x.2 x.1 u q.2) (phiTV d 1 x.2 x.1 v q.2) h0 ?_ k).mul_const
          (phiTV d d.theta x.2 x.1 e q.2 k)) ?_
      · intro h
        apply h1
        rw [← h, pow_two, norm_sq]
        rfl
      · exact sum_congr rfl fun k _ => mul_comm _ _

/-- The contact matrix is the derivative of the contact forces. -/
theorem fCont_deriv {d : Data D} (hd : WellSized d) (hs : Limited d) (hc : d.frot ≠ .coulomb) {u v : Nat → ℝ}
    (hk : OffKinks d u) (hg : LinearGap d u v) {i : Nat} (hi : i < d.n) :
    HasDerivAt (fun t : ℝ => d.fCont (fun k => u k + t * v k) i) (∑ j ∈ range d.n, d.kCont u i j * v j) 0 := by
  have e1 : ∀ f : Nat → ℝ, f i = ∑ k ∈ range d.n, f k * (if k = i then 1 else 0) := by
    intro f
    simp [hi]
  have e2 : ∑ j ∈ range d.n, d.kCont u i j * v j =
      ∑ a ∈ range d.n, ∑ b ∈ range d.n, (if a = i then 1 else 0) * d.kCont u a b * v b := by
    rw [e1 fun i => ∑ j ∈ range d.n, d.kCont u i j * v j]
    refine sum_congr rfl fun a _ => ?_
    rw [sum_mul]
    exact sum_congr rfl fun b _ => by ring
  rw [e2, kCont_form hd hs]
  have e3 : (fun t : ℝ => d.fCont (fun k => u k + t * v k) i) = fun t : ℝ =>
      -(d.theta * (tractionForm d (fun k => if k = i then 1 else 0) u +
        t * tractionForm d (fun k => if k = i then 1 else 0) v)) +
      ((contactFaces d.cbs d.faces).map fun x => (x.2.qps.map fun q =>
        pointWork d (fun k => u k + t * v k) (fun k => if k = i then 1 else 0) x.1 x.2 q).sum).sum := by
    funext t
    rw [e1 (d.fCont fun k => u k + t * v k), fCont_work hd hs, tractionForm_lin]
  rw [e3]
  refine HasDerivAt.add ?_ ?_
  · have h := ((((hasDerivAt_id (0 : ℝ)).mul_const (tractionForm d (fun k => if k = i then 1 else 0) v)).const_add
      (tractionForm d (fun k => if k = i then 1 else 0) u)).const_mul d.theta).neg
    refine h.congr_deriv ?_
    ring
  · refine list_deriv _ (fun (x : Nat × Face D) t => (x.2.qps.map fun q =>
        pointWork d (fun k => u k + t * v k) (fun k => if k = i then 1 else 0) x.1 x.2 q).sum) _ fun x hx => ?_
    exact list_deriv _ (fun (q : ℝ × Vec D) t => pointWork d (fun k => u k + t * v k) (fun k => if k = i then 1 else 0) x.1 x.2 q) _
      fun q hq => pointWork_deriv hc hk hg _ hx hq

theorem tractionForm_comm (d : Data D) (v w : Nat → ℝ) : tractionForm d v w = tractionForm d w v := by
  unfold tractionForm
  refine list_congr _ fun fc _ => list_congr _ fun q _ => ?_
  congr 1
  exact sum_congr rfl fun k _ => mul_comm _ _

theorem pointForm_comm {d : Data D} (hth : d.theta = 1) (u v w : Nat → ℝ) (off : Nat) (fc : Face D) (q : ℝ × Vec D) :
    pointForm d u v w off fc q = pointForm d u w v off fc q := by
  unfold pointForm
  rw [hth]
  congr 2
  · split
    · exact mul_comm _ _
    · rfl
  · split
    · rfl
    · simp only [mul_sum]
      rw [sum_comm]
      refine sum_congr rfl fun k _ => sum_congr rfl fun l _ => ?_
      rw [dProj_symm]; ring

theorem kCont_symm {d : Data D} (hd : WellSized d) (hs : Limited d) (hth : d.theta = 1) (u : Nat → ℝ) {i j : Nat}
    (hi : i < d.n) (hj : j < d.n) : d.kCont u i j = d.kCont u j i := by
  have e : ∀ a b, a < d.n → b < d.n → d.kCont u a b = ∑ i ∈ range d.n, ∑ j ∈ range d.n,
      (if i = a then 1 else 0) * d.kCont u i j * (if j = b then 1 else 0) := by
    intro a b ha hb
    simp [ha, hb]
  rw [e i j hi hj, e j i hj hi, kCont_form hd hs, kCont_form hd hs, tractionForm_comm]
  congr 1
  exact list_congr _ fun x _ => list_congr _ fun q _ => pointForm_comm hth _ _ _ _ _ _

theorem contactFaces_snd (off : Nat) (fs : List (Face D)) :
    (contactFaces off fs).map Prod.snd = fs.filter fun fc => fc.isContact := by
  induction fs generalizing off with
  | nil => rfl
  | cons fc fs ih =>
    rw [contactFaces, List.map_append, ih]
    by_cases h : fc.isContact = true <;> simp [h]

/-- With the same quadrature everywhere the products of tractions are sums over the points of contact. -/
theorem tractionForm_eq {d : Data D} (hc : Consistent d) (hq : SameQuadrature d) (v w : Nat → ℝ) :
    tractionForm d v w = ((contactFaces d.cbs d.faces).map fun x => (x.2.qps.map fun q =>
      q.1 / (d.gamma0 / x.2.hF) * ∑ k, traction d x.2 v q.2 k * traction d x.2 w q.2 k).sum).sum := by
  have e : (contactFaces d.cbs d.faces).map (fun x => (x.2.qps.map fun q =>
      q.1 / (d.gamma0 / x.2.hF) * ∑ k, traction d x.2 v q.2 k * traction d x.2 w q.2 k).sum) =
      ((contactFaces d.cbs d.faces).map Prod.snd).map fun fc => (fc.qps.map fun q =>
      q.1 / (d.gamma0 / fc.hF) * ∑ k, traction d fc v q.2 k * traction d fc w q.2 k).sum := by
    rw [List.map_map]; rfl
  rw [e, contactFaces_snd]
  unfold tractionForm
  have hf : d.faces.filter (fun fc => decide (fc.ctype ≠ .noContact)) = d.faces.filter fun fc => fc.isContact := by
    refine List.filter_congr fun fc hfc => ?_
    have := hc fc hfc
    by_cases h : fc.isContact = true
    · rw [h]; exact decide_eq_true (this.1 h)
    · rw [Bool.not_eq_true] at h
      rw [h]
      refine decide_eq_false fun hh => ?_
      rw [this.2 hh] at h
      exact absurd h (by simp)
  rw [hf]
  refine list_congr _ fun fc hfc => ?_
  have hm := List.mem_filter.1 hfc
  have h := hq fc hm.1 (by simpa using hm.2) v w
  have r : ∀ l : List (ℝ × Vec D), (l.map fun q => q.1 / (d.gamma0 / fc.hF) *
      ∑ k, traction d fc v q.2 k * traction d fc w q.2 k).sum =
      1 / (d.gamma0 / fc.hF) * (l.map fun q => q.1 * ∑ k, traction d fc v q.2 k * traction d fc w q.2 k).sum := by
    intro l
    rw [mul_list]
    exact list_congr _ fun q _ => by ring
  rw [r, r, h]

theorem split_unit {n : Vec D} (hn : ∑ k, n k * n k = 1) (x y : Vec D) :
    ∑ k, x k * y k = along n x * along n y + ∑ k, rest n x k * rest n y k := by
  have e : ∀ k, rest n x k * rest n y k = x k * y k - along n y * (x k * n k) - along n x * (y k * n k) +
      along n x * along n y * (n k * n k) := by intro k; unfold rest; ring
  have h1 : ∑ k, x k * n k = along n x := rfl
  have h2 : ∑ k, y k * n k = along n y := rfl
  rw [sum_congr rfl fun k _ => e k, sum_add_distrib, sum_sub_distrib, sum_sub_distrib, ← mul_sum, ← mul_sum, ← mul_sum,
    hn, h1, h2]
  ring

/-- The skew-symmetric variant: the matrix is positive semidefinite. -/
theorem kCont_nonneg {d : Data D} (hd : WellSized d) (hs : Limited d) (hth : d.theta = -1) (hc : Consistent d)
    (hq : SameQuadrature d) (hu : Usual d) {u : Nat → ℝ}
    (hl : d.frot ≠ .none → ∀ x ∈ contactFaces d.cbs d.faces, ∀ q ∈ x.2.qps, 0 ≤ limit d x.2 x.1 u q.2) (v : Nat → ℝ) :
    0 ≤ ∑ i ∈ range d.n, ∑ j ∈ range d.n, v i * d.kCont u i j * v j := by
  rw [kCont_form hd hs, tractionForm_eq hc hq, hth, neg_mul, one_mul, neg_neg, list_add]
  refine list_nonneg _ fun x hx => ?_
  rw [list_add]
  refine list_nonneg _ fun q hq' => ?_
  obtain ⟨hm, hcx, -⟩ := contactFaces_mem hx
  have hg : 0 < d.gamma0 / x.2.hF := div_pos hu.gamma0 (hu.hF _ hm hcx)
  unfold pointForm
  rw [hth, ← mul_add]
  refine mul_nonneg (div_nonneg (hu.weight _ hm hcx _ hq') hg.le) ?_
  rw [split_unit (hu.unit _ hm hcx)]
  set g := d.gamma0 / x.2.hF
  set tn := along x.2.n (traction d x.2 v q.2)
  set un := along x.2.n (disp d x.2 x.1 v q.2)
  have h1 : 0 ≤ tn * tn + if trial d x.2 x.1 u q.2 ≤ 0 then
      phiNV d (-1) x.2 x.1 v q.2 * phiNV d 1 x.2 x.1 v q.2 else 0 := by
    split
    · have : phiNV d (-1) x.2 x.1 v q.2 * phiNV d 1 x.2 x.1 v q.2 = (g * un) * (g * un) - tn * tn := by
        show (-1 * tn - g * un) * (1 * tn - g * un) = _
        ring
      rw [this]
      nlinarith [mul_self_nonneg (g * un)]
    · nlinarith [mul_self_nonneg tn]
  have h2 : 0 ≤ ∑ k, rest x.2.n (traction d x.2 v q.2) k * rest x.2.n (traction d x.2 v q.2) k +
      if d.frot = .none then 0 else ∑ k, phiTV d (-1) x.2 x.1 v q.2 k *
        ∑ l, dProj (phiTV d 1 x.2 x.1 u q.2) (limit d x.2 x.1 u q.2) k l * phiTV d 1 x.2 x.1 v q.2 l := by
    set a := rest x.2.n (traction d x.2 v q.2)
    have ha : 0 ≤ ∑ k, a k * a k := dot_self_nonneg a
    split
    · linarith
    · rename_i hn
      set P := dProj (phiTV d 1 x.2 x.1 u q.2) (limit d x.2 x.1 u q.2) with hP
      let b : Vec D := fun k => g * rest x.2.n (disp d x.2 x.1 v q.2) k
      have hA := (dProj_bounds (phiTV d 1 x.2 x.1 u q.2) a (hl hn x hx q hq')).2
      have hB := (dProj_bounds (phiTV d 1 x.2 x.1 u q.2) b (hl hn x hx q hq')).1
      rw [← hP] at hA hB
      have hab : ∑ k, a k * ∑ l, P k l * b l = ∑ k, b k * ∑ l, P k l * a l := by
        simp only [mul_sum]
        rw [sum_comm]
        refine sum_congr rfl fun k _ => sum_congr rfl fun l _ => ?_
        rw [hP, dProj_symm]; ring
      have e : ∑ k, phiTV d (-1) x.2 x.1 v q.2 k * ∑ l, P k l * phiTV d 1 x.2 x.1 v q.2 l =
          -(∑ k, a k * ∑ l, P k l * a l) + ∑ k, a k * ∑ l, P k l * b l - ∑ k, b k * ∑ l, P k l * a l +
            ∑ k, b k * ∑ l, P k l * b l := by
        have : ∀ k, phiTV d (-1) x.2 x.1 v q.2 k * ∑ l, P k l * phiTV d 1 x.2 x.1 v q.2 l =
            -(a k * ∑ l, P k l * a l) + a k * (∑ l, P k l * b l) - b k * (∑ l, P k l * a l) + b k * ∑ l, P k l * b l := by
          intro k
          have h1 : phiTV d (-1) x.2 x.1 v q.2 k = -a k - b k := by unfold phiTV; show -1 * a k - b k = _; ring
          have h2 : ∑ l, P k l * phiTV d 1 x.2 x.1 v q.2 l = ∑ l, P k l * a l - ∑ l, P k l * b l := by
            rw [← sum_sub_distrib]
            refine sum_congr rfl fun l _ => ?_
            have : phiTV d 1 x.2 x.1 v q.2 l = a l - b l := by unfold phiTV; show 1 * a l - b l = _; ring
            rw [this]; ring
          rw [h1, h2]; ring
        rw [sum_congr rfl fun k _ => this k, sum_add_distrib, sum_sub_distrib, sum_add_distrib, sum_neg_distrib]
      rw [e, hab]
      have : dot a a = ∑ k, a k * a k := rfl
      linarith
  linarith

/-- Consistency: for displacements that satisfy the contact laws, the forces are the tractions. -/
theorem fCont_consistent {d : Data D} (hd : WellSized d) (hs : Limited d) (hc : Consistent d)
    (hq : SameQuadrature d) (hu : Usual d) {u : Nat → ℝ}
    (hN : ∀ x ∈ contactFaces d.cbs d.faces, ∀ q ∈ x.2.qps,
      Signorini (along x.2.n (traction d x.2 u q.2)) (gap d x.2 x.1 u q.2))
    (hT : ∀ x ∈ contactFaces d.cbs d.faces, ∀ q ∈ x.2.qps,
      if d.frot = .none then ∀ k, rest x.2.n (traction d x.2 u q.2) k = 0 else
        0 ≤ limit d x.2 x.1 u q.2 ∧
        Tresca (limit d x.2 x.1 u q.2) (rest x.2.n (traction d x.2 u q.2)) (rest x.2.n (disp d x.2 x.1 u q.2)))
    (v : Nat → ℝ) :
    ∑ i ∈ range d.n, d.fCont u i * v i = -((contactFaces d.cbs d.faces).map fun x => (x.2.qps.map fun q =>
      q.1 * ∑ k, traction d x.2 u q.2 k * disp d x.2 x.1 v q.2 k).sum).sum := by
  have neg_list : ∀ {A : Type} (l : List A) (f : A → ℝ), -(l.map f).sum = (l.map fun a => -f a).sum := by
    intro A l f
    rw [← neg_one_mul, mul_list]
    exact list_congr _ fun a _ => by ring
  rw [fCont_work hd hs, tractionForm_eq hc hq, ← neg_mul, mul_list, list_add, neg_list]
  refine list_congr _ fun x hx => ?_
  rw [mul_list, list_add, neg_list]
  refine list_congr _ fun q hq' => ?_
  obtain ⟨hm, hcx, -⟩ := contactFaces_mem hx
  have hg : 0 < d.gamma0 / x.2.hF := div_pos hu.gamma0 (hu.hF _ hm hcx)
  have hn := hu.unit _ hm hcx
  unfold pointWork
  rw [show min 0 (trial d x.2 x.1 u q.2) = along x.2.n (traction d x.2 u q.2) from (signorini_iff hg).2 (hN x hx q hq'),
    split_unit hn (traction d x.2 v q.2), split_unit hn (traction d x.2 u q.2)]
  set g := d.gamma0 / x.2.hF
  have hfr : (if d.frot = .none then 0 else ∑ k, proj (phiTV d 1 x.2 x.1 u q.2) (limit d x.2 x.1 u q.2) k *
      phiTV d d.theta x.2 x.1 v q.2 k) =
      d.theta * ∑ k, rest x.2.n (traction d x.2 v q.2) k * rest x.2.n (traction d x.2 u q.2) k -
        g * ∑ k, rest x.2.n (traction d x.2 u q.2) k * rest x.2.n (disp d x.2 x.1 v q.2) k := by
    have h := hT x hx q hq'
    split
    · rename_i hf
      rw [if_pos hf] at h
      simp [h]
    · rename_i hf
      rw [if_neg hf] at h
      have e : phiTV d 1 x.2 x.1 u q.2 = fun k => rest x.2.n (traction d x.2 u q.2) k -
          g * rest x.2.n (disp d x.2 x.1 u q.2) k := by
        funext k; unfold phiTV; rw [one_mul]
      rw [e, tresca_proj h.1 hg h.2, mul_sum, mul_sum, ← sum_sub_distrib]
      exact sum_congr rfl fun k _ => by unfold phiTV; ring
  rw [hfr]
  unfold phiNV
  field_simp
  ring

end Verif.Contact
