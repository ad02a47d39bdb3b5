import Mathlib.Tactic.LinearCombination
import Verif.Lemmas.NitscheExample
import Verif.Props.HhoStab
/-!
C178: Dirichlet conditions in the weak sense (`apply_dirichlet_via_nitsche`).
-/
namespace Verif.Props.Nitsche
open Finset Verif.Hho Verif.Spec.Hho Verif.Lemmas.Hho Verif.Nitsche Verif.Spec.Nitsche Verif.Lemmas.Nitsche LocalMatrix

variable {K P : Type} [Field K] {d N : Nat} {cell : Elem P K} {faces : List (BFace P K)}

/-- On every boundary face the call adds `-(∂ₙR u, v_F) - (u_F, ∂ₙR v) + pen/h (u_F, v_F)` to the form and
`pen/h (g, v_F) - (g, ∂ₙR v)` to the load, for all unknowns; faces inside the domain contribute nothing. -/
theorem c178_form (rd cd fd : Nat) {fbs : Nat} (hs : ∀ f ∈ faces, (f.basis fd).size = fbs) (R A : Mat K) (b : Nat → K)
    (g : P → K) (pen : K) (v u : Nat → K) :
    let n := (cell.basis cd).size + facesDofs (uniform fd (faces.map BFace.toFace))
    let rb := cell.basis rd
    let s := Nitsche.apply d rd cd fd n cell faces R A b g pen
    form n s.1 v u = form n A v u + bndSum fd (fun fc o =>
      -quad (fc.integrate (2 * rd)) (fun x => evalFn (fc.basis fd) (seg o v) x * normalD d rb (app n R u) fc.normal x) -
        quad (fc.integrate (2 * rd)) (fun x => evalFn (fc.basis fd) (seg o u) x * normalD d rb (app n R v) fc.normal x) +
        pen / fc.meas * quad (fc.integrate (2 * rd)) fun x =>
          evalFn (fc.basis fd) (seg o v) x * evalFn (fc.basis fd) (seg o u) x) faces (cell.basis cd).size ∧
    load n s.2 v = load n b v + bndSum fd (fun fc o =>
      pen / fc.meas * quad (fc.integrate (2 * rd)) (fun x => g x * evalFn (fc.basis fd) (seg o v) x) -
        quad (fc.integrate (2 * rd)) fun x => g x * normalD d rb (app n R v) fc.normal x) faces (cell.basis cd).size := by
  intro n rb s
  have := loop_eq (d := d) (rd := rd) (cbs := (cell.basis cd).size) (n := n) pen g rb R v u faces hs 0 (A, b) (by
    rw [Nat.mul_zero, Nat.add_zero])
  rwa [Nat.mul_zero, Nat.add_zero] at this

/-- A symmetric form stays symmetric. -/
theorem c178_symmetric (rd cd fd : Nat) {fbs : Nat} (hs : ∀ f ∈ faces, (f.basis fd).size = fbs) (R A : Mat K)
    (b : Nat → K) (g : P → K) (pen : K) (v u : Nat → K) :
    let n := (cell.basis cd).size + facesDofs (uniform fd (faces.map BFace.toFace))
    form n A v u = form n A u v →
    form n (Nitsche.apply d rd cd fd n cell faces R A b g pen).1 v u =
      form n (Nitsche.apply d rd cd fd n cell faces R A b g pen).1 u v := by
  intro n h
  rw [(c178_form (d := d) rd cd fd hs R A b g pen v u).1, (c178_form (d := d) rd cd fd hs R A b g pen u v).1, h]
  congr 1
  refine bndSum_congr (fun f _ _ o => ?_) _
  have : ∀ x, evalFn (f.basis fd) (seg o v) x * evalFn (f.basis fd) (seg o u) x =
      evalFn (f.basis fd) (seg o u) x * evalFn (f.basis fd) (seg o v) x := fun x => mul_comm _ _
  simp only [this]
  ring

/-- Without boundary faces nothing changes. -/
theorem c178_interior (rd cd fd n : Nat) (hb : ∀ f ∈ faces, f.boundary = false) (R A : Mat K) (b : Nat → K) (g : P → K)
    (pen : K) : Nitsche.apply d rd cd fd n cell faces R A b g pen = (A, b) := by
  unfold Nitsche.apply
  generalize 0 = i
  generalize (A, b) = s
  induction faces generalizing i with
  | nil => rfl
  | cons f fs ih =>
    unfold loop
    rw [hb f List.mem_cons_self]
    exact ih (fun f hf => hb f (List.mem_cons_of_mem _ hf)) (i + 1)

/-- Consistency: for the reconstruction of the library, the interpolate `u` of a polynomial `p` of the reconstruction
degree and the datum `g = p`, the call changes the residual by `-Σ (∂ₙp, v_F)` over the boundary faces, for every
penalization: these are the terms that integration by parts leaves on the boundary. -/
theorem c178_consistent (C : PolyCell d cell (faces.map BFace.toFace) N) (S : Solver K) {rd cd fd fbs : Nat}
    (hs : ∀ f ∈ faces, (f.basis fd).size = fbs)
    (hcd : cd ≤ rd) (hcd' : rd ≤ cd + 2) (hfd : rd ≤ fd + 1) (hfd' : fd ≤ rd) (hN : 2 * rd ≤ N)
    (hG : Green C none rd cd)
    (hn : Nonsing ((cell.basis rd).size - 1) (lapLhs d none (cell.basis rd) rd cell)) {a u : Nat → K}
    (hu : IsInterp C cd (uniform fd (faces.map BFace.toFace)) (evalFn (cell.basis rd) a) u) (A : Mat K) (b : Nat → K)
    (pen : K) (v : Nat → K) :
    let n := (cell.basis cd).size + facesDofs (uniform fd (faces.map BFace.toFace))
    let R := (laplacian d none false S rd cd fd cell (faces.map BFace.toFace)).1
    let s := Nitsche.apply d rd cd fd n cell faces R A b (evalFn (cell.basis rd) a) pen
    form n s.1 v u - load n s.2 v = form n A v u - load n b v -
      bndSum fd (fun fc o => C.IF fc.toFace fun x =>
        dot d (evalGrad (cell.basis rd) a x) fc.normal * evalFn (fc.basis fd) (seg o v) x) faces (cell.basis cd).size := by
  intro n R s
  have hR : ∀ j < (cell.basis rd).size - 1, app n R u j = a (j + 1) :=
    HhoLaplacian.c82_consistency C S (tens := none) trivial hcd hcd' hfd hN (by omega) hG hn hu
  have hD : ∀ (m : Nat → K) x, normalD d (cell.basis rd) (app n R u) m x = dot d (evalGrad (cell.basis rd) a x) m := by
    intro m x
    unfold normalD
    rw [← evalGradTail_eq C]
    congr 1
    funext c
    unfold evalGradTail
    exact sum_congr rfl fun j hj => by rw [hR j (mem_range.1 hj)]
  rw [(c178_form (d := d) rd cd fd hs R A b _ pen v u).1, (c178_form (d := d) rd cd fd hs R A b _ pen v u).2]
  have key : ∀ (fs : List (BFace P K)) (o : Nat), (∀ f ∈ fs, f ∈ faces) →
      faceAll (fun f k off => ∀ i < (f.basis k).size,
        C.IF f (fun x => (f.basis k).fn x i * evalFn (f.basis k) (seg off u) x) =
          C.IF f (fun x => (f.basis k).fn x i * evalFn (cell.basis rd) a x)) (uniform fd (fs.map BFace.toFace)) o →
      bndSum fd (fun fc o =>
        -quad (fc.integrate (2 * rd)) (fun x => evalFn (fc.basis fd) (seg o v) x *
            normalD d (cell.basis rd) (app n R u) fc.normal x) -
          quad (fc.integrate (2 * rd)) (fun x => evalFn (fc.basis fd) (seg o u) x *
            normalD d (cell.basis rd) (app n R v) fc.normal x) +
          pen / fc.meas * quad (fc.integrate (2 * rd)) fun x =>
            evalFn (fc.basis fd) (seg o v) x * evalFn (fc.basis fd) (seg o u) x) fs o -
      bndSum fd (fun fc o =>
        pen / fc.meas * quad (fc.integrate (2 * rd)) (fun x => evalFn (cell.basis rd) a x * evalFn (fc.basis fd) (seg o v) x) -
          quad (fc.integrate (2 * rd)) fun x => evalFn (cell.basis rd) a x *
            normalD d (cell.basis rd) (app n R v) fc.normal x) fs o =
      -bndSum fd (fun fc o => C.IF fc.toFace fun x =>
        dot d (evalGrad (cell.basis rd) a x) fc.normal * evalFn (fc.basis fd) (seg o v) x) fs o := by
    intro fs
    induction fs with
    | nil => intro o _ _; simp [bndSum]
    | cons f fs ih =>
      intro o hm hf
      obtain ⟨h1, h2⟩ : (∀ i < (f.basis fd).size,
        C.IF f.toFace (fun x => (f.basis fd).fn x i * evalFn (f.basis fd) (seg o u) x) =
          C.IF f.toFace (fun x => (f.basis fd).fn x i * evalFn (cell.basis rd) a x)) ∧ _ := hf
      have hfm : f.toFace ∈ faces.map BFace.toFace := List.mem_map_of_mem (hm f List.mem_cons_self)
      have ih' := ih _ (fun f hf => hm f (List.mem_cons_of_mem _ hf)) h2
      simp only [bndSum]
      by_cases hb : f.boundary = true
      · simp only [hb, if_true]
        have hnd : ∀ w : Nat → K, (fun x => normalD d (cell.basis rd) w f.normal x) ∈ C.V (rd - 1) := fun w =>
          sum_mem' C fun c hc => smul_mem_right C _ (evalGradTail_mem C rd w (mem_range.1 hc))
        have hvF : ∀ w : Nat → K, OnV C f.toFace fd fun x => evalFn (f.basis fd) w x := fun w => OnV.evalFb C hfm fd w
        have hp : OnV C f.toFace rd fun x => evalFn (cell.basis rd) a x := OnV.of_mem C (evalFn_mem C rd a)
        -- the adjoint term
        have e1 : quad (f.integrate (2 * rd)) (fun x => evalFn (f.basis fd) (seg o u) x *
            normalD d (cell.basis rd) (app n R v) f.normal x) =
            quad (f.integrate (2 * rd)) fun x => evalFn (cell.basis rd) a x *
              normalD d (cell.basis rd) (app n R v) f.normal x := by
          rw [face_quad C hfm (n := fd + (rd - 1)) (by omega) hN (OnV.mul C (hvF _) (OnV.of_mem C (hnd _))),
            face_quad C hfm (n := rd + (rd - 1)) (by omega) hN (OnV.mul C hp (OnV.of_mem C (hnd _)))]
          have := interp_face C hfm h1 (v := fun x => normalD d (cell.basis rd) (app n R v) f.normal x)
            (C.mono (by omega) (hnd _))
          rw [show (fun x => evalFn (f.basis fd) (seg o u) x * normalD d (cell.basis rd) (app n R v) f.normal x) =
              fun x => normalD d (cell.basis rd) (app n R v) f.normal x * evalFn (f.basis fd) (seg o u) x from
              funext fun x => mul_comm _ _, this]
          congr 1
          exact funext fun x => mul_comm _ _
        -- the penalty
        have e2 : quad (f.integrate (2 * rd)) (fun x => evalFn (f.basis fd) (seg o v) x * evalFn (f.basis fd) (seg o u) x) =
            quad (f.integrate (2 * rd)) fun x => evalFn (cell.basis rd) a x * evalFn (f.basis fd) (seg o v) x := by
          rw [face_quad C hfm (n := fd + fd) (by omega) hN (OnV.mul C (hvF _) (hvF _)),
            face_quad C hfm (n := rd + fd) (by omega) hN (OnV.mul C hp (hvF _))]
          have e : ∀ w : P → K, C.IF f.toFace (fun x => evalFn (f.basis fd) (seg o v) x * w x) =
              ∑ j ∈ range (f.basis fd).size, seg o v j * C.IF f.toFace fun x => (f.basis fd).fn x j * w x := by
            intro w
            rw [← IF_sum]
            congr 1
            funext x
            unfold evalFn
            rw [sum_mul]
            exact sum_congr rfl fun _ _ => by ring
          rw [e, show (fun x => evalFn (cell.basis rd) a x * evalFn (f.basis fd) (seg o v) x) =
              fun x => evalFn (f.basis fd) (seg o v) x * evalFn (cell.basis rd) a x from funext fun x => mul_comm _ _, e]
          exact sum_congr rfl fun j hj => by rw [h1 j (mem_range.1 hj)]
        -- the consistency term
        have e3 : quad (f.integrate (2 * rd)) (fun x => evalFn (f.basis fd) (seg o v) x *
            normalD d (cell.basis rd) (app n R u) f.normal x) = C.IF f.toFace fun x =>
            dot d (evalGrad (cell.basis rd) a x) f.normal * evalFn (f.basis fd) (seg o v) x := by
          rw [face_quad C hfm (n := fd + (rd - 1)) (by omega) hN (OnV.mul C (hvF _) (OnV.of_mem C (hnd _)))]
          congr 1
          funext x
          rw [hD, mul_comm]
        rw [e1, e2, e3]
        linear_combination ih'
      · simp only [hb]
        simpa using ih'
  have := key faces _ (fun _ h => h) hu.2
  linear_combination this

section ordered
variable {K : Type} [Field K] [LinearOrder K] [IsStrictOrderedRing K] {cell : Elem P K} {faces : List (BFace P K)}

/-- A penalization that dominates the trace constant keeps the form positive: if `form A v v ≥ E ≥ 0` and
`Σ h (∂ₙR v, ∂ₙR v) ≤ c E` over the boundary faces with `c ≤ pen`, then the new form is at least `(1 - c/pen) E`. -/
theorem c178_positive_partial (rd cd fd : Nat) {fbs : Nat} (hs : ∀ f ∈ faces, (f.basis fd).size = fbs) (R A : Mat K)
    (b : Nat → K) (g : P → K) {pen c E : K} (hpen : 0 < pen) (hc : c ≤ pen)
    (hm : ∀ f ∈ faces, 0 < f.meas) (hw : ∀ f ∈ faces, ∀ q ∈ f.integrate (2 * rd), 0 ≤ q.w) (v : Nat → K) :
    let n := (cell.basis cd).size + facesDofs (uniform fd (faces.map BFace.toFace))
    E ≤ form n A v v → 0 ≤ E →
    bndSum fd (fun fc _ => fc.meas * quad (fc.integrate (2 * rd)) fun x =>
      normalD d (cell.basis rd) (app n R v) fc.normal x * normalD d (cell.basis rd) (app n R v) fc.normal x) faces
      (cell.basis cd).size ≤ c * E →
    (1 - c / pen) * E ≤ form n (Nitsche.apply d rd cd fd n cell faces R A b g pen).1 v v ∧
      0 ≤ form n (Nitsche.apply d rd cd fd n cell faces R A b g pen).1 v v := by
  intro n hE hE0 hT
  have hf := (c178_form (d := d) (cell := cell) rd cd fd hs R A b g pen v v).1
  have key : ∀ (fs : List (BFace P K)) (o : Nat), (∀ f ∈ fs, f ∈ faces) →
      -(1 / pen) * bndSum fd (fun fc _ => fc.meas * quad (fc.integrate (2 * rd)) fun x =>
        normalD d (cell.basis rd) (app n R v) fc.normal x * normalD d (cell.basis rd) (app n R v) fc.normal x) fs o ≤
      bndSum fd (fun fc o =>
        -quad (fc.integrate (2 * rd)) (fun x => evalFn (fc.basis fd) (seg o v) x *
            normalD d (cell.basis rd) (app n R v) fc.normal x) -
          quad (fc.integrate (2 * rd)) (fun x => evalFn (fc.basis fd) (seg o v) x *
            normalD d (cell.basis rd) (app n R v) fc.normal x) +
          pen / fc.meas * quad (fc.integrate (2 * rd)) fun x =>
            evalFn (fc.basis fd) (seg o v) x * evalFn (fc.basis fd) (seg o v) x) fs o := by
    intro fs
    induction fs with
    | nil => intro o _; simp [bndSum]
    | cons f fs ih =>
      intro o hmem
      have ih' := ih (o + (f.basis fd).size) fun f hf => hmem f (List.mem_cons_of_mem _ hf)
      simp only [bndSum]
      by_cases hb : f.boundary = true
      · simp only [hb, if_true]
        have hm0 := hm f (hmem f List.mem_cons_self)
        set D := fun x => normalD d (cell.basis rd) (app n R v) f.normal x with hDd
        set F := fun x => evalFn (f.basis fd) (seg o v) x with hFd
        have sq : 0 ≤ quad (f.integrate (2 * rd)) fun x => (pen / f.meas * F x - D x) * (pen / f.meas * F x - D x) :=
          quad_nonneg (hw f (hmem f List.mem_cons_self)) fun q _ => mul_self_nonneg _
        have ex : quad (f.integrate (2 * rd)) (fun x => (pen / f.meas * F x - D x) * (pen / f.meas * F x - D x)) =
            pen / f.meas * (pen / f.meas) * quad (f.integrate (2 * rd)) (fun x => F x * F x) -
              2 * (pen / f.meas) * quad (f.integrate (2 * rd)) (fun x => F x * D x) +
              quad (f.integrate (2 * rd)) fun x => D x * D x := by
          rw [← quad_mul, ← quad_mul, ← quad_sub, ← quad_add]
          exact quad_congr fun q _ => by ring
        rw [ex] at sq
        have h2 := mul_nonneg (div_pos hm0 hpen).le sq
        have hp' : pen ≠ 0 := hpen.ne'
        have hm' : f.meas ≠ 0 := hm0.ne'
        have e2 : f.meas / pen * (pen / f.meas * (pen / f.meas) * quad (f.integrate (2 * rd)) (fun x => F x * F x) -
              2 * (pen / f.meas) * quad (f.integrate (2 * rd)) (fun x => F x * D x) +
              quad (f.integrate (2 * rd)) fun x => D x * D x) =
            pen / f.meas * quad (f.integrate (2 * rd)) (fun x => F x * F x) -
              2 * quad (f.integrate (2 * rd)) (fun x => F x * D x) +
              1 / pen * (f.meas * quad (f.integrate (2 * rd)) fun x => D x * D x) := by
          field_simp
        rw [e2] at h2
        linarith
      · simp only [hb]
        simpa using ih'
  have h1 := key faces (cell.basis cd).size fun _ h => h
  have h2 : -(1 / pen) * (c * E) ≤ -(1 / pen) * bndSum fd (fun fc _ => fc.meas * quad (fc.integrate (2 * rd)) fun x =>
      normalD d (cell.basis rd) (app n R v) fc.normal x * normalD d (cell.basis rd) (app n R v) fc.normal x) faces
      (cell.basis cd).size := by
    have := mul_le_mul_of_nonneg_left hT (one_div_pos.2 hpen).le
    linarith
  have h3 : -(1 / pen) * (c * E) = -(c / pen) * E := by ring
  have h4 : c / pen ≤ 1 := (div_le_one hpen).2 hc
  have h5 : 0 ≤ (1 - c / pen) * E := mul_nonneg (by linarith) hE0
  have h6 : (1 - c / pen) * E ≤ form n (Nitsche.apply d rd cd fd n cell faces R A b g pen).1 v v := by
    rw [hf]
    linarith
  exact ⟨h6, h5.trans h6⟩

end ordered

/-! ### The segment -/

/-- The default penalization is too small: on a single cell, with the reconstruction and the stabilization of the
library and its default argument, the form is negative on the interpolate of `x - 1/2`. -/
theorem c178_violation (hF : Bool) (b : Nat → ℚ) (g : ℚ → ℚ) :
    let L := laplacian 1 none false (exactSolver ℚ) 2 1 1 segCell segFaces
    let A := addMat L.2 (hho (exactSolver ℚ) hF 2 1 1 segCell L.1 segFaces)
    let v := project (exactSolver ℚ) segCell segFaces 1 1 1 1 fun x => x - 1 / 2
    form 4 A v v = 1 ∧ form 4 (applyDefault 1 2 1 1 4 segCell segB L.1 A b g).1 v v = -1 / 2 := by
  intro L A v
  have hmF : ∀ g ∈ segFaces, Nonsing (g.basis 1).size (mass g.toElem 1 (g.basis 1)) := fun g hg => by
    have := segFaceMass g hg (2 * 1)
    simp only [segFaces, List.mem_cons, List.not_mem_nil, or_false] at hg
    rcases hg with rfl | rfl <;> exact this
  let a : Nat → ℚ := fun i => if i = 0 then -1 / 2 else if i = 1 then 1 else 0
  have ha : (fun x : ℚ => x - 1 / 2) = evalFn (segCell.basis 2) a := by
    funext x
    simp [evalFn, segCell, lineBasis, sum_range_succ, a]
    ring
  have hu : IsInterp segPoly 1 (uniform 1 segFaces) (evalFn (segCell.basis 2) a) v := by
    have := seg_interp a
    rwa [← ha] at this ⊢
  have hR : ∀ j < 2, app 4 L.1 v j = a (j + 1) :=
    HhoLaplacian.c82_consistency segPoly (exactSolver ℚ) (tens := none) trivial (rd := 2) (cd := 1) (fd := 1) (by omega)
      (by omega) (by omega) (by omega) (by omega) segGreen segNonsing hu
  have hG : ∀ x c, evalGradTail (segCell.basis 2) (app 4 L.1 v) x c = 1 := by
    intro x c
    change ∑ j ∈ range 2, _ = _
    rw [sum_range_succ, sum_range_succ, range_zero, sum_empty, hR 0 (by omega), hR 1 (by omega)]
    simp [a, segCell, lineBasis]
  have h1 : form 4 A v v = 1 := by
    have e1 : form 4 A v v = form 4 L.2 v v :=
      HhoStab.c85_local_energy segPoly (exactSolver ℚ) hF (tens := none) trivial (rd := 2) (cd := 1) (fd := 1) (by omega)
        (by omega) (by omega) (by omega) (by omega) (by omega) segGreen segNonsing segMass hmF hu v
    have e2 := (HhoLaplacian.c82_energy (d := 1) (cell := segCell) (faces := segFaces) (exactSolver ℚ) (tens := none) trivial
      false (segCell.basis 2) 2 1 1 4 segNonsing v v).1
    rw [e1]
    refine e2.trans ?_
    have : ∀ x : ℚ, dot 1 (fluxOf 1 none (evalGradTail (segCell.basis 2) (app 4 L.1 v) x))
        (evalGradTail (segCell.basis 2) (app 4 L.1 v) x) = 1 := fun x => by
      simp [dot, fluxOf, hG]
    refine (quad_congr (v := fun _ => 1) fun q _ => this q.pt).trans ?_
    simp [quad, segCell]
    norm_num
  refine ⟨h1, ?_⟩
  have hf := (c178_form (d := 1) (cell := segCell) (faces := segB) 2 1 1 segB_size L.1 A b g 1 v v).1
  refine hf.trans ?_
  rw [show form ((segCell.basis 1).size + facesDofs (uniform 1 (segB.map BFace.toFace))) A v v = 1 from h1]
  obtain ⟨-, f0, f1, -⟩ := hu
  have v2 : v 2 = -1 / 2 := by
    have := f0 0 (by simp [endPoint])
    simpa [segPoly, quadLin, quad, endPoint, evalFn, segCell, lineBasis, sum_range_succ, a, seg, segFaces] using this
  have v3 : v 3 = 1 / 2 := by
    have := f1 0 (by simp [endPoint])
    simp [segPoly, quadLin, quad, endPoint, evalFn, segCell, lineBasis, sum_range_succ, a, seg] at this
    rw [this]; norm_num
  have hD : ∀ (m : Nat → ℚ) x, normalD 1 (segCell.basis 2) (app ((segCell.basis 1).size +
      facesDofs (uniform 1 (segB.map BFace.toFace))) L.1 v) m x = m 0 := by
    intro m x
    change dot 1 (evalGradTail (segCell.basis 2) (app 4 L.1 v) x) m = _
    simp [dot, hG]
  simp only [hD]
  simp only [bndSum, segB]
  simp [quad, endPoint, evalFn, seg, segCell, lineBasis, v2, v3]
  norm_num

/-- Consistency on the segment: the hypotheses hold for every quadratic polynomial. -/
example (a : Nat → ℚ) (A : Mat ℚ) (b : Nat → ℚ) (pen : ℚ) (v : Nat → ℚ) :=
  c178_consistent (faces := segB) segPoly (exactSolver ℚ) (rd := 2) (cd := 1) (fd := 1) segB_size (by omega) (by omega)
    (by omega) (by omega) (by omega) segGreen segNonsing (seg_interp a) A b pen v

/-- On the segment the trace constant is six: with the energy of the reconstruction and a penalization of at least
six the form is non-negative on all unknowns. -/
example (b : Nat → ℚ) (g : ℚ → ℚ) (v : Nat → ℚ) :
    let L := laplacian 1 none false (exactSolver ℚ) 2 1 1 segCell segFaces
    0 ≤ form 4 (Nitsche.apply 1 2 1 1 4 segCell segB L.1 L.2 b g 6).1 v v := by
  intro L
  have e2 := (HhoLaplacian.c82_energy (d := 1) (cell := segCell) (faces := segFaces) (exactSolver ℚ) (tens := none) trivial
    false (segCell.basis 2) 2 1 1 4 segNonsing v v).1
  set r0 := app 4 L.1 v 0 with hr0
  set r1 := app 4 L.1 v 1 with hr1
  have hG : ∀ x c, evalGradTail (segCell.basis 2) (app 4 L.1 v) x c = r0 + 2 * r1 * x := by
    intro x c
    change ∑ j ∈ range 2, _ = _
    rw [sum_range_succ, sum_range_succ, range_zero, sum_empty, ← hr0, ← hr1]
    simp [segCell, lineBasis]
    ring
  have hE : form 4 L.2 v v = r0 * r0 + 2 * r0 * r1 + 4 / 3 * (r1 * r1) := by
    refine e2.trans ?_
    have : ∀ x : ℚ, dot 1 (fluxOf 1 none (evalGradTail (segCell.basis 2) (app 4 L.1 v) x))
        (evalGradTail (segCell.basis 2) (app 4 L.1 v) x) = (r0 + 2 * r1 * x) * (r0 + 2 * r1 * x) := fun x => by
      simp [dot, fluxOf, hG]
    refine (quad_congr (v := fun x => (r0 + 2 * r1 * x) * (r0 + 2 * r1 * x)) fun q _ => this q.pt).trans ?_
    simp [quad, segCell]
    ring
  have hD : ∀ (m : Nat → ℚ) x, normalD 1 (segCell.basis 2) (app ((segCell.basis 1).size +
      facesDofs (uniform 1 (segB.map BFace.toFace))) L.1 v) m x = (r0 + 2 * r1 * x) * m 0 := by
    intro m x
    change dot 1 (evalGradTail (segCell.basis 2) (app 4 L.1 v) x) m = _
    simp [dot, hG]
  refine (c178_positive_partial (d := 1) (cell := segCell) (faces := segB) 2 1 1 segB_size L.1 L.2 b g (pen := 6) (c := 6)
    (E := r0 * r0 + 2 * r0 * r1 + 4 / 3 * (r1 * r1)) (by norm_num) le_rfl (fun f hf => by
      simp only [segB, List.mem_cons, List.not_mem_nil, or_false] at hf
      rcases hf with rfl | rfl <;> norm_num)
    (fun f hf q hq => by
      simp only [segB, List.mem_cons, List.not_mem_nil, or_false] at hf
      rcases hf with rfl | rfl <;> (simp [endPoint] at hq; rw [hq]; norm_num)) v hE.ge
    (by nlinarith [mul_self_nonneg (r0 + r1), mul_self_nonneg r1]) ?_).2
  simp only [hD]
  simp only [bndSum, segB]
  simp [quad, endPoint]
  nlinarith [mul_self_nonneg (r0 + r1), mul_self_nonneg r1]

end Verif.Props.Nitsche
