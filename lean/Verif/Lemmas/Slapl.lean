import Verif.Model.Slapl
import Verif.Lemmas.HhoStab
import Verif.Lemmas.HhoExample
/-!
Helper lemmas for the HHO operators of the new interface.
-/
namespace Verif.Lemmas.Slapl
open Finset Verif.Hho Verif.Slapl Verif.Spec.Hho Verif.Lemmas.Hho LocalMatrix

variable {K P : Type} [Field K] {d N : Nat} {cell : Elem P K} {faces : List (Face P K)}

theorem gradDegree_eq (k : Nat) : gradDegree k = k - 1 := by
  unfold gradDegree
  split <;> omega

theorem integrateTT_eq (e : Elem P K) (kt : Nat) (a : P → Nat → K) (ks : Nat) (b : P → Nat → K) (i j : Nat) :
    integrateTT e kt a ks b i j = quad (e.integrate (kt + ks)) fun x => b x i * a x j := accum_eq ..

theorem integrateTT_mass (e : Elem P K) (k : Nat) (b : Basis P K) : integrateTT e k b.fn k b.fn = mass e k b := by
  unfold integrateTT mass
  rw [Nat.two_mul]

theorem gradGrad_eq (d : Nat) (e : Elem P K) (k i j : Nat) :
    gradGrad d e k i j = quad (e.integrate (2 * (k - 1))) fun x => dot d ((e.basis k).grad x i) ((e.basis k).grad x j) := by
  unfold gradGrad
  rw [accumDot_eq, gradDegree_eq, ← Nat.two_mul]

theorem operLhs_eq (d : Nat) (di : DegreeInfo) (cell : Elem P K) :
    operLhs d di cell = lapLhs d none (cell.basis di.reco) di.reco cell := by
  funext i j
  unfold operLhs block lapLhs
  rw [gradGrad_eq, accumDot_eq, Nat.add_comm 1 i, Nat.add_comm 1 j]
  rfl

/-- The blocks `integrate(fc, phi, grad(phiR).dot(n)).block(1, 0, ...)`. -/
theorem app_dn (e : Elem P K) (rb b : Basis P K) (n : Nat → K) (k rd : Nat) (u : Nat → K) (i : Nat) :
    app b.size (block (integrateTT e k b.fn rd (gradDotN d rb n)) 1 0) u i =
      quad (e.integrate (k + rd)) fun x => fluxN d none rb n x i * evalFn b u x := by
  refine app_eval fun j _ => ?_
  unfold block
  rw [integrateTT_eq, Nat.zero_add, Nat.add_comm 1 i]
  rfl

theorem app_operFaces (di : DegreeInfo) (cell : Elem P K) {n : Nat} (hc : (cell.basis di.cell).size ≤ n) (u : Nat → K)
    {i : Nat} (hi : i < (cell.basis di.reco).size - 1) (fs : List (Face P K)) (off : Nat) (M : Mat K)
    (ho : off + facesDofs (uniform di.face fs) ≤ n) :
    app n (operFaces d di cell fs off M) u i = app n M u i +
      faceSum (fun f k o =>
        quad (f.integrate (k + di.reco)) (fun x => fluxN d none (cell.basis di.reco) f.normal x i *
          evalFn (f.basis k) (seg o u) x) -
        quad (f.integrate (di.cell + di.reco)) (fun x => fluxN d none (cell.basis di.reco) f.normal x i *
          evalFn (cell.basis di.cell) u x)) (uniform di.face fs) off := by
  induction fs generalizing off M with
  | nil => simp [operFaces, uniform, faceSum]
  | cons f fs ih =>
    rw [uniform_cons, facesDofs_cons] at ho
    rw [operFaces, ih _ _ (by omega), uniform_cons, faceSum]
    unfold operFace
    simp only
    rw [app_subBlock (by omega), app_addBlock (by omega), if_pos (by omega), if_pos (by omega), Nat.sub_zero, seg_zero,
      app_dn, app_dn]
    ring

/-- `rhs` applied to unknowns. -/
theorem app_operRhs (hnest : Nested cell) (di : DegreeInfo) (hcd : di.cell ≤ di.reco) (u : Nat → K) {i : Nat}
    (hi : i + 1 < (cell.basis di.reco).size) :
    app ((cell.basis di.cell).size + facesDofs (uniform di.face faces)) (operRhs d di cell faces) u i =
      quad (cell.integrate (2 * (di.reco - 1))) (fun x => dot d (rflux d none (cell.basis di.reco) x i)
        (evalGrad (cell.basis di.cell) u x)) +
      faceSum (fun f k o =>
        quad (f.integrate (k + di.reco)) (fun x => fluxN d none (cell.basis di.reco) f.normal x i *
          evalFn (f.basis k) (seg o u) x) -
        quad (f.integrate (di.cell + di.reco)) (fun x => fluxN d none (cell.basis di.reco) f.normal x i *
          evalFn (cell.basis di.cell) u x)) (uniform di.face faces) (cell.basis di.cell).size := by
  obtain ⟨hsz, hb⟩ := hnest di.cell di.reco hcd
  unfold operRhs
  simp only
  rw [app_operFaces di cell (by omega) u (by omega) _ _ _ (le_refl _)]
  congr 1
  have e : ∀ j < (cell.basis di.cell).size + facesDofs (uniform di.face faces),
      setBlock zero 0 0 ((cell.basis di.reco).size - 1) (cell.basis di.cell).size
        (block (gradGrad d cell di.reco) 1 0) i j =
      addBlock zero 0 0 ((cell.basis di.reco).size - 1) (cell.basis di.cell).size
        (block (gradGrad d cell di.reco) 1 0) i j := by
    intro j _
    unfold setBlock addBlock zero
    split_ifs <;> simp
  rw [app_congr e fun _ _ => rfl, app_addBlock (by omega), app_zero, if_pos (by omega), seg_zero, zero_add, Nat.sub_zero]
  unfold app evalGrad block
  simp only [gradGrad_eq, dot_sum]
  rw [quad_sum]
  refine sum_congr rfl fun j hj => ?_
  rw [quad_mul, mul_comm, Nat.zero_add, Nat.add_comm 1 i]
  congr 2
  funext x
  rw [(hb j (mem_range.1 hj) x).2]
  rfl

/-- The matrix `R` of `local_operator`. -/
def operMat (d : Nat) (S : Solver K) (di : DegreeInfo) (cell : Elem P K) (faces : List (Face P K)) : Mat K :=
  S.solveMat ((cell.basis di.reco).size - 1) (operLhs d di cell) (operRhs d di cell faces)

/-- The matrix `A` of `local_operator`. -/
def operData' (d : Nat) (S : Solver K) (di : DegreeInfo) (cell : Elem P K) (faces : List (Face P K)) : Mat K :=
  mul ((cell.basis di.reco).size - 1) (tpose (operRhs d di cell faces)) (operMat d S di cell faces)

theorem localOperator_ok (S : Solver K) {di : DegreeInfo} (h0 : 0 < (cell.basis di.reco).size)
    (h : (cell.basis di.cell).size ≤ (cell.basis di.reco).size) :
    localOperator d S di cell faces = .ok (operMat d S di cell faces, operData' d S di cell faces) := by
  unfold localOperator
  simp only
  rw [if_neg (by omega), if_neg (by omega)]
  rfl

theorem app_operMat (S : Solver K) {di : DegreeInfo} (n : Nat)
    (hn : Nonsing ((cell.basis di.reco).size - 1) (lapLhs d none (cell.basis di.reco) di.reco cell)) (u : Nat → K)
    {i : Nat} (hi : i < (cell.basis di.reco).size - 1) :
    app ((cell.basis di.reco).size - 1) (lapLhs d none (cell.basis di.reco) di.reco cell)
        (app n (operMat d S di cell faces) u) i = app n (operRhs d di cell faces) u i := by
  unfold operMat
  rw [operLhs_eq]
  exact app_solveMat S (lapLhs_sym (tens := none) trivial _ _ _) hn u hi

/-- The matrix `A` is the energy form of the reconstruction. -/
theorem form_operData (S : Solver K) {di : DegreeInfo} (n : Nat)
    (hn : Nonsing ((cell.basis di.reco).size - 1) (lapLhs d none (cell.basis di.reco) di.reco cell)) (v u : Nat → K) :
    form n (operData' d S di cell faces) v u =
      quad (cell.integrate (2 * (di.reco - 1))) fun x =>
        dot d (evalGradTail (cell.basis di.reco) (app n (operMat d S di cell faces) v) x)
          (evalGradTail (cell.basis di.reco) (app n (operMat d S di cell faces) u) x) := by
  unfold operData'
  rw [form_mul_trans]
  have e : ∀ k ∈ range ((cell.basis di.reco).size - 1),
      app n (operRhs d di cell faces) v k * app n (operMat d S di cell faces) u k =
      app n (operMat d S di cell faces) u k * quad (cell.integrate (2 * (di.reco - 1))) fun x =>
        dot d (rflux d none (cell.basis di.reco) x k)
          (evalGradTail (cell.basis di.reco) (app n (operMat d S di cell faces) v) x) := by
    intro k hk
    rw [← app_operMat S n hn v (mem_range.1 hk), app_lapLhs, mul_comm]
  rw [sum_congr rfl e]
  simp only [← quad_mul]
  rw [← quad_sum]
  refine quad_congr fun q _ => ?_
  rw [dot_comm d (evalGradTail _ _ _)]
  unfold evalGradTail
  rw [dot_comm, dot_sum]
  refine sum_congr rfl fun k _ => ?_
  rw [dot_comm]
  rfl

/-! ### Stabilizations -/

theorem faceSum_mul (a : K) (g : Face P K → Nat → Nat → K) (fcs : List (InfoFace P K)) (off : Nat) :
    faceSum (fun f k o => a * g f k o) fcs off = a * faceSum g fcs off := by
  induction fcs generalizing off with
  | nil => simp [faceSum]
  | cons b fs ih =>
    obtain ⟨f, _ | k⟩ := b
    · exact ih off
    · simp only [faceSum, ih, mul_add]

theorem penalty_eq (s : K) (fbs : Nat) (m B : Mat K) : penalty s fbs m B = scaleMat s (mul fbs (mul fbs (tpose B) m) B) := by
  funext i j
  unfold penalty scaleMat mul
  simp only [mul_sum, sum_mul]
  exact sum_congr rfl fun a _ => sum_congr rfl fun b _ => by ring

theorem form_scaleMat (n : Nat) (s : K) (A : Mat K) (v u : Nat → K) : form n (scaleMat s A) v u = s * form n A v u := by
  simp only [form, app, scaleMat, mul_sum]
  exact sum_congr rfl fun _ _ => sum_congr rfl fun _ _ => by ring

theorem app_scaleMat (n : Nat) (s : K) (A : Mat K) (u : Nat → K) (i : Nat) :
    app n (scaleMat s A) u i = s * app n A u i := by
  simp only [app, scaleMat, mul_sum]
  exact sum_congr rfl fun _ _ => by ring

theorem form_penalty (n : Nat) (s : K) (e : Elem P K) (k : Nat) (b : Basis P K) (B : Mat K) (v u : Nat → K) :
    form n (penalty s b.size (mass e k b) B) v u =
      s * quad (e.integrate (2 * k)) (fun x => evalFn b (app n B v) x * evalFn b (app n B u) x) := by
  have := form_brfTerm n e k b B 1 v u
  unfold brfTerm at this
  rw [form_divMat, div_one, div_one] at this
  rw [penalty_eq, form_scaleMat, this]

theorem app_penalty_zero {n fbs : Nat} {s : K} {m B : Mat K} {u : Nat → K} (hz : ∀ i < fbs, app n B u i = 0) (r : Nat) :
    app n (penalty s fbs m B) u r = 0 := by
  rw [penalty_eq, app_scaleMat]
  have := app_brfTerm_zero (m := m) (h := 1) hz r
  unfold brfTerm at this
  rw [app_divMat, div_one] at this
  rw [this, mul_zero]

theorem stabP1_eq (S : Solver K) (di : DegreeInfo) (cell : Elem P K) (R : Mat K) :
    stabP1 S di cell R = proj1 S (cell.basis di.cell).size ((cell.basis di.reco).size - 1)
      (mass cell di.cell (cell.basis di.cell))
      (block (integrateTT cell di.reco (cell.basis di.reco).fn di.cell (cell.basis di.cell).fn) 0 1) R := by
  unfold stabP1 proj1
  simp only
  rw [integrateTT_mass]

theorem stabRhs_eq (S : Solver K) (di : DegreeInfo) (cell : Elem P K) (R P1 : Mat K) (fc : Face P K) (off : Nat) :
    stabRhs S di cell R P1 fc off = brf S (fc.basis di.face).size (cell.basis di.cell).size
      ((cell.basis di.reco).size - 1) off (mass fc.toElem di.face (fc.basis di.face))
      (block (integrateTT fc.toElem di.reco (cell.basis di.reco).fn di.face (fc.basis di.face).fn) 0 1)
      (integrateTT fc.toElem di.cell (cell.basis di.cell).fn di.face (fc.basis di.face).fn) R P1 := by
  unfold stabRhs brf
  simp only
  rw [integrateTT_mass]
  funext i j
  simp only [addMat]
  ring

theorem form_stabFaces (S : Solver K) (di : DegreeInfo) (n : Nat) (R P1 : Mat K) (fs : List (Face P K)) (off : Nat)
    (M : Mat K) (v u : Nat → K) :
    form n (stabFaces S di cell R P1 fs off M) v u = form n M v u +
      faceSum (fun f k o => 1 / cell.diam * quad (f.integrate (2 * k)) (fun x =>
        evalFn (f.basis k) (app n (stabRhs S di cell R P1 f o) v) x *
        evalFn (f.basis k) (app n (stabRhs S di cell R P1 f o) u) x)) (uniform di.face fs) off := by
  induction fs generalizing off M with
  | nil => simp [stabFaces, uniform, faceSum]
  | cons f fs ih =>
    rw [stabFaces, ih, uniform_cons, faceSum, form_addMat, integrateTT_mass, form_penalty, add_assoc]

theorem app_stabFaces_zero (S : Solver K) (di : DegreeInfo) (n : Nat) (R P1 : Mat K) (fs : List (Face P K)) (off : Nat)
    (M : Mat K) (u : Nat → K)
    (hz : faceAll (fun f k o => ∀ i < (f.basis k).size, app n (stabRhs S di cell R P1 f o) u i = 0)
      (uniform di.face fs) off) (r : Nat) :
    app n (stabFaces S di cell R P1 fs off M) u r = app n M u r := by
  induction fs generalizing off M with
  | nil => rfl
  | cons f fs ih =>
    rw [uniform_cons] at hz
    rw [stabFaces, ih _ _ hz.2, app_addMat, app_penalty_zero hz.1, add_zero]

theorem cellTrace_exact (C : PolyCell d cell faces N) {rd cd : Nat} (hrc : rd + cd ≤ N) {i j : Nat}
    (hi : i < (cell.basis cd).size) (hj : j + 1 < (cell.basis rd).size) :
    block (integrateTT cell rd (cell.basis rd).fn cd (cell.basis cd).fn) 0 1 i j =
      C.IT fun x => (cell.basis cd).fn x i * (cell.basis rd).fn x (j + 1) := by
  unfold block
  rw [integrateTT_eq, Nat.zero_add, Nat.add_comm 1 j]
  exact cell_quad C (n := cd + rd) (by omega) hrc (mul_mem' C (C.cell_mem cd i hi) (C.cell_mem rd (j + 1) hj))

theorem cellMass_exact (C : PolyCell d cell faces N) {cd : Nat} (hcd : 2 * cd ≤ N) {i j : Nat}
    (hi : i < (cell.basis cd).size) (hj : j < (cell.basis cd).size) :
    mass cell cd (cell.basis cd) i j = C.IT fun x => (cell.basis cd).fn x i * (cell.basis cd).fn x j := by
  rw [mass_eq]
  exact cell_quad C (n := cd + cd) (by omega) hcd (mul_mem' C (C.cell_mem cd i hi) (C.cell_mem cd j hj))

/-- The projection on the cell used by `local_stabilization`. -/
theorem stab_cellProj (C : PolyCell d cell faces N) (S : Solver K) {di : DegreeInfo} (hcd : 2 * di.cell ≤ N)
    (hrc : di.reco + di.cell ≤ N) (hmT : Nonsing (cell.basis di.cell).size (mass cell di.cell (cell.basis di.cell)))
    (R : Mat K) (n : Nat) (u : Nat → K) :
    IsCellProj C di.cell (evalTail (cell.basis di.reco) (app n R u))
      (app n (S.solveMat (cell.basis di.cell).size (mass cell di.cell (cell.basis di.cell))
        (mul ((cell.basis di.reco).size - 1)
          (block (integrateTT cell di.reco (cell.basis di.reco).fn di.cell (cell.basis di.cell).fn) 0 1) R)) u) :=
  cellProj_exact C S R (fun _ _ hi hj => cellMass_exact C hcd hi hj) (fun _ _ hi hj => cellTrace_exact C hrc hi hj)
    (mass_sym cell di.cell _ (cell.basis di.cell)) hmT u

/-- The projection on a face that `local_stabilization` penalizes. -/
theorem stab_faceProj (C : PolyCell d cell faces N) (S : Solver K) {di : DegreeInfo} {f : Face P K} (hf : f ∈ faces)
    (hN : 2 * di.face ≤ N) (hNr : di.reco + di.face ≤ N) (hNc : di.cell + di.face ≤ N)
    (hm : Nonsing (f.basis di.face).size (mass f.toElem di.face (f.basis di.face))) (R P1 : Mat K) {n off : Nat}
    (ho : off + (f.basis di.face).size ≤ n) (u : Nat → K) :
    IsFaceProj C f di.face (fun x => evalTail (cell.basis di.reco) (app n R u) x -
        evalFn (f.basis di.face) (seg off u) x + evalFn (cell.basis di.cell) (app n P1 u) x)
      (app n (stabRhs S di cell R P1 f off) u) := by
  rw [stabRhs_eq]
  refine faceProj_exact C S hf hN hm ho R P1 ?_ ?_ u
  · intro i j hi hj
    unfold block
    rw [integrateTT_eq, Nat.zero_add, Nat.add_comm 1 j]
    exact face_quad C hf (n := di.face + di.reco) (by omega) hNr
      (OnV.mul C (OnV.fb C hf hi) (OnV.of_mem C (C.cell_mem di.reco _ hj)))
  · intro i j hi hj
    rw [integrateTT_eq]
    exact face_quad C hf (n := di.face + di.cell) (by omega) hNc
      (OnV.mul C (OnV.fb C hf hi) (OnV.of_mem C (C.cell_mem di.cell _ hj)))

/-- What `local_stabilization_hdg` penalizes on a face: the opposite of the difference of the old interface. -/
theorem app_hdgRhs (S : Solver K) {di : DegreeInfo} {fc : Face P K} {n off : Nat} (ho : off + (fc.basis di.face).size ≤ n)
    (hc : (cell.basis di.cell).size ≤ off) (u : Nat → K) {i : Nat} (hi : i < (fc.basis di.face).size) :
    app n (hdgRhs S di cell fc off) u i = -hdgDelta S di.cell di.face cell fc off u i := by
  unfold hdgRhs
  simp only
  have e : ∀ j < n, setBlock (setBlock zero 0 0 (fc.basis di.face).size (cell.basis di.cell).size
      (negMat (S.solveMat (fc.basis di.face).size (integrateTT fc.toElem di.face (fc.basis di.face).fn di.face
        (fc.basis di.face).fn) (integrateTT fc.toElem di.cell (cell.basis di.cell).fn di.face (fc.basis di.face).fn))))
      0 off (fc.basis di.face).size (fc.basis di.face).size ident i j =
      addBlock (addBlock zero 0 0 (fc.basis di.face).size (cell.basis di.cell).size
      (negMat (S.solveMat (fc.basis di.face).size (integrateTT fc.toElem di.face (fc.basis di.face).fn di.face
        (fc.basis di.face).fn) (integrateTT fc.toElem di.cell (cell.basis di.cell).fn di.face (fc.basis di.face).fn))))
      0 off (fc.basis di.face).size (fc.basis di.face).size ident i j := by
    intro j _
    unfold setBlock addBlock zero
    split_ifs <;> first | omega | simp
  rw [app_congr e fun _ _ => rfl, app_addBlock ho, app_addBlock (by omega), app_zero, if_pos (by omega),
    if_pos (by omega), Nat.sub_zero, seg_zero, app_negMat, app_ident hi, integrateTT_mass]
  unfold hdgDelta traceMat integrateTT
  rw [Nat.add_comm di.face di.cell]
  simp only [seg]
  ring

theorem form_hdgFaces' (S : Solver K) (di : DegreeInfo) {n : Nat} (fs : List (Face P K)) (off : Nat) (M : Mat K)
    (ho : off + facesDofs (uniform di.face fs) ≤ n) (hc : (cell.basis di.cell).size ≤ off) (v u : Nat → K) :
    form n (Slapl.hdgFaces S di cell fs off M) v u = form n M v u +
      faceSum (fun f k o => quad (f.integrate (2 * k)) (fun x =>
        evalFn (f.basis k) (hdgDelta S di.cell k cell f o v) x *
        evalFn (f.basis k) (hdgDelta S di.cell k cell f o u) x)) (uniform di.face fs) off := by
  induction fs generalizing off M with
  | nil => simp [Slapl.hdgFaces, uniform, faceSum]
  | cons f fs ih =>
    rw [uniform_cons, facesDofs_cons] at ho
    rw [Slapl.hdgFaces, ih _ _ (by omega) (by omega), uniform_cons, faceSum, form_addMat, integrateTT_mass, form_penalty,
      one_mul, add_assoc]
    congr 2
    refine quad_congr fun q _ => ?_
    have e : ∀ w : Nat → K, evalFn (f.basis di.face) (app n (hdgRhs S di cell f off) w) q.pt =
        -evalFn (f.basis di.face) (hdgDelta S di.cell di.face cell f off w) q.pt := by
      intro w
      rw [evalFn_congr fun j hj => app_hdgRhs S (by omega) hc w hj]
      simp only [evalFn, neg_mul, sum_neg_distrib]
    rw [e, e, neg_mul_neg]

/-! ### Reduction -/

theorem integrateFn_eq (e : Elem P K) (k : Nat) (f : P → K) (i : Nat) :
    integrateFn e k f i = quad (e.integrate (2 * k + 1)) fun x => (e.basis k).fn x i * f x := by
  have h : ∀ (qs : List (QP P K)) (v : Nat → K),
      (qs.foldl (fun v q => fun i => v i + q.w * ((e.basis k).fn q.pt i * f q.pt)) v) i =
        v i + quad qs fun x => (e.basis k).fn x i * f x := by
    intro qs
    induction qs with
    | nil => intro M; simp [quad]
    | cons q qs ih => intro M; rw [List.foldl_cons, ih, quad_cons]; ring
  unfold integrateFn
  rw [h]
  simp

theorem l2Project_spec (S : Solver K) (e : Elem P K) (k : Nat) (f : P → K)
    (hm : Nonsing (e.basis k).size (mass e k (e.basis k))) {i : Nat} (hi : i < (e.basis k).size) :
    quad (e.integrate (2 * k)) (fun x => (e.basis k).fn x i * evalFn (e.basis k) (l2Project S e k f) x) =
      quad (e.integrate (2 * k + 1)) fun x => (e.basis k).fn x i * f x := by
  have := S.solves (e.basis k).size (mass e k (e.basis k)) (integrateFn e k f) (mass_sym _ _ _ _) hm i hi
  rw [integrateFn_eq] at this
  rw [← this]
  unfold l2Project
  rw [integrateTT_mass]
  exact (app_eval fun j _ => mass_eq ..).symm

theorem reductionFaces_lt (S : Solver K) (fd : Nat) (f : P → K) (fs : List (Face P K)) (off : Nat) (ret : Nat → K)
    {k : Nat} (hk : k < off) : reductionFaces S fd f fs off ret k = ret k := by
  induction fs generalizing off ret with
  | nil => rfl
  | cons g fs ih => rw [reductionFaces, ih _ _ (by omega), setSegment, if_neg (by omega)]

theorem reductionFaces_all (S : Solver K) (fd : Nat) (f : P → K) (fs : List (Face P K)) (off : Nat) (ret : Nat → K) :
    faceAll (fun g k o => ∀ j < (g.basis k).size,
      reductionFaces S fd f fs off ret (o + j) = l2Project S g.toElem k f j) (uniform fd fs) off := by
  induction fs generalizing off ret with
  | nil => trivial
  | cons g fs ih =>
    rw [uniform_cons]
    constructor
    · intro j hj
      rw [reductionFaces, reductionFaces_lt _ _ _ _ _ _ (by omega), setSegment, if_pos (by omega)]
      congr 1
      omega
    · exact ih _ _

theorem localReduction_cell (S : Solver K) (di : DegreeInfo) (cell : Elem P K) (faces : List (Face P K)) (f : P → K)
    {j : Nat} (hj : j < (cell.basis di.cell).size) :
    localReduction S di cell faces f j = l2Project S cell di.cell f j := by
  unfold localReduction
  rw [reductionFaces_lt _ _ _ _ _ _ hj, setSegment, if_pos (by omega), Nat.sub_zero]

/-- `local_reduction` stores the projections of a polynomial of degree at most one more than that of the unknowns. -/
theorem localReduction_isInterp (C : PolyCell d cell faces N) (S : Solver K) {di : DegreeInfo} {rd : Nat}
    (hmT : Nonsing (cell.basis di.cell).size (mass cell di.cell (cell.basis di.cell)))
    (hmF : ∀ g ∈ faces, Nonsing (g.basis di.face).size (mass g.toElem di.face (g.basis di.face)))
    (hd1 : rd ≤ di.cell + 1) (hd2 : rd ≤ di.face + 1) (hN1 : 2 * di.cell + 1 ≤ N) (hN2 : 2 * di.face + 1 ≤ N)
    {p : P → K} (hp : p ∈ C.V rd) :
    IsInterp C di.cell (uniform di.face faces) p (localReduction S di cell faces p) := by
  constructor
  · intro i hi
    have h1 := l2Project_spec S cell di.cell p hmT hi
    rw [cell_quad C (n := di.cell + di.cell) (by omega) (by omega)
        (mul_mem' C (C.cell_mem di.cell i hi) (evalFn_mem C di.cell _)),
      cell_quad C (n := di.cell + rd) (by omega) (by omega) (mul_mem' C (C.cell_mem di.cell i hi) hp)] at h1
    rw [← h1]
    congr 1
    funext x
    congr 1
    exact evalFn_congr (fun j hj => localReduction_cell S di cell faces p hj) x
  · refine faceAll_mono (fun f k off hm hj i hi => ?_) (reductionFaces_all S di.face p faces (cell.basis di.cell).size
      (setSegment (fun _ => 0) 0 (cell.basis di.cell).size (l2Project S cell di.cell p)))
    obtain ⟨hf, rfl⟩ := mem_uniform hm
    have h1 := l2Project_spec S f.toElem di.face p (hmF f hf) hi
    rw [face_quad C hf (n := di.face + di.face) (by omega) (by omega)
        (OnV.mul C (OnV.fb C hf hi) (OnV.evalFb C hf di.face _)),
      face_quad C hf (n := di.face + rd) (by omega) (by omega) (OnV.mul C (OnV.fb C hf hi) (OnV.of_mem C hp))] at h1
    rw [← h1]
    congr 1
    funext x
    congr 1
    exact evalFn_congr (fun j hj' => hj j hj') x

/-! ### A segment with rules of the requested degree -/

/-- The segment `[0, 1]` with the midpoint rule for degrees up to one, Boole's rule above. -/
def midCell (h : ℚ) : Elem ℚ ℚ :=
  ⟨lineBasis, fun n => if n ≤ 1 then [⟨1 / 2, 1⟩] else segCell.integrate n, h⟩

/-- Its polynomial spaces. -/
def midPoly (h : ℚ) : PolyCell 1 (midCell h) segFaces 5 where
  V := segPoly.V
  mono := segPoly.mono
  mul := segPoly.mul
  IT := segPoly.IT
  IF := segPoly.IF
  on := segPoly.on
  cell_exact n hn v hv := by
    by_cases h1 : n ≤ 1
    · obtain ⟨c, hc⟩ := segPoly.cell_span 1 v (segPoly.mono h1 hv)
      obtain rfl : v = _ := funext hc
      simp [midCell, h1, quad, segPoly, quadLin, segCell, evalFn, lineBasis, sum_range_succ]
      ring
    · simp only [midCell, if_neg h1]
      exact segPoly.cell_exact n hn v hv
  cell_mem := segPoly.cell_mem
  cell_span := segPoly.cell_span
  cell_pos := segPoly.cell_pos
  cell_one := segPoly.cell_one
  grad_mem := segPoly.grad_mem
  grad_one := segPoly.grad_one
  face_pts := segPoly.face_pts
  face_congr := segPoly.face_congr
  face_exact := segPoly.face_exact
  face_mem := segPoly.face_mem
  face_span := segPoly.face_span

theorem midNested (h : ℚ) : Nested (midCell h) := segNested

theorem midLhs (h : ℚ) : lapLhs 1 none ((midCell h).basis 2) 2 (midCell h) = lapLhs 1 none (segCell.basis 2) 2 segCell := by
  rfl

theorem midNonsing (h : ℚ) : Nonsing 2 (lapLhs 1 none ((midCell h).basis 2) 2 (midCell h)) := segNonsing

theorem midMass (h : ℚ) : Nonsing 1 (mass (midCell h) 0 ((midCell h).basis 0)) := by
  intro x hx j hj
  have h0 := hx 0 (by omega)
  obtain rfl : j = 0 := by omega
  simpa [mass_eq, quad, midCell, lineBasis] using h0

theorem midMass1 (h : ℚ) : Nonsing 2 (mass (midCell h) 1 ((midCell h).basis 1)) := segMass

theorem segFaceMass' : ∀ g ∈ segFaces, Nonsing (g.basis 1).size (mass g.toElem 1 (g.basis 1)) := by
  intro g hg
  have := segFaceMass g hg (2 * 1)
  simp only [segFaces, List.mem_cons, List.not_mem_nil, or_false] at hg
  rcases hg with rfl | rfl <;> exact this

/-- Green's formula for quadratic reconstruction and linear cell unknowns. -/
theorem midGreen1 (h : ℚ) : Green (midPoly h) none 2 1 := segGreen

/-- Green's formula for quadratic reconstruction and constant cell unknowns. -/
theorem midGreen (h : ℚ) : Green (midPoly h) none 2 0 := by
  intro i hi
  have hi : i < 2 := by
    have : i + 1 < 2 + 1 := hi
    omega
  refine ⟨fun _ => (i * (i + 1) : ℚ), ⟨Polynomial.C (i * (i + 1) : ℚ), (Polynomial.natDegree_C _).le, fun x => by simp⟩,
    fun k hk j hj => ?_⟩
  have hj : j < 3 := by
    rcases hk with rfl | rfl <;> simp [midCell, lineBasis] at hj <;> omega
  have hk' : ((midCell h).basis k).fn = fun x i => x ^ i := rfl
  have hk'' : ((midCell h).basis k).grad = fun x (i : Nat) _ => (i : ℚ) * x ^ (i - 1) := rfl
  rw [hk', hk'']
  interval_cases i <;> interval_cases j <;>
    simp [midPoly, segPoly, quadLin, quad, midCell, segCell, segFaces, endPoint, lineBasis, rflux, flux, fluxN, tailRows,
      dot] <;> norm_num

end Verif.Lemmas.Slapl
