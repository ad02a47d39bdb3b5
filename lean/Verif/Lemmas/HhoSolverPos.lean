import Mathlib.Tactic.Linarith
import Mathlib.Tactic.FieldSimp
import Verif.Lemmas.HhoSolverCell
/-!
The local matrix of the HHO diffusion solver is positive semidefinite; its kernel are the constants.
-/
namespace Verif.Lemmas.HhoSolver
open Finset Verif.Hho Verif.HhoSolver Verif.Spec.Hho Verif.Spec.HhoSolver Verif.Lemmas.Hho LocalMatrix

variable {K P : Type} [Field K] [LinearOrder K] [IsStrictOrderedRing K] {cfg : Config K} {cell : Elem P K}
  {faces : List (Face P K)} {N : Nat}

theorem form_line (n : Nat) (M : Mat K) (v r : Nat → K) (t : K) (h : form n M v r = form n M r v) :
    form n M (fun i => v i + t * r i) (fun i => v i + t * r i) =
      form n M v v + 2 * t * form n M v r + t * t * form n M r r := by
  have e : ∀ i, app n M (fun i => v i + t * r i) i = app n M v i + t * app n M r i := by
    intro i
    unfold app
    rw [mul_sum, ← sum_add_distrib]
    exact sum_congr rfl fun _ _ => by ring
  have : form n M (fun i => v i + t * r i) (fun i => v i + t * r i) =
      form n M v v + t * form n M v r + t * form n M r v + t * t * form n M r r := by
    unfold form
    simp only [e, mul_sum, ← sum_add_distrib]
    exact sum_congr rfl fun _ _ => by ring
  rw [this, ← h]
  ring

/-- Vectors on which a positive semidefinite form vanishes are in its kernel. -/
theorem psd_kernel {n : Nat} {M : Mat K} (hs : ∀ v u, form n M v u = form n M u v) (hp : ∀ v, 0 ≤ form n M v v)
    {r : Nat → K} (h : form n M r r = 0) : ∀ i < n, app n M r i = 0 := by
  intro i hi
  rw [← form_unit hi]
  by_contra hb
  have := hp fun j => unitVec i j + (-(form n M (unitVec i) (unitVec i) + 1) / (2 * form n M (unitVec i) r)) * r j
  rw [form_line n M _ r _ (hs _ _), h] at this
  have e : 2 * (-(form n M (unitVec i) (unitVec i) + 1) / (2 * form n M (unitVec i) r)) * form n M (unitVec i) r =
      -(form n M (unitVec i) (unitVec i) + 1) := by
    field_simp
  rw [e] at this
  linarith

theorem form_sym_of {n : Nat} {M : Mat K} (h : SymOn n M) (v u : Nat → K) : form n M v u = form n M u v := by
  simp only [form, app, mul_sum]
  rw [sum_comm]
  exact sum_congr rfl fun i hi => sum_congr rfl fun j hj => by
    rw [h j (mem_range.1 hj) i (mem_range.1 hi)]; ring

/-- The energy of a reconstruction. -/
theorem form_lapLhs (r : Nat → K) : form ((cell.basis cfg.rd).size - 1)
      (lapLhs cfg.d (some cfg.tens) (cell.basis cfg.rd) cfg.rd cell) r r =
    quad (cell.integrate (2 * (cfg.rd - 1))) fun x =>
      dot cfg.d (fluxOf cfg.d (some cfg.tens) (evalGradTail (cell.basis cfg.rd) r x))
        (evalGradTail (cell.basis cfg.rd) r x) := by
  have e : ∀ x, dot cfg.d (fluxOf cfg.d (some cfg.tens) (evalGradTail (cell.basis cfg.rd) r x))
        (evalGradTail (cell.basis cfg.rd) r x) = ∑ i ∈ range ((cell.basis cfg.rd).size - 1),
      r i * dot cfg.d (rflux cfg.d (some cfg.tens) (cell.basis cfg.rd) x i) (evalGradTail (cell.basis cfg.rd) r x) := by
    intro x
    exact (flux_sum (d := cfg.d) (tens := some cfg.tens) (range ((cell.basis cfg.rd).size - 1)) r
      (tailRows ((cell.basis cfg.rd).grad x)) (evalGradTail (cell.basis cfg.rd) r x)).symm
  simp only [e]
  rw [quad_sum]
  refine sum_congr rfl fun i _ => ?_
  rw [quad_mul, app_lapLhs]

theorem energy_zero (ht : TensSym cfg.d (some cfg.tens)) (hT : TensNonneg cfg) (hP : Positive cfg cell faces)
    (hn : Nonsing ((cell.basis cfg.rd).size - 1) (lapLhs cfg.d (some cfg.tens) (cell.basis cfg.rd) cfg.rd cell))
    {r : Nat → K} (h : quad (cell.integrate (2 * (cfg.rd - 1))) (fun x =>
      dot cfg.d (fluxOf cfg.d (some cfg.tens) (evalGradTail (cell.basis cfg.rd) r x))
        (evalGradTail (cell.basis cfg.rd) r x)) = 0) : ∀ j < (cell.basis cfg.rd).size - 1, r j = 0 := by
  refine hn r (psd_kernel (form_sym_of (lapLhs_sym ht _ _ _)) (fun v => ?_) (by rw [form_lapLhs]; exact h))
  rw [form_lapLhs]
  exact quad_nonneg hP.weights fun q _ => hT _

variable (C : PolyCell cfg.d cell faces N)

theorem form_faceMass (g : Face P K) (k : Nat) (δ : Nat → K) : form (g.basis k).size (mass g.toElem k (g.basis k)) δ δ =
    quad (g.integrate (2 * k)) fun x => evalFn (g.basis k) δ x * evalFn (g.basis k) δ x := by
  have e : ∀ i, app (g.basis k).size (mass g.toElem k (g.basis k)) δ i =
      quad (g.integrate (2 * k)) fun x => (g.basis k).fn x i * evalFn (g.basis k) δ x := fun i =>
    app_eval fun j _ => mass_eq g.toElem k (g.basis k) i j
  simp only [form, e]
  have : ∀ x, evalFn (g.basis k) δ x * evalFn (g.basis k) δ x = ∑ i ∈ range (g.basis k).size,
      δ i * ((g.basis k).fn x i * evalFn (g.basis k) δ x) := by
    intro x
    conv_lhs => rw [evalFn, sum_mul]
    exact sum_congr rfl fun _ _ => by rw [evalFn]; ring
  simp only [this]
  rw [quad_sum]
  exact sum_congr rfl fun i _ => (quad_mul _ _ _).symm

include C in
/-- Squares on a face are non-negative, and zero only for zero coefficients. -/
theorem face_square (hD : Degrees cfg N) (hP : Positive cfg cell faces) {g : Face P K} (hg : g ∈ faces)
    (hm : Nonsing (g.basis cfg.fd).size (mass g.toElem cfg.fd (g.basis cfg.fd))) (δ : Nat → K) :
    0 ≤ C.IF g (fun x => evalFn (g.basis cfg.fd) δ x * evalFn (g.basis cfg.fd) δ x) ∧
    (C.IF g (fun x => evalFn (g.basis cfg.fd) δ x * evalFn (g.basis cfg.fd) δ x) = 0 →
      ∀ j < (g.basis cfg.fd).size, δ j = 0) := by
  have h2 := hD.exactFace
  have hq : ∀ δ, quad (g.integrate (2 * cfg.fd)) (fun x => evalFn (g.basis cfg.fd) δ x * evalFn (g.basis cfg.fd) δ x) =
      C.IF g (fun x => evalFn (g.basis cfg.fd) δ x * evalFn (g.basis cfg.fd) δ x) := fun δ =>
    face_quad C hg (n := cfg.fd + cfg.fd) (by omega) (by omega) (OnV.mul C (OnV.evalFb C hg _ δ) (OnV.evalFb C hg _ δ))
  have hnn : ∀ δ, 0 ≤ quad (g.integrate (2 * cfg.fd))
      (fun x => evalFn (g.basis cfg.fd) δ x * evalFn (g.basis cfg.fd) δ x) := fun δ =>
    quad_nonneg (hP.faceWeights g hg) fun q _ => mul_self_nonneg _
  refine ⟨by rw [← hq]; exact hnn δ, fun h => ?_⟩
  rw [← hq] at h
  refine hm δ (psd_kernel (form_sym_of (mass_sym _ _ _ _)) (fun v => ?_) (by rw [form_faceMass]; exact h))
  rw [form_faceMass]
  exact hnn v

theorem faceSum_zero {g : Face P K → Nat → Nat → K} {fcs : List (InfoFace P K)} {off : Nat}
    (h : ∀ f k o, (f, some k) ∈ fcs → 0 ≤ g f k o) (hz : faceSum g fcs off = 0) :
    faceAll (fun f k o => g f k o = 0) fcs off := by
  induction fcs generalizing off with
  | nil => trivial
  | cons a fs ih =>
    have h' := fun f k o hm => h f k o (List.mem_cons_of_mem _ hm)
    obtain ⟨f, _ | k⟩ := a
    · exact ih h' hz
    · have h1 := h f k off List.mem_cons_self
      have h2 := faceSum_nonneg (off := off + (f.basis k).size) h'
      simp only [faceSum] at hz
      exact ⟨by linarith, ih h' (by linarith)⟩

/-- The stabilization penalizes a projection of the difference of cell and face unknowns, up to the reconstruction. -/
theorem stab_form (S : Solver K) (hD : Degrees cfg N) (hR : Regular cfg cell faces C) (hP : Positive cfg cell faces)
    (v : Nat → K) :
    0 ≤ form (dofs cfg cell faces) (if cfg.cd > cfg.fd then hdg S true cfg.cd cell (uniform cfg.fd faces)
      else hho S true cfg.rd cfg.cd cfg.fd cell (opOf S cfg cell faces).1 faces) v v ∧
    (form (dofs cfg cell faces) (if cfg.cd > cfg.fd then hdg S true cfg.cd cell (uniform cfg.fd faces)
      else hho S true cfg.rd cfg.cd cfg.fd cell (opOf S cfg cell faces).1 faces) v v = 0 →
      (∀ j < (cell.basis cfg.rd).size - 1, app (dofs cfg cell faces) (opOf S cfg cell faces).1 v j = 0) →
      faceAll (fun f k o => ∀ i < (f.basis k).size, C.IF f (fun x => (f.basis k).fn x i *
        (evalFn (f.basis k) (seg o v) x - evalFn (cell.basis cfg.cd) v x)) = 0) (uniform cfg.fd faces)
        (cell.basis cfg.cd).size) := by
  have h1 := hD.face_ge
  have h2 := hD.exactFace
  have h3 := hD.cell_le
  have h4 := hD.exactCell
  split_ifs with hc
  · obtain ⟨δ, hδ, hf⟩ := Props.HhoStab.c84_hdg C S true (cd := cfg.cd) (uniform cfg.fd faces) (fun f k hm => by
      obtain ⟨hf, rfl⟩ := mem_uniform hm
      exact ⟨hf, by omega, by omega, hR.massFace f hf⟩)
    have hnn : ∀ f k o, (f, some k) ∈ uniform cfg.fd faces → 0 ≤ C.IF f (fun x => evalFn (f.basis k) (δ f k o v) x *
        evalFn (f.basis k) (δ f k o v) x) / (if true = true then f.diam else cell.diam) := by
      intro f k o hm
      obtain ⟨hfm, rfl⟩ := mem_uniform hm
      exact div_nonneg (face_square C hD hP hfm (hR.massFace f hfm) _).1 (hP.faceDiam f hfm).le
    refine ⟨by rw [hf v v]; exact faceSum_nonneg hnn, fun hz _ => ?_⟩
    rw [hf v v] at hz
    refine faceAll_mono ?_ (faceAll_and (faceSum_zero hnn hz) (hδ v))
    rintro f k o hm ⟨hz, hp⟩ i hi
    obtain ⟨hfm, rfl⟩ := mem_uniform hm
    have hz' := (face_square C hD hP hfm (hR.massFace f hfm) _).2
      ((div_eq_zero_iff.1 hz).resolve_right (hP.faceDiam f hfm).ne')
    have := hp i hi
    have e0 : (fun x => (f.basis cfg.fd).fn x i * evalFn (f.basis cfg.fd) (δ f cfg.fd o v) x) = 0 := by
      funext x
      rw [evalFn_zero hz', mul_zero]
      rfl
    rw [e0, map_zero] at this
    have e1 : (fun x => (f.basis cfg.fd).fn x i * (evalFn (f.basis cfg.fd) (seg o v) x - evalFn (cell.basis cfg.cd) v x)) =
        -fun x => (f.basis cfg.fd).fn x i * (evalFn (cell.basis cfg.cd) v x - evalFn (f.basis cfg.fd) (seg o v) x) := by
      funext x
      simp only [Pi.neg_apply]
      ring
    rw [e1, map_neg, ← this, neg_zero]
  · obtain ⟨y, δ, hy, hδ, hf⟩ := Props.HhoStab.c84_hho C S true (rd := cfg.rd) (cd := cfg.cd) (fd := cfg.fd)
      (by omega) (by omega) (by omega) (by omega) hD.cell_le hR.massCell hR.massFace (opOf S cfg cell faces).1
    have hnn : ∀ f k o, (f, some k) ∈ uniform cfg.fd faces → 0 ≤ C.IF f (fun x => evalFn (f.basis k) (δ f k o v) x *
        evalFn (f.basis k) (δ f k o v) x) / cell.diam := by
      intro f k o hm
      obtain ⟨hfm, rfl⟩ := mem_uniform hm
      exact div_nonneg (face_square C hD hP hfm (hR.massFace f hfm) _).1 hP.diam.le
    refine ⟨by rw [hf v v]; exact faceSum_nonneg hnn, fun hz hr => ?_⟩
    rw [hf v v] at hz
    have ht0 : ∀ x, evalTail (cell.basis cfg.rd) (app (dofs cfg cell faces) (opOf S cfg cell faces).1 v) x = 0 := by
      intro x
      exact sum_eq_zero fun j hj => by rw [hr j (mem_range.1 hj), zero_mul]
    have hy0 : ∀ j < (cell.basis cfg.cd).size, y v j = 0 := by
      refine cellProj_unique C (by omega) hR.massCell (w' := fun _ => 0) (y' := fun _ => 0) (hy v) ?_ fun i _ => ?_
      · intro i _
        simp [evalFn]
      · simp only [ht0]
    refine faceAll_mono ?_ (faceAll_and (faceSum_zero hnn hz) (hδ v))
    rintro f k o hm ⟨hz, hp⟩ i hi
    obtain ⟨hfm, rfl⟩ := mem_uniform hm
    have hz' := (face_square C hD hP hfm (hR.massFace f hfm) _).2 ((div_eq_zero_iff.1 hz).resolve_right hP.diam.ne')
    have := hp i hi
    have e0 : (fun x => (f.basis cfg.fd).fn x i * evalFn (f.basis cfg.fd) (δ f cfg.fd o v) x) = 0 := by
      funext x
      rw [evalFn_zero hz', mul_zero]
      rfl
    rw [e0, map_zero] at this
    have e1 : (fun x => (f.basis cfg.fd).fn x i * (evalFn (f.basis cfg.fd) (seg o v) x - evalFn (cell.basis cfg.cd) v x)) =
        -fun x => (f.basis cfg.fd).fn x i * (evalTail (cell.basis cfg.rd)
          (app (dofs cfg cell faces) (opOf S cfg cell faces).1 v) x - evalFn (f.basis cfg.fd) (seg o v) x +
          (evalFn (cell.basis cfg.cd) v x - evalFn (cell.basis cfg.cd) (y v) x)) := by
      funext x
      simp only [Pi.neg_apply, ht0, evalFn_zero hy0]
      ring
    rw [e1, map_neg, ← this, neg_zero]

/-- The local matrix is positive semidefinite. -/
theorem op_nonneg (S : Solver K) (ht : TensSym cfg.d (some cfg.tens)) (hT : TensNonneg cfg) (hD : Degrees cfg N)
    (hR : Regular cfg cell faces C) (hP : Positive cfg cell faces) (v : Nat → K) :
    0 ≤ form (dofs cfg cell faces) (opOf S cfg cell faces).2 v v := by
  have h := (stab_form C S hD hR hP v).1
  have h' := Props.HhoLaplacian.c82_nonneg (faces := faces) S ht hT cfg.useProj (cell.basis cfg.rd) cfg.rd cfg.cd cfg.fd
    (dofs cfg cell faces) hP.weights hR.stiff v
  unfold opOf at h ⊢
  simp only at h ⊢
  rw [form_addMat]
  exact add_nonneg h' h

/-- The moments of the constant function on a face. -/
def ones (cfg : Config K) (g : Elem P K) (i : Nat) : K :=
  quad (g.integrate (2 * cfg.fd)) fun x => (g.basis cfg.fd).fn x i

/-- The kernel of the local matrix: the cell part is a constant, the face parts are projections of that constant. -/
theorem op_kernel (S : Solver K) (ht : TensSym cfg.d (some cfg.tens)) (hT : TensNonneg cfg) (hD : Degrees cfg N)
    (hR : Regular cfg cell faces C) (hP : Positive cfg cell faces) {v : Nat → K}
    (h : form (dofs cfg cell faces) (opOf S cfg cell faces).2 v v = 0) :
    (∀ j < (cell.basis cfg.cd).size, 0 < j → v j = 0) ∧
    faceAll (fun f k o => ∀ i < (f.basis cfg.fd).size,
      app (f.basis cfg.fd).size (mass f.toElem cfg.fd (f.basis cfg.fd)) (seg o v) i = v 0 * ones cfg f.toElem i)
      (uniform cfg.fd faces) (cell.basis cfg.cd).size := by
  have h1 := hD.face_ge
  have h2 := hD.exactFace
  have h3 := hD.cell_le
  have h4 := hD.exactCell
  have hs := stab_form C S hD hR hP v
  have he := Props.HhoLaplacian.c82_energy (faces := faces) S ht cfg.useProj (cell.basis cfg.rd) cfg.rd cfg.cd cfg.fd
    (dofs cfg cell faces) hR.stiff v v
  have hl := Props.HhoLaplacian.c82_nonneg (faces := faces) S ht hT cfg.useProj (cell.basis cfg.rd) cfg.rd cfg.cd cfg.fd
    (dofs cfg cell faces) hP.weights hR.stiff v
  have hsum : form (dofs cfg cell faces) (laplacian cfg.d (some cfg.tens) cfg.useProj S cfg.rd cfg.cd cfg.fd cell faces).2
      v v + form (dofs cfg cell faces) (if cfg.cd > cfg.fd then hdg S true cfg.cd cell (uniform cfg.fd faces)
      else hho S true cfg.rd cfg.cd cfg.fd cell (opOf S cfg cell faces).1 faces) v v = 0 := by
    rw [← form_addMat]
    exact h
  have hl' : 0 ≤ form (dofs cfg cell faces)
      (laplacian cfg.d (some cfg.tens) cfg.useProj S cfg.rd cfg.cd cfg.fd cell faces).2 v v := hl
  have hR0 : ∀ j < (cell.basis cfg.rd).size - 1, app (dofs cfg cell faces) (opOf S cfg cell faces).1 v j = 0 :=
    energy_zero ht hT hP hR.stiff (he.1.symm.trans (by
      have : form (dofs cfg cell faces)
        (laplacian cfg.d (some cfg.tens) cfg.useProj S cfg.rd cfg.cd cfg.fd cell faces).2 v v = 0 := by linarith [hs.1]
      exact this))
  have hF := hs.2 (by linarith [hs.1]) hR0
  -- the gradient of the cell part
  obtain ⟨hsz, hnest⟩ := hP.nested cfg.cd cfg.rd hD.cell_le
  let a : Nat → K := fun j => if j < (cell.basis cfg.cd).size then v j else 0
  have hgr : ∀ x, evalGrad (cell.basis cfg.cd) v x = evalGrad (cell.basis cfg.rd) a x := by
    intro x
    funext c
    unfold evalGrad
    rw [← sum_subset (range_subset_range.2 hsz) fun j _ hj => by
      simp only [a]; rw [if_neg (by simpa using hj), zero_mul]]
    refine sum_congr rfl fun j hj => ?_
    simp only [a]
    rw [if_pos (mem_range.1 hj), (hnest j (mem_range.1 hj) x).2]
  have hrel : ∀ i < (cell.basis cfg.rd).size - 1, app ((cell.basis cfg.rd).size - 1)
      (lapLhs cfg.d (some cfg.tens) (cell.basis cfg.rd) cfg.rd cell) (fun j => a (j + 1)) i = 0 := by
    intro i hi
    have hi' : i + 1 < (cell.basis cfg.rd).size := by omega
    rw [lapLhs_exact C (by omega) _ hi']
    have hr := rhs_relation C S hD hR v hi'
    have ho := app_oper (faces := faces) ht S cfg.useProj (cell.basis cfg.rd) cfg.rd cfg.cd cfg.fd
      (dofs cfg cell faces) hR.stiff v hi
    have ho0 : app ((cell.basis cfg.rd).size - 1) (lapLhs cfg.d (some cfg.tens) (cell.basis cfg.rd) cfg.rd cell)
        (app (dofs cfg cell faces) (laplacianWith cfg.d (some cfg.tens) cfg.useProj S (cell.basis cfg.rd) cfg.rd cfg.cd
          cfg.fd cell faces).1 v) i = 0 :=
      sum_eq_zero fun j hj => by
        rw [show app (dofs cfg cell faces) (laplacianWith cfg.d (some cfg.tens) cfg.useProj S (cell.basis cfg.rd) cfg.rd
          cfg.cd cfg.fd cell faces).1 v j = 0 from hR0 j (mem_range.1 hj), mul_zero]
    rw [← ho, ho0] at hr
    have hz : faceSum (fun f k o => C.IF f fun x => fluxN cfg.d (some cfg.tens) (cell.basis cfg.rd) f.normal x i *
        (evalFn (f.basis k) (seg o v) x - evalFn (cell.basis cfg.cd) v x)) (uniform cfg.fd faces)
        (cell.basis cfg.cd).size = 0 := by
      rw [faceSum_congr_all (g' := fun _ _ _ => 0) (fun f k o hm hp => ?_) hF, faceSum_uniform (fun _ => 0)]
      · simp
      · obtain ⟨hfm, rfl⟩ := mem_uniform hm
        obtain ⟨b, hb⟩ := C.face_span f hfm cfg.fd _ (C.mono (by omega)
          (fluxN_mem C (tens := some cfg.tens) cfg.rd f.normal hi'))
        rw [C.face_congr f hfm _ (fun x => ∑ l ∈ range (f.basis cfg.fd).size, b l * ((f.basis cfg.fd).fn x l *
          (evalFn (f.basis cfg.fd) (seg o v) x - evalFn (cell.basis cfg.cd) v x))) fun x hx => by
            rw [hb x hx, evalFn, sum_mul]
            exact sum_congr rfl fun _ _ => by ring, IF_sum]
        exact sum_eq_zero fun l hl => by rw [hp l (mem_range.1 hl), mul_zero]
    rw [hz, add_zero] at hr
    rw [hr]
    congr 1
    funext x
    rw [evalGradTail_eq C, hgr]
  have ha := hR.stiff _ hrel
  have hcell : ∀ j < (cell.basis cfg.cd).size, 0 < j → v j = 0 := by
    intro j hj hj0
    have := ha (j - 1) (by omega)
    simp only [a] at this
    rwa [show j - 1 + 1 = j by omega, if_pos hj] at this
  refine ⟨hcell, faceAll_mono ?_ hF⟩
  intro f k o hm hp i hi
  obtain ⟨hfm, rfl⟩ := mem_uniform hm
  have hv : ∀ x, evalFn (cell.basis cfg.cd) v x = v 0 := by
    intro x
    unfold evalFn
    rw [sum_eq_single 0 (fun j hj hj0 => by rw [hcell j (mem_range.1 hj) (by omega), zero_mul])
      (fun h0 => absurd (mem_range.2 (C.cell_pos cfg.cd)) h0), C.cell_one, mul_one]
  have := hp i hi
  simp only [hv, mul_sub] at this
  rw [IF_sub, sub_eq_zero] at this
  refine (app_eval fun j _ => mass_eq f.toElem cfg.fd (f.basis cfg.fd) i j).trans
    ((face_quad C hfm (n := cfg.fd + cfg.fd) (by omega) (by omega)
      (OnV.mul C (OnV.fb C hfm hi) (OnV.evalFb C hfm cfg.fd (seg o v)))).trans (this.trans ?_))
  unfold ones
  rw [face_quad C hfm (n := cfg.fd) (by omega) (by omega) (OnV.fb C hfm hi)]
  have e : (fun x => (f.basis cfg.fd).fn x i * v 0) = v 0 • fun x => (f.basis cfg.fd).fn x i := by
    funext x
    simp [mul_comm]
  rw [e, map_smul, smul_eq_mul]

include C in
/-- The moments of the constant are not all zero. -/
theorem ones_ne (hD : Degrees cfg N) (hP : Positive cfg cell faces) {g : Face P K} (hg : g ∈ faces) {c : K}
    (h : ∀ i < (g.basis cfg.fd).size, c * ones cfg g.toElem i = 0) : c = 0 := by
  by_contra hc
  have h2 := hD.exactFace
  have hz : ∀ i < (g.basis cfg.fd).size, ones cfg g.toElem i = 0 := fun i hi => (mul_eq_zero.1 (h i hi)).resolve_left hc
  refine hP.measure g hg ?_
  have h1 : (fun _ : P => (1 : K)) ∈ C.V 0 := by
    have := C.cell_mem 0 0 (C.cell_pos 0)
    rwa [show (fun x => (cell.basis 0).fn x 0) = fun _ => (1 : K) from funext fun x => C.cell_one 0 x] at this
  obtain ⟨b, hb⟩ := C.face_span g hg cfg.fd _ (C.mono (Nat.zero_le _) h1)
  rw [quad_congr (v := fun x => ∑ j ∈ range (g.basis cfg.fd).size, b j * (g.basis cfg.fd).fn x j)
    fun q hq => hb q.pt (C.face_pts g hg _ q hq), quad_sum]
  refine sum_eq_zero fun j hj => ?_
  rw [quad_mul]
  exact mul_eq_zero_of_right _ (hz j (mem_range.1 hj))

end Verif.Lemmas.HhoSolver
