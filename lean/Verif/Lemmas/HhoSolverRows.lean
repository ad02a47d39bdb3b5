import Verif.Lemmas.HhoSolver
/-!
The rows of the local matrix of the HHO diffusion solver on the interpolate of the solution, and its symmetry.
-/
namespace Verif.Lemmas.HhoSolver
open Finset Verif.Hho Verif.HhoSolver Verif.Spec.Hho Verif.Spec.HhoSolver Verif.Lemmas.Hho LocalMatrix

variable {K P : Type} [Field K] {cfg : Config K} {cell : Elem P K} {faces : List (Face P K)} {N : Nat}

/-- Unit vector. -/
def unitVec (i : Nat) : Nat → K := fun j => if j = i then 1 else 0

theorem form_unit {n i : Nat} (hi : i < n) (A : Mat K) (u : Nat → K) : form n A (unitVec i) u = app n A u i := by
  simp [form, unitVec, hi]

theorem app_unit {n j : Nat} (hj : j < n) (A : Mat K) (i : Nat) : app n A (unitVec j) i = A i j := by
  simp [app, unitVec, hj]

theorem evalFn_unit (b : Basis P K) {i : Nat} (hi : i < b.size) (x : P) : evalFn b (unitVec i) x = b.fn x i := by
  simp [evalFn, unitVec, hi]

theorem evalFn_zero {b : Basis P K} {v : Nat → K} (h : ∀ j < b.size, v j = 0) (x : P) : evalFn b v x = 0 :=
  sum_eq_zero fun j hj => by rw [h j (mem_range.1 hj), zero_mul]

omit [Field K] in
theorem facesDofs_uniform {fd fbs : Nat} (hs : ∀ g ∈ faces, (g.basis fd).size = fbs) :
    facesDofs (uniform fd faces) = faces.length * fbs := by
  induction faces with
  | nil => simp [facesDofs, uniform]
  | cons g fs ih =>
    have := ih fun g hg => hs g (List.mem_cons_of_mem _ hg)
    unfold facesDofs uniform at this ⊢
    simp only [List.map_cons, List.sum_cons, this, List.length_cons, faceDofs, hs g List.mem_cons_self]
    ring

/-- A sum over the faces with at most one non-zero term. -/
theorem faceSum_single {fd fbs : Nat} (G : Face P K → Nat → Nat → K) {fs : List (Face P K)}
    (hs : ∀ g ∈ fs, (g.basis fd).size = fbs) {i : Nat}
    (hz : ∀ g ∈ fs, ∀ o, ¬ (o ≤ i ∧ i < o + fbs) → G g fd o = 0) (off : Nat) :
    (i < off → faceSum G (uniform fd fs) off = 0) ∧
    ∀ p k g, fs[p]? = some g → k < fbs → i = off + p * fbs + k →
      faceSum G (uniform fd fs) off = G g fd (off + p * fbs) := by
  induction fs generalizing off with
  | nil => exact ⟨fun _ => rfl, fun p k g hg => by simp at hg⟩
  | cons h fs ih =>
    obtain ⟨ih1, ih2⟩ := ih (fun g hg => hs g (List.mem_cons_of_mem _ hg))
      (fun g hg => hz g (List.mem_cons_of_mem _ hg)) (off + fbs)
    rw [uniform_cons, faceSum, hs h List.mem_cons_self]
    refine ⟨fun hi => ?_, fun p k g hg hk hi => ?_⟩
    · rw [ih1 (by omega), hz h List.mem_cons_self off (by omega), add_zero]
    · cases p with
      | zero =>
        simp only [List.getElem?_cons_zero, Option.some.injEq] at hg
        subst hg
        rw [ih1 (by omega), add_zero, Nat.zero_mul, Nat.add_zero]
      | succ p =>
        rw [List.getElem?_cons_succ] at hg
        have e : off + fbs + p * fbs = off + (p + 1) * fbs := by ring
        rw [ih2 p k g hg hk (by rw [hi, ← e]), e, hz h List.mem_cons_self off, zero_add]
        have : off + fbs ≤ off + (p + 1) * fbs := by rw [← e]; omega
        omega

variable (C : PolyCell cfg.d cell faces N)

theorem flux_mem {u : P → K} {gu : P → Nat → K} {f : P → K} (hE : ExactOn cfg cell faces C f u gu) (b : Nat → K) :
    (fun x => dot cfg.d (fluxOf cfg.d (some cfg.tens) (gu x)) b) ∈ C.V (cfg.rd - 1) := by
  obtain ⟨a, ha, hg⟩ := hE.sol
  have e : (fun x => dot cfg.d (fluxOf cfg.d (some cfg.tens) (gu x)) b) =
      ∑ k ∈ range ((cell.basis cfg.rd).size - 1), a (k + 1) •
        fun x => fluxN cfg.d (some cfg.tens) (cell.basis cfg.rd) b x k := by
    funext x
    rw [Finset.sum_apply]
    simp only [Pi.smul_apply, smul_eq_mul]
    unfold fluxN rflux
    rw [flux_sum]
    unfold dot
    refine sum_congr rfl fun c hc => ?_
    congr 1
    simp only [fluxOf]
    refine sum_congr rfl fun e he => ?_
    rw [hg x e (mem_range.1 he), ← evalGradTail_eq C]
    rfl
  rw [e]
  refine Submodule.sum_mem _ fun k hk => Submodule.smul_mem _ _ ?_
  exact fluxN_mem C cfg.rd b (by have := mem_range.1 hk; omega)

/-- Cell rows: the load vector of the code. -/
theorem cell_row (S : Solver K) (ht : TensSym cfg.d (some cfg.tens)) (hD : Degrees cfg N)
    (hR : Regular cfg cell faces C) {f u : P → K} {gu : P → Nat → K} (hE : ExactOn cfg cell faces C f u gu)
    {w : Nat → K} (hu : IsInterp C cfg.cd (uniform cfg.fd faces) u w) {i : Nat} (hi : i < (cell.basis cfg.cd).size) :
    app (dofs cfg cell faces) (opOf S cfg cell faces).2 w i = rhsOf cell cfg.cd 0 (cell.basis cfg.cd) f i := by
  rw [← form_unit (by unfold dofs; omega), local_row C S ht hD hR hE hu]
  have h0 := (faceSum_single (fun g k o => C.IF g fun x => dot cfg.d (fluxOf cfg.d (some cfg.tens) (gu x)) g.normal *
        evalFn (g.basis k) (seg o (unitVec i)) x) hR.size (i := i) (fun g hg o ho => by
      have : (fun x => dot cfg.d (fluxOf cfg.d (some cfg.tens) (gu x)) g.normal *
          evalFn (g.basis cfg.fd) (seg o (unitVec i)) x) = 0 := by
        funext x
        rw [evalFn_zero, mul_zero]
        · rfl
        · intro j hj
          rw [hR.size g hg] at hj
          simp only [seg, unitVec]
          exact if_neg (by omega)
      rw [this, map_zero]) (cell.basis cfg.cd).size).1 hi
  rw [h0, add_zero, rhsOf_eq, cell_quad C (n := cfg.cd + cfg.cd) (by omega) (by have := hD.exactCell; omega)
    (mul_mem' C (C.cell_mem cfg.cd i hi) hE.load_mem)]
  congr 1
  funext x
  rw [evalFn_unit _ hi, mul_comm]

/-- Face rows: the moments of the normal flux. -/
theorem face_row (S : Solver K) (ht : TensSym cfg.d (some cfg.tens)) (hD : Degrees cfg N)
    (hR : Regular cfg cell faces C) {f u : P → K} {gu : P → Nat → K} (hE : ExactOn cfg cell faces C f u gu)
    {w : Nat → K} (hu : IsInterp C cfg.cd (uniform cfg.fd faces) u w) {p k : Nat} {g : Face P K}
    (hg : faces[p]? = some g) (hk : k < cfg.fbs) :
    app (dofs cfg cell faces) (opOf S cfg cell faces).2 w ((cell.basis cfg.cd).size + p * cfg.fbs + k) =
      quad (g.integrate (cfg.rd + cfg.fd)) fun x =>
        dot cfg.d (fluxOf cfg.d (some cfg.tens) (gu x)) g.normal * (g.basis cfg.fd).fn x k := by
  have hp : p < faces.length := (List.getElem?_eq_some_iff.1 hg).1
  have hgm : g ∈ faces := List.mem_of_getElem? hg
  have hlt : (cell.basis cfg.cd).size + p * cfg.fbs + k < dofs cfg cell faces := by
    unfold dofs
    rw [facesDofs_uniform hR.size]
    have : (p + 1) * cfg.fbs ≤ faces.length * cfg.fbs := Nat.mul_le_mul_right _ hp
    rw [Nat.add_mul] at this
    omega
  rw [← form_unit hlt, local_row C S ht hD hR hE hu]
  have h0 := (faceSum_single (fun g k' o => C.IF g fun x => dot cfg.d (fluxOf cfg.d (some cfg.tens) (gu x)) g.normal *
        evalFn (g.basis k') (seg o (unitVec ((cell.basis cfg.cd).size + p * cfg.fbs + k))) x) hR.size
      (i := (cell.basis cfg.cd).size + p * cfg.fbs + k) (fun g hg o ho => by
      have : (fun x => dot cfg.d (fluxOf cfg.d (some cfg.tens) (gu x)) g.normal *
          evalFn (g.basis cfg.fd) (seg o (unitVec ((cell.basis cfg.cd).size + p * cfg.fbs + k))) x) = 0 := by
        funext x
        rw [evalFn_zero, mul_zero]
        · rfl
        · intro j hj
          rw [hR.size g hg] at hj
          simp only [seg, unitVec]
          exact if_neg (by omega)
      rw [this, map_zero]) (cell.basis cfg.cd).size).2 p k g hg hk rfl
  have hc : (fun x => f x * evalFn (cell.basis cfg.cd) (unitVec ((cell.basis cfg.cd).size + p * cfg.fbs + k)) x) =
      (0 : P → K) := by
    funext x
    rw [evalFn_zero, mul_zero]
    · rfl
    · intro j hj
      exact if_neg (by omega)
  rw [h0, hc, map_zero, zero_add]
  have hkg : k < (g.basis cfg.fd).size := by rw [hR.size g hgm]; exact hk
  have e : (fun x => dot cfg.d (fluxOf cfg.d (some cfg.tens) (gu x)) g.normal * evalFn (g.basis cfg.fd)
      (seg ((cell.basis cfg.cd).size + p * cfg.fbs) (unitVec ((cell.basis cfg.cd).size + p * cfg.fbs + k))) x) =
      fun x => dot cfg.d (fluxOf cfg.d (some cfg.tens) (gu x)) g.normal * (g.basis cfg.fd).fn x k := by
    funext x
    rw [← evalFn_unit _ hkg]
    congr 1
    refine evalFn_congr (fun j _ => ?_) x
    simp only [seg, unitVec]
    exact if_congr (by omega) rfl rfl
  rw [e]
  have h1 := hD.face_ge
  have h2 := hD.exactFace
  exact (face_quad C hgm (n := cfg.rd - 1 + cfg.fd) (by omega) (by omega)
    (OnV.mul C (OnV.of_mem C (flux_mem C hE g.normal)) (OnV.fb C hgm hkg))).symm

/-- The local matrix is symmetric. -/
theorem op_form_sym (S : Solver K) (ht : TensSym cfg.d (some cfg.tens)) (hD : Degrees cfg N)
    (hR : Regular cfg cell faces C) (v u : Nat → K) :
    form (dofs cfg cell faces) (opOf S cfg cell faces).2 v u =
      form (dofs cfg cell faces) (opOf S cfg cell faces).2 u v := by
  have h1 := hD.face_ge
  have h2 := hD.exactFace
  have h3 := hD.cell_le
  have h4 := hD.exactCell
  unfold opOf
  simp only
  rw [form_addMat, form_addMat]
  congr 1
  · exact (Props.HhoLaplacian.c82_energy S ht cfg.useProj (cell.basis cfg.rd) cfg.rd cfg.cd cfg.fd _ hR.stiff v u).2
  · split_ifs with hc
    · obtain ⟨δ, _, hf⟩ := Props.HhoStab.c84_hdg C S true (cd := cfg.cd) (uniform cfg.fd faces) (fun f k hm => by
        obtain ⟨hf, rfl⟩ := mem_uniform hm
        exact ⟨hf, by omega, by omega, hR.massFace f hf⟩)
      rw [hf v u, hf u v]
      refine faceSum_congr (fun g k o _ => ?_) _
      congr 2
      funext x
      exact mul_comm _ _
    · obtain ⟨y, δ, _, _, hf⟩ := Props.HhoStab.c84_hho C S true (rd := cfg.rd) (cd := cfg.cd) (fd := cfg.fd)
        (by omega) (by omega) (by omega) (by omega) hD.cell_le hR.massCell hR.massFace
        (laplacian cfg.d (some cfg.tens) cfg.useProj S cfg.rd cfg.cd cfg.fd cell faces).1
      rw [hf v u, hf u v]
      refine faceSum_congr (fun g k o _ => ?_) _
      congr 2
      funext x
      exact mul_comm _ _

theorem op_sym (S : Solver K) (ht : TensSym cfg.d (some cfg.tens)) (hD : Degrees cfg N)
    (hR : Regular cfg cell faces C) {i j : Nat} (hi : i < dofs cfg cell faces) (hj : j < dofs cfg cell faces) :
    (opOf S cfg cell faces).2 i j = (opOf S cfg cell faces).2 j i := by
  have := op_form_sym C S ht hD hR (unitVec i) (unitVec j)
  rwa [form_unit hi, form_unit hj, app_unit hj, app_unit hi] at this

end Verif.Lemmas.HhoSolver
