import Mathlib.Tactic.LinearCombination
import Verif.Spec.HhoSolver
import Verif.Lemmas.HhoVector
import Verif.Props.HhoLaplacian
import Verif.Props.HhoStab
/-!
The local matrix of the HHO diffusion solver applied to the interpolate of the solution.
-/
namespace Verif.Lemmas.HhoSolver
open Finset Verif.Hho Verif.HhoSolver Verif.Spec.Hho Verif.Spec.HhoSolver Verif.Lemmas.Hho LocalMatrix

variable {K P : Type} [Field K] {cfg : Config K} {cell : Elem P K} {faces : List (Face P K)} {N : Nat}

/-- The local matrix, for an element and its faces. -/
def opOf (S : Solver K) (cfg : Config K) (cell : Elem P K) (faces : List (Face P K)) : Mat K × Mat K :=
  let L := laplacian cfg.d (some cfg.tens) cfg.useProj S cfg.rd cfg.cd cfg.fd cell faces
  (L.1, addMat L.2 (if cfg.cd > cfg.fd then hdg S true cfg.cd cell (uniform cfg.fd faces)
    else hho S true cfg.rd cfg.cd cfg.fd cell L.1 faces))

theorem operator_eq (S : Solver K) (h : Degrees cfg N) (m : DMesh P K) (c : DCell P K) :
    operator S cfg m c = opOf S cfg c.elem (m.faces c) := by
  unfold operator opOf
  have : ¬ cfg.rd > cfg.fd + 1 := by have := h.face_ge; omega
  by_cases hc : cfg.cd > cfg.fd <;> simp [this, hc, uniform]

/-- Number of unknowns of the cell. -/
abbrev dofs (cfg : Config K) (cell : Elem P K) (faces : List (Face P K)) : Nat :=
  (cell.basis cfg.cd).size + facesDofs (uniform cfg.fd faces)

variable (C : PolyCell cfg.d cell faces N)

/-- The reconstruction of both variants satisfies the defining relation. -/
theorem rhs_relation (S : Solver K) (hD : Degrees cfg N) (hR : Regular cfg cell faces C) (v : Nat → K) {i : Nat}
    (hi : i + 1 < (cell.basis cfg.rd).size) :
    app (dofs cfg cell faces)
        (lapRhs cfg.d (some cfg.tens) cfg.useProj S (cell.basis cfg.rd) cfg.rd cfg.cd cfg.fd cell faces) v i =
      C.IT (fun x => dot cfg.d (rflux cfg.d (some cfg.tens) (cell.basis cfg.rd) x i)
        (evalGrad (cell.basis cfg.cd) v x)) +
      faceSum (fun f k o => C.IF f fun x => fluxN cfg.d (some cfg.tens) (cell.basis cfg.rd) f.normal x i *
        (evalFn (f.basis k) (seg o v) x - evalFn (cell.basis cfg.cd) v x)) (uniform cfg.fd faces)
        (cell.basis cfg.cd).size := by
  have h1 := hD.face_ge
  have h2 := hD.exactFace
  rw [← lapRhs_exact C S hD.cell_le (by omega) (by omega) v hi]
  cases hp : cfg.useProj with
  | false => rfl
  | true => exact app_lapRhs_proj C S hD.face_ge (hR.massProj hp) v hi

/-- Consistency of the reconstruction of both variants. -/
theorem oper_interp (S : Solver K) (ht : TensSym cfg.d (some cfg.tens)) (hD : Degrees cfg N)
    (hR : Regular cfg cell faces C) {a u : Nat → K}
    (hu : IsInterp C cfg.cd (uniform cfg.fd faces) (evalFn (cell.basis cfg.rd) a) u) :
    ∀ j < (cell.basis cfg.rd).size - 1, app (dofs cfg cell faces) (opOf S cfg cell faces).1 u j = a (j + 1) := by
  have h1 := hD.face_ge
  have h2 := hD.exactFace
  intro j hj
  have h := Props.HhoLaplacian.c82_consistency C S ht hD.cell_le hD.cell_ge hD.face_ge (by omega) (by omega) hR.green
    hR.stiff hu j hj
  unfold opOf
  simp only
  cases hp : cfg.useProj with
  | false => exact h
  | true =>
    rw [← h]
    exact Props.HhoLaplacian.c82_face_projection C S ht hD.face_ge hR.stiff (hR.massProj hp) u j hj

/-- The stabilization vanishes on interpolates. -/
theorem stab_interp (S : Solver K) (ht : TensSym cfg.d (some cfg.tens)) (hD : Degrees cfg N)
    (hR : Regular cfg cell faces C) {a u : Nat → K}
    (hu : IsInterp C cfg.cd (uniform cfg.fd faces) (evalFn (cell.basis cfg.rd) a) u) (v : Nat → K) :
    form (dofs cfg cell faces) (opOf S cfg cell faces).2 v u =
      form (dofs cfg cell faces)
        (laplacian cfg.d (some cfg.tens) cfg.useProj S cfg.rd cfg.cd cfg.fd cell faces).2 v u := by
  have h1 := hD.face_ge
  have h2 := hD.exactFace
  have h3 := hD.cell_le
  have h4 := hD.exactCell
  have hop := oper_interp C S ht hD hR hu
  unfold opOf at hop ⊢
  simp only at hop ⊢
  rw [form_addMat]
  split_ifs with hc
  · -- the cell unknowns are the polynomial itself
    have hcr : cfg.cd = cfg.rd := by omega
    have hT : ∀ j < (cell.basis cfg.cd).size, u j = a j := by
      refine cellProj_unique C (by omega) hR.massCell (w := evalFn (cell.basis cfg.rd) a)
        (w' := evalFn (cell.basis cfg.rd) a) hu.1 ?_ fun i _ => rfl
      intro i hi
      rw [hcr]
    obtain ⟨δ, hδ, hf⟩ := Props.HhoStab.c84_hdg C S true (cd := cfg.cd) (uniform cfg.fd faces) (fun f k hm => by
      obtain ⟨hf, rfl⟩ := mem_uniform hm
      exact ⟨hf, by omega, by omega, hR.massFace f hf⟩)
    rw [hf v u]
    have hz : faceSum (fun f k o => C.IF f (fun x => evalFn (f.basis k) (δ f k o v) x *
        evalFn (f.basis k) (δ f k o u) x) / (if true = true then f.diam else cell.diam)) (uniform cfg.fd faces)
        (cell.basis cfg.cd).size = faceSum (fun _ _ _ => 0) (uniform cfg.fd faces) (cell.basis cfg.cd).size := by
      refine faceSum_congr_all (fun f k o hm hp => ?_) (faceAll_and (hδ u) hu.2)
      obtain ⟨hf, rfl⟩ := mem_uniform hm
      have z := faceProj_zero C hf (by omega) (hR.massFace f hf) hp.1 (fun i hi => by
        have := hp.2 i hi
        have e : (fun x => (f.basis cfg.fd).fn x i *
            (evalFn (cell.basis cfg.cd) u x - evalFn (f.basis cfg.fd) (seg o u) x)) =
            (fun x => (f.basis cfg.fd).fn x i * evalFn (cell.basis cfg.rd) a x) -
            (fun x => (f.basis cfg.fd).fn x i * evalFn (f.basis cfg.fd) (seg o u) x) := by
          funext x
          have : evalFn (cell.basis cfg.cd) u x = evalFn (cell.basis cfg.rd) a x := by
            rw [evalFn_congr hT, hcr]
          simp only [Pi.sub_apply, this, mul_sub]
        rw [e, map_sub, this, sub_self])
      have e0 : (fun x => evalFn (f.basis cfg.fd) (δ f cfg.fd o v) x * evalFn (f.basis cfg.fd) (δ f cfg.fd o u) x) =
          (0 : P → K) := by
        funext x
        rw [evalFn_congr (v := fun _ => 0) z]
        simp [evalFn]
      rw [e0, map_zero, zero_div]
    rw [hz, faceSum_uniform (fun _ => 0)]
    simp
  · have : form (dofs cfg cell faces) (hho S true cfg.rd cfg.cd cfg.fd cell
        (laplacian cfg.d (some cfg.tens) cfg.useProj S cfg.rd cfg.cd cfg.fd cell faces).1 faces) v u = 0 := by
      unfold form
      refine sum_eq_zero fun i _ => ?_
      rw [Props.HhoStab.c85_hho_of C S true (by omega) (by omega) (by omega) (by omega) hD.cell_le hR.massCell
        hR.massFace _ hu hop i, mul_zero]
    rw [this, add_zero]

/-- The weak form of the equation, tested with a cell unknown. -/
theorem load_eval {f u : P → K} {gu : P → Nat → K} (hE : ExactOn cfg cell faces C f u gu) (v : Nat → K) :
    C.IT (fun x => dot cfg.d (fluxOf cfg.d (some cfg.tens) (gu x)) (evalGrad (cell.basis cfg.cd) v x)) =
      C.IT (fun x => f x * evalFn (cell.basis cfg.cd) v x) +
      (faces.map fun g => C.IF g fun x =>
        dot cfg.d (fluxOf cfg.d (some cfg.tens) (gu x)) g.normal * evalFn (cell.basis cfg.cd) v x).sum := by
  have e1 : (fun x => dot cfg.d (fluxOf cfg.d (some cfg.tens) (gu x)) (evalGrad (cell.basis cfg.cd) v x)) =
      fun x => ∑ j ∈ range (cell.basis cfg.cd).size, v j *
        dot cfg.d (fluxOf cfg.d (some cfg.tens) (gu x)) ((cell.basis cfg.cd).grad x j) := by
    funext x
    exact dot_sum _ _ _ _ _
  have e2 : ∀ w : P → K, (fun x => w x * evalFn (cell.basis cfg.cd) v x) =
      fun x => ∑ j ∈ range (cell.basis cfg.cd).size, v j * (w x * (cell.basis cfg.cd).fn x j) := by
    intro w
    funext x
    rw [evalFn, mul_sum]
    exact sum_congr rfl fun _ _ => by ring
  rw [e1, IT_sum, e2, IT_sum]
  have e3 : (faces.map fun g => C.IF g fun x =>
        dot cfg.d (fluxOf cfg.d (some cfg.tens) (gu x)) g.normal * evalFn (cell.basis cfg.cd) v x) =
      faces.map fun g => ∑ j ∈ range (cell.basis cfg.cd).size, v j * C.IF g fun x =>
        dot cfg.d (fluxOf cfg.d (some cfg.tens) (gu x)) g.normal * (cell.basis cfg.cd).fn x j := by
    refine List.map_congr_left fun g _ => ?_
    rw [e2, IF_sum]
  have e4 : ∀ fs : List (Face P K), (fs.map fun g => ∑ j ∈ range (cell.basis cfg.cd).size, v j * C.IF g fun x =>
        dot cfg.d (fluxOf cfg.d (some cfg.tens) (gu x)) g.normal * (cell.basis cfg.cd).fn x j).sum =
      ∑ j ∈ range (cell.basis cfg.cd).size, v j * (fs.map fun g => C.IF g fun x =>
        dot cfg.d (fluxOf cfg.d (some cfg.tens) (gu x)) g.normal * (cell.basis cfg.cd).fn x j).sum := by
    intro fs
    induction fs with
    | nil => simp
    | cons g fs ih =>
      simp only [List.map_cons, List.sum_cons, ih, mul_add, sum_add_distrib]
  rw [e3, e4, ← sum_add_distrib]
  refine sum_congr rfl fun j hj => ?_
  rw [hE.load j (mem_range.1 hj), mul_add]

/-- The local matrix on the interpolate of the solution: the load on the cell and the normal fluxes on the faces. -/
theorem local_row (S : Solver K) (ht : TensSym cfg.d (some cfg.tens)) (hD : Degrees cfg N)
    (hR : Regular cfg cell faces C) {f u : P → K} {gu : P → Nat → K} (hE : ExactOn cfg cell faces C f u gu)
    {w : Nat → K} (hu : IsInterp C cfg.cd (uniform cfg.fd faces) u w) (v : Nat → K) :
    form (dofs cfg cell faces) (opOf S cfg cell faces).2 v w =
      C.IT (fun x => f x * evalFn (cell.basis cfg.cd) v x) +
      faceSum (fun g k o => C.IF g fun x => dot cfg.d (fluxOf cfg.d (some cfg.tens) (gu x)) g.normal *
        evalFn (g.basis k) (seg o v) x) (uniform cfg.fd faces) (cell.basis cfg.cd).size := by
  obtain ⟨a, ha, hg⟩ := hE.sol
  have hu' : IsInterp C cfg.cd (uniform cfg.fd faces) (evalFn (cell.basis cfg.rd) a) w := by
    rwa [show evalFn (cell.basis cfg.rd) a = u from funext fun x => (ha x).symm]
  have hop := oper_interp C S ht hD hR hu'
  rw [stab_interp C S ht hD hR hu' v]
  have h1 : form (dofs cfg cell faces)
      (laplacian cfg.d (some cfg.tens) cfg.useProj S cfg.rd cfg.cd cfg.fd cell faces).2 v w =
      ∑ k ∈ range ((cell.basis cfg.rd).size - 1), a (k + 1) * app (dofs cfg cell faces)
        (lapRhs cfg.d (some cfg.tens) cfg.useProj S (cell.basis cfg.rd) cfg.rd cfg.cd cfg.fd cell faces) v k := by
    unfold laplacian laplacianWith operData
    rw [form_mul_trans]
    refine sum_congr rfl fun k hk => ?_
    have := hop k (mem_range.1 hk)
    unfold opOf laplacian laplacianWith operData at this
    rw [this, mul_comm]
  -- the flux of the solution
  have hfl : ∀ (x : P) (b : Nat → K), ∑ k ∈ range ((cell.basis cfg.rd).size - 1), a (k + 1) *
      dot cfg.d (rflux cfg.d (some cfg.tens) (cell.basis cfg.rd) x k) b =
      dot cfg.d (fluxOf cfg.d (some cfg.tens) (gu x)) b := by
    intro x b
    unfold rflux
    rw [flux_sum]
    unfold dot
    refine sum_congr rfl fun c hc => ?_
    congr 1
    simp only [fluxOf]
    refine sum_congr rfl fun e he => ?_
    rw [hg x e (mem_range.1 he), ← evalGradTail_eq C]
    rfl
  rw [h1, sum_congr rfl fun k hk => by rw [rhs_relation C S hD hR v (by have := mem_range.1 hk; omega), mul_add],
    sum_add_distrib, ← IT_sum]
  simp only [hfl]
  rw [load_eval C hE v]
  have h2 : ∑ k ∈ range ((cell.basis cfg.rd).size - 1), a (k + 1) *
      faceSum (fun g kk o => C.IF g fun x => fluxN cfg.d (some cfg.tens) (cell.basis cfg.rd) g.normal x k *
        (evalFn (g.basis kk) (seg o v) x - evalFn (cell.basis cfg.cd) v x)) (uniform cfg.fd faces)
        (cell.basis cfg.cd).size =
      faceSum (fun g kk o => (C.IF g fun x => dot cfg.d (fluxOf cfg.d (some cfg.tens) (gu x)) g.normal *
        evalFn (g.basis kk) (seg o v) x) - C.IF g fun x =>
          dot cfg.d (fluxOf cfg.d (some cfg.tens) (gu x)) g.normal * evalFn (cell.basis cfg.cd) v x)
        (uniform cfg.fd faces) (cell.basis cfg.cd).size := by
    simp only [← faceSum_mul]
    rw [← faceSum_sum]
    refine faceSum_congr (fun g kk o _ => ?_) _
    rw [← IF_sum, ← IF_sub]
    congr 1
    funext x
    rw [← hfl x g.normal, sum_mul, sum_mul, ← sum_sub_distrib]
    refine sum_congr rfl fun k _ => ?_
    unfold fluxN
    ring
  rw [h2, faceSum_sub, faceSum_uniform]
  ring

end Verif.Lemmas.HhoSolver
