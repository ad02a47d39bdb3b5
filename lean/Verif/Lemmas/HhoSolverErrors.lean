import Verif.Lemmas.HhoSolverRun
/-!
What the error accumulators of the HHO diffusion solver are.
-/
namespace Verif.Lemmas.HhoSolver
open Finset Verif.Hho Verif.HhoSolver Verif.Spec.Hho Verif.Spec.HhoSolver Verif.Lemmas.Hho LocalMatrix
open Verif.Condensation Verif.Assembly

variable {P K : Type} [Field K] {cfg : Config K}

theorem fold_norms (a b c : QP P K → K) (qs : List (QP P K)) (e : Errors K) :
    qs.foldl (fun e q =>
      { e with
        L2norm := e.L2norm + a q
        H1err := e.H1err + b q
        H1norm := e.H1norm + c q }) e =
    { e with
      L2norm := e.L2norm + (qs.map a).sum
      H1err := e.H1err + (qs.map b).sum
      H1norm := e.H1norm + (qs.map c).sum } := by
  induction qs generalizing e with
  | nil => simp
  | cons q qs ih =>
    rw [List.foldl_cons, ih]
    simp only [List.map_cons, List.sum_cons, add_assoc]

theorem quadForm_form (n : Nat) (M : Hho.Mat K) (x : Nat → K) : quadForm n M x = form n M x x := rfl

theorem tensSq_eq (d : Nat) (D : Hho.Mat K) (a : Nat → K) : tensSq d D a = dot d (fluxOf d (some D) a) a := by
  unfold tensSq dot fluxOf
  exact sum_congr rfl fun k _ => mul_comm _ _

theorem form_mass (cell : Elem P K) (k : Nat) (b : Basis P K) (w : Nat → K) :
    form b.size (mass cell k b) w w = quad (cell.integrate (2 * k)) fun x => evalFn b w x ^ 2 := by
  have h : ∀ x, evalFn b w x ^ 2 = ∑ i ∈ range b.size, ∑ j ∈ range b.size, w i * (w j * (b.fn x i * b.fn x j)) := by
    intro x
    rw [pow_two]
    unfold evalFn
    rw [sum_mul_sum]
    exact sum_congr rfl fun i _ => sum_congr rfl fun j _ => by ring
  simp only [h, quad_sum, quad_mul, form, app, mass_eq]
  refine sum_congr rfl fun i _ => ?_
  rw [mul_sum]
  exact sum_congr rfl fun j _ => by ring

/-- The contributions of a cell. -/
theorem cellErrors_eq (c : DCell P K) (n : Nat) (op : Hho.Mat K × Hho.Mat K) (u : P → K) (gu : P → Nat → K)
    (full real : Nat → K) (e : Errors K) : cellErrors cfg c n op u gu full real e =
      { Merr := e.Merr + cellSq cfg c.elem fun i => real i - full i
        L2norm := e.L2norm + l2Sq cfg c.elem u
        H1err := e.H1err + energySq cfg c.elem fun x k => gu x k - evalGradTail (c.elem.basis cfg.rd) (app n op.1 full) x k
        H1norm := e.H1norm + energySq cfg c.elem gu
        Aerr := e.Aerr + form n op.2 (fun i => real i - full i) fun i => real i - full i
        Anorm := e.Anorm + form n op.2 real real } := by
  simp only [cellErrors]
  rw [fold_norms]
  simp only [quadForm_form, form_mass, tensSq_eq]
  have h : ((c.elem.integrate (2 * cfg.cd + 2)).map fun q => q.w * u q.pt * u q.pt).sum = l2Sq cfg c.elem u := by
    unfold l2Sq quad
    exact congrArg List.sum (List.map_congr_left fun q _ => by ring)
  rw [h]
  rfl

omit [Field K] in
theorem bind_of_ok {α β : Type} {x : Outcome α} {g : α → Outcome β} {b : β} (h : x.bind g = .ok b) :
    ∃ a, g a = .ok b := by
  cases x with
  | ok a => exact ⟨a, h⟩
  | _ => cases h

theorem postLoop_errs (S : Solver K) (F : LDLT K) {m : DMesh P K} {f u : P → K} {gu : P → Nat → K} (s : State K)
    (sol : List K) (cells : List (DCell P K)) (r r' : Result K)
    (h : postLoop S F cfg m f u gu s sol cells r = .ok r') : ∃ sols, r'.sols = r.sols ++ sols ∧
      sols.length = cells.length ∧ r'.errs =
      { Merr := r.errs.Merr + sumCells (fun c v => cellSq cfg c.elem fun i => realSol S cfg m u c i - v i) cells sols
        L2norm := r.errs.L2norm + sumCells (fun c _ => l2Sq cfg c.elem u) cells sols
        H1err := r.errs.H1err + sumCells (fun c v => energySq cfg c.elem fun x k => gu x k -
          evalGradTail (c.elem.basis cfg.rd) (app (numCell cfg c + numFace cfg c) (operator S cfg m c).1 v) x k) cells sols
        H1norm := r.errs.H1norm + sumCells (fun c _ => energySq cfg c.elem gu) cells sols
        Aerr := r.errs.Aerr + sumCells (fun c v => form (numCell cfg c + numFace cfg c) (operator S cfg m c).2
          (fun i => realSol S cfg m u c i - v i) fun i => realSol S cfg m u c i - v i) cells sols
        Anorm := r.errs.Anorm + sumCells (fun c _ => form (numCell cfg c + numFace cfg c) (operator S cfg m c).2
          (realSol S cfg m u c) (realSol S cfg m u c)) cells sols } := by
  induction cells generalizing r with
  | nil =>
    cases h
    exact ⟨[], by simp, rfl, by simp [sumCells]⟩
  | cons c cs ih =>
    simp only [postLoop] at h
    obtain ⟨l, h⟩ := bind_of_ok h
    obtain ⟨full, h⟩ := bind_of_ok h
    obtain ⟨sols, h1, h2, h3⟩ := ih _ h
    refine ⟨List.ofFn full :: sols, by rw [h1]; simp, by simp [h2], ?_⟩
    rw [h3, cellErrors_eq]
    simp only [sumCells, List.zip_cons_cons, List.map_cons, List.sum_cons, add_assoc]
    rfl

end Verif.Lemmas.HhoSolver
