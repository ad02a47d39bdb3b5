import Verif.Lemmas.HhoVector
import Verif.Lemmas.HhoSquare
/-!
Properties of the gradient (C117), divergence (C118) and symmetric gradient (C119) reconstructions.
-/
namespace Verif.Props.HhoVector
open Finset Verif.Hho Verif.Spec.Hho Verif.Lemmas.Hho LocalMatrix

variable {K P : Type} [Field K] {d N : Nat} {cell : Elem P K} {faces : List (Face P K)}

section
variable (C : PolyCell d cell faces N)

/-! ### C117: gradient -/

/-- What the code computes: `(G û, τ)_T = -(u_T, div τ)_T + Σ (u_F, τ·n)_F` over the faces with unknowns. -/
theorem c117_relation (S : Solver K) (hd : 0 < d) (hb0 : (cell.basis 0).size = 1) {gd cd kmax : Nat} (hN : 2 * gd ≤ N)
    (hN1 : cd + gd ≤ N) (hNf : gd + kmax ≤ N) {fcs : List (InfoFace P K)} (hF : FacesIn faces kmax fcs)
    (hn : Nonsing (d * (cell.basis gd).size) (gradLhs d gd cell)) (u : Nat → K) {i : Nat}
    (hi : i < d * (cell.basis gd).size) :
    C.IT (fun x => dot d (vecFn d (cell.basis gd) x i) (evalVec d (cell.basis gd)
        (app ((cell.basis cd).size + facesDofs fcs) (gradrec d gd cd S cell fcs).1 u) x)) =
      -C.IT (fun x => vecDiv d (cell.basis gd) x i * evalFn (cell.basis cd) u x) +
      faceSum (fun f k o => C.IF f fun x => dot d (vecFn d (cell.basis gd) x i) f.normal *
        evalFn (f.basis k) (seg o u) x) fcs (cell.basis cd).size := by
  rw [← gradLhs_exact C hd hN _ hi, ← gradRhs_exact C hd hb0 hN1 hNf hF u hi]
  exact app_solveMat S (gradLhs_sym gd _ cell) hn u hi

/-- The documented relation `(G û, τ)_T = (∇u_T, τ)_T + Σ (u_F - u_T, τ·n)_F`, when every face has unknowns. -/
theorem c117_documented_partial (S : Solver K) (hd : 0 < d) (hb0 : (cell.basis 0).size = 1) {gd cd kmax : Nat}
    (hN : 2 * gd ≤ N) (hN1 : cd + gd ≤ N) (hNf : gd + kmax ≤ N) {fcs : List (InfoFace P K)}
    (hF : FacesIn faces kmax fcs) (hA : AllUnknowns faces fcs) (hP : Parts C gd cd)
    (hn : Nonsing (d * (cell.basis gd).size) (gradLhs d gd cell)) (u : Nat → K) {i : Nat}
    (hi : i < d * (cell.basis gd).size) :
    C.IT (fun x => dot d (vecFn d (cell.basis gd) x i) (evalVec d (cell.basis gd)
        (app ((cell.basis cd).size + facesDofs fcs) (gradrec d gd cd S cell fcs).1 u) x)) =
      C.IT (fun x => dot d (vecFn d (cell.basis gd) x i) (evalGrad (cell.basis cd) u x)) +
      faceSum (fun f k o => C.IF f fun x => dot d (vecFn d (cell.basis gd) x i) f.normal *
        (evalFn (f.basis k) (seg o u) x - evalFn (cell.basis cd) u x)) fcs (cell.basis cd).size := by
  rw [c117_relation C S hd hb0 hN hN1 hNf hF hn u hi]
  have hi' := div_lt_of_lt_mul hi
  simp only [dot_vecFn hd, mul_sub]
  rw [parts_eval C hP hi' (Nat.mod_lt i hd) u]
  simp only [IF_sub]
  rw [faceSum_sub, faceSum_all (fun f => C.IF f fun x => (cell.basis gd).fn x (i / d) * f.normal (i % d) *
    evalFn (cell.basis cd) u x) hA]
  unfold vecDiv
  ring

/-- The gradient of an interpolate is the L² projection of the gradient. -/
theorem c117_commutes (S : Solver K) (hd : 0 < d) (hb0 : (cell.basis 0).size = 1) {gd cd rd kmax : Nat}
    (hN : 2 * gd ≤ N) (hN1 : cd + gd ≤ N) (hNf : gd + kmax ≤ N) {fcs : List (InfoFace P K)}
    (hF : FacesIn faces kmax fcs) (hA : AllUnknowns faces fcs) (hP : Parts C gd rd) (hcd : gd ≤ cd + 1)
    (hfd : ∀ f k, (f, some k) ∈ fcs → gd ≤ k) (hn : Nonsing (d * (cell.basis gd).size) (gradLhs d gd cell))
    {a u : Nat → K} (hu : IsInterp C cd fcs (evalFn (cell.basis rd) a) u) {i : Nat}
    (hi : i < d * (cell.basis gd).size) :
    C.IT (fun x => dot d (vecFn d (cell.basis gd) x i) (evalVec d (cell.basis gd)
        (app ((cell.basis cd).size + facesDofs fcs) (gradrec d gd cd S cell fcs).1 u) x)) =
      C.IT (fun x => dot d (vecFn d (cell.basis gd) x i) (evalGrad (cell.basis rd) a x)) := by
  rw [c117_relation C S hd hb0 hN hN1 hNf hF hn u hi]
  have hi' := div_lt_of_lt_mul hi
  have hm := Nat.mod_lt i hd
  simp only [dot_vecFn hd]
  unfold vecDiv
  rw [parts_eval C hP hi' hm a, interp_cell C hu (C.mono (by omega) (C.grad_mem gd _ hi' _ hm))]
  congr 1
  rw [← faceSum_all (fun f => C.IF f fun x => (cell.basis gd).fn x (i / d) * f.normal (i % d) *
    evalFn (cell.basis rd) a x) hA (cell.basis cd).size]
  refine faceSum_congr_all (fun f k o hmem hp => ?_) hu.2
  exact interp_face C (hF f k hmem).1 hp (C.mono (hfd f k hmem) (smul_mem_right C _ (C.cell_mem gd _ hi')))

/-- If the gradient is in the space of the reconstruction, it is reproduced. -/
theorem c117_exact (S : Solver K) (hd : 0 < d) (hb0 : (cell.basis 0).size = 1) {gd cd rd kmax : Nat}
    (hN : 2 * gd ≤ N) (hN1 : cd + gd ≤ N) (hNf : gd + kmax ≤ N) {fcs : List (InfoFace P K)}
    (hF : FacesIn faces kmax fcs) (hA : AllUnknowns faces fcs) (hP : Parts C gd rd) (hcd : gd ≤ cd + 1)
    (hfd : ∀ f k, (f, some k) ∈ fcs → gd ≤ k) (hrd : rd ≤ gd + 1)
    (hn : Nonsing (d * (cell.basis gd).size) (gradLhs d gd cell))
    {a u : Nat → K} (hu : IsInterp C cd fcs (evalFn (cell.basis rd) a) u) (x : P) {c : Nat} (hc : c < d) :
    evalVec d (cell.basis gd) (app ((cell.basis cd).size + facesDofs fcs) (gradrec d gd cd S cell fcs).1 u) x c =
      evalGrad (cell.basis rd) a x c := by
  choose! g hg using fun c (hc : c < d) => C.cell_span gd _ (C.mono (by omega) (evalGrad_mem C rd a hc))
  have e : ∀ x, ∀ c < d, evalVec d (cell.basis gd) (fun j => g (j % d) (j / d)) x c = evalGrad (cell.basis rd) a x c := by
    intro x c hc
    rw [hg c hc x]
    unfold evalVec comp
    congr 1
    funext k
    dsimp only
    rw [(divmod_add hc).1, (divmod_add hc).2]
  rw [← e x c hc]
  refine evalFn_congr (fun k hk => ?_) x
  refine solve_unique hn (x := app ((cell.basis cd).size + facesDofs fcs) (gradrec d gd cd S cell fcs).1 u)
    (y := fun j => g (j % d) (j / d)) (fun i hi => ?_) (d * k + c) ?_
  · rw [gradLhs_exact C hd hN _ hi, c117_commutes C S hd hb0 hN hN1 hNf hF hA hP hcd hfd hn hu hi,
      gradLhs_exact C hd hN _ hi]
    simp only [dot_vecFn hd]
    congr 1
    funext x
    rw [e x _ (Nat.mod_lt i hd)]
  · calc d * k + c < d * k + d := by omega
      _ = d * (k + 1) := by ring
      _ ≤ _ := Nat.mul_le_mul_left d hk

/-- `data` is the form `(G û, G v̂)_T`. -/
theorem c117_energy (S : Solver K) (hd : 0 < d) {gd cd n : Nat} (hN : 2 * gd ≤ N) (fcs : List (InfoFace P K))
    (hn : Nonsing (d * (cell.basis gd).size) (gradLhs d gd cell)) (v u : Nat → K) :
    form n (gradrec d gd cd S cell fcs).2 v u = C.IT fun x =>
      dot d (evalVec d (cell.basis gd) (app n (gradrec d gd cd S cell fcs).1 u) x)
        (evalVec d (cell.basis gd) (app n (gradrec d gd cd S cell fcs).1 v) x) := by
  rw [gradrec, form_operData S _ _ _ _ (gradLhs_sym gd _ cell) hn]
  rw [sum_congr rfl fun k hk => by rw [gradLhs_exact C hd hN _ (mem_range.1 hk)], ← IT_sum]
  congr 1
  funext x
  rw [dot_comm, ← sum_vec]
  exact sum_congr rfl fun j _ => by rw [dot_comm]

/-- With a material tensor field, `data` is the form `(K G û, G v̂)_T` evaluated by the rule of degree `2 * gd`. -/
theorem c117_field (S : Solver K) {gd cd n : Nat} (field : P → Mat K) (fcs : List (InfoFace P K)) (v u : Nat → K) :
    form n (gradrecField d gd cd field S cell fcs).2 v u = quad (cell.integrate (2 * gd)) fun x =>
      dot d (evalVec d (cell.basis gd) (app n (gradrec d gd cd S cell fcs).1 v) x)
        (fun c => ∑ e ∈ range d, field x c e *
          evalVec d (cell.basis gd) (app n (gradrec d gd cd S cell fcs).1 u) x e) := by
  set G := (gradrec d gd cd S cell fcs).1 with hG
  set m := d * (cell.basis gd).size with hm
  have h1 : form n (gradrecField d gd cd field S cell fcs).2 v u =
      ∑ k ∈ range m, app n G v k * app m (fieldMass d gd field cell) (app n G u) k := by
    have e : ∀ i, app n (gradrecField d gd cd field S cell fcs).2 u i =
        ∑ k ∈ range m, G k i * app m (fieldMass d gd field cell) (app n G u) k := by
      intro i
      change app n (mul m (mul m (tpose G) (fieldMass d gd field cell)) G) u i = _
      rw [app_mul, app_mul]
      rfl
    unfold form
    simp only [e, mul_sum]
    rw [sum_comm]
    refine sum_congr rfl fun k _ => ?_
    rw [show app n G v k = ∑ i ∈ range n, G k i * v i from rfl, sum_mul]
    exact sum_congr rfl fun i _ => by ring
  have h2 : ∀ k, app m (fieldMass d gd field cell) (app n G u) k = quad (cell.integrate (2 * gd)) fun x =>
      dot d (vecFn d (cell.basis gd) x k) (fun c => ∑ e ∈ range d, field x c e *
        evalVec d (cell.basis gd) (app n G u) x e) := by
    intro k
    have e : ∀ x, dot d (vecFn d (cell.basis gd) x k) (fun c => ∑ e ∈ range d, field x c e *
        evalVec d (cell.basis gd) (app n G u) x e) = ∑ j ∈ range m, app n G u j *
        dot d (vecFn d (cell.basis gd) x k) (fun c => ∑ e ∈ range d, field x c e * vecFn d (cell.basis gd) x j e) := by
      intro x
      rw [← dot_sum]
      congr 1
      funext c
      exact ((sum_vec (d := d) (cell.basis gd) (app n G u) (fun e => field x c e) x)).symm
    simp only [e]
    rw [quad_sum]
    unfold app fieldMass
    refine sum_congr rfl fun j _ => ?_
    rw [accumDot_eq, quad_mul, mul_comm]
  rw [h1]
  simp only [h2, ← quad_mul]
  rw [← quad_sum]
  congr 1
  funext x
  rw [dot_comm, ← sum_vec]
  exact sum_congr rfl fun j _ => by rw [dot_comm]

/-- The energies are nonnegative if the weights of the rule are and, for the material tensor, if `g·K g ≥ 0` at its
points. -/
theorem c117_nonneg {K : Type} [Field K] [LinearOrder K] [IsStrictOrderedRing K] {cell : Elem P K} (S : Solver K)
    {gd cd n : Nat} (field : P → Mat K) (fcs : List (InfoFace P K)) (hw : ∀ q ∈ cell.integrate (2 * gd), 0 ≤ q.w)
    (hp : ∀ q ∈ cell.integrate (2 * gd), ∀ g : Nat → K, 0 ≤ dot d g fun c => ∑ e ∈ range d, field q.pt c e * g e)
    (v : Nat → K) : 0 ≤ form n (gradrecField d gd cd field S cell fcs).2 v v := by
  rw [c117_field]
  exact quad_nonneg hw fun q hq => hp q hq _

end

section
variable (C : PolyCell d cell faces N)

/-! ### C118: divergence -/

/-- What the code computes: `(D û, q)_T = -(u_T, ∇q)_T + Σ (u_F·n, q)_F` over the faces with unknowns. -/
theorem c118_relation (S : Solver K) (hb0 : (cell.basis 0).size = 1) {rd cd kmax : Nat} (hN : 2 * rd ≤ N)
    (hN1 : cd + rd ≤ N) (hNf : rd + kmax ≤ N) {fcs : List (InfoFace P K)} (hF : FacesIn faces kmax fcs)
    (hn : Nonsing (cell.basis rd).size (mass cell rd (cell.basis rd))) (u : Nat → K) {i : Nat}
    (hi : i < (cell.basis rd).size) :
    C.IT (fun x => (cell.basis rd).fn x i * evalFn (cell.basis rd)
        (app (d * ((cell.basis cd).size + facesDofs fcs)) (divrec d rd cd S cell fcs).1 u) x) =
      -C.IT (fun x => dot d ((cell.basis rd).grad x i) (evalVec d (cell.basis cd) u x)) +
      faceSum (fun f k o => C.IF f fun x => (cell.basis rd).fn x i *
        dot d f.normal fun c => evalFn (f.basis k) (seg o (comp d c u)) x) fcs (cell.basis cd).size := by
  rw [← mass_exact C hN _ hi, ← divRhs_exact C hb0 hN1 hNf hF u hi]
  exact app_solveMat S (mass_sym _ _ _ _) hn u hi

/-- The relation component by component. -/
theorem c118_components (S : Solver K) (hb0 : (cell.basis 0).size = 1) {rd cd kmax : Nat} (hN : 2 * rd ≤ N)
    (hN1 : cd + rd ≤ N) (hNf : rd + kmax ≤ N) {fcs : List (InfoFace P K)} (hF : FacesIn faces kmax fcs)
    (hn : Nonsing (cell.basis rd).size (mass cell rd (cell.basis rd))) (u : Nat → K) {i : Nat}
    (hi : i < (cell.basis rd).size) :
    C.IT (fun x => (cell.basis rd).fn x i * evalFn (cell.basis rd)
        (app (d * ((cell.basis cd).size + facesDofs fcs)) (divrec d rd cd S cell fcs).1 u) x) =
      ∑ c ∈ range d, (-C.IT (fun x => (cell.basis rd).grad x i c * evalFn (cell.basis cd) (comp d c u) x) +
      faceSum (fun f k o => C.IF f fun x => (cell.basis rd).fn x i * f.normal c *
        evalFn (f.basis k) (seg o (comp d c u)) x) fcs (cell.basis cd).size) := by
  rw [c118_relation C S hb0 hN hN1 hNf hF hn u hi, sum_add_distrib, sum_neg_distrib, ← faceSum_sum, ← IT_sum1]
  congr 2
  funext f k o
  rw [← IF_sum1]
  congr 1
  funext x
  unfold dot
  rw [mul_sum]
  exact sum_congr rfl fun c _ => by ring

include C in
/-- The divergence is the trace of the gradients of the components. -/
theorem c118_trace (S : Solver K) (hd : 0 < d) (hb0 : (cell.basis 0).size = 1) {rd cd kmax : Nat} (hN : 2 * rd ≤ N)
    (hN1 : cd + rd ≤ N) (hNf : rd + kmax ≤ N) {fcs : List (InfoFace P K)} (hF : FacesIn faces kmax fcs)
    (hn : Nonsing (cell.basis rd).size (mass cell rd (cell.basis rd)))
    (hng : Nonsing (d * (cell.basis rd).size) (gradLhs d rd cell)) (u : Nat → K) (x : P) :
    evalFn (cell.basis rd)
        (app (d * ((cell.basis cd).size + facesDofs fcs)) (divrec d rd cd S cell fcs).1 u) x =
      ∑ c ∈ range d, evalVec d (cell.basis rd)
        (app ((cell.basis cd).size + facesDofs fcs) (gradrec d rd cd S cell fcs).1 (comp d c u)) x c := by
  set n := (cell.basis cd).size + facesDofs fcs with hnn
  set t : Nat → Nat → K := fun c => comp d c (app n (gradrec d rd cd S cell fcs).1 (comp d c u)) with ht
  have key : ∀ j < (cell.basis rd).size,
      app (d * n) (divrec d rd cd S cell fcs).1 u j = ∑ c ∈ range d, t c j := by
    refine solve_unique hn fun i hi => ?_
    have h2 : app (cell.basis rd).size (mass cell rd (cell.basis rd)) (fun j => ∑ c ∈ range d, t c j) i =
        ∑ c ∈ range d, app (cell.basis rd).size (mass cell rd (cell.basis rd)) (t c) i := by
      unfold app
      simp only [mul_sum]
      exact sum_comm
    rw [h2, mass_exact C hN _ hi, c118_components C S hb0 hN hN1 hNf hF hn u hi]
    refine sum_congr rfl fun c hc => ?_
    have hc := mem_range.1 hc
    have hi2 : d * i + c < d * (cell.basis rd).size :=
      calc d * i + c < d * i + d := by omega
        _ = d * (i + 1) := by ring
        _ ≤ _ := Nat.mul_le_mul_left d hi
    have h3 := c117_relation C S hd hb0 hN hN1 hNf hF hng (comp d c u) hi2
    simp only [dot_vecFn hd, vecDiv, (divmod_add hc).1, (divmod_add hc).2] at h3
    rw [mass_exact C hN _ hi, ← h3]
    rfl
  rw [evalFn_congr key]
  unfold evalVec evalFn
  simp only [sum_mul]
  exact sum_comm

/-- The divergence of an interpolate is the L² projection of the divergence. -/
theorem c118_commutes (S : Solver K) (hb0 : (cell.basis 0).size = 1) {rd cd pd kmax : Nat} (hN : 2 * rd ≤ N)
    (hN1 : cd + rd ≤ N) (hNf : rd + kmax ≤ N) {fcs : List (InfoFace P K)} (hF : FacesIn faces kmax fcs)
    (hA : AllUnknowns faces fcs) (hP : Parts C rd pd) (hcd : rd ≤ cd + 1)
    (hfd : ∀ f k, (f, some k) ∈ fcs → rd ≤ k)
    (hn : Nonsing (cell.basis rd).size (mass cell rd (cell.basis rd))) {a u : Nat → K}
    (hu : ∀ c < d, IsInterp C cd fcs (evalFn (cell.basis pd) (comp d c a)) (comp d c u)) {i : Nat}
    (hi : i < (cell.basis rd).size) :
    C.IT (fun x => (cell.basis rd).fn x i * evalFn (cell.basis rd)
        (app (d * ((cell.basis cd).size + facesDofs fcs)) (divrec d rd cd S cell fcs).1 u) x) =
      C.IT (fun x => (cell.basis rd).fn x i * ∑ c ∈ range d, evalGrad (cell.basis pd) (comp d c a) x c) := by
  rw [c118_components C S hb0 hN hN1 hNf hF hn u hi]
  simp only [mul_sum]
  rw [IT_sum1]
  refine sum_congr rfl fun c hc => ?_
  have hc := mem_range.1 hc
  rw [parts_eval C hP hi hc, interp_cell C (hu c hc) (C.mono (by omega) (C.grad_mem rd i hi c hc))]
  congr 1
  rw [← faceSum_all (fun f => C.IF f fun x => (cell.basis rd).fn x i * f.normal c *
    evalFn (cell.basis pd) (comp d c a) x) hA (cell.basis cd).size]
  refine faceSum_congr_all (fun f k o hmem hp => ?_) (hu c hc).2
  exact interp_face C (hF f k hmem).1 hp (C.mono (hfd f k hmem) (smul_mem_right C _ (C.cell_mem rd i hi)))

/-- If the divergence is in the space of the reconstruction, it is reproduced; in particular divergence-free fields
have zero divergence. -/
theorem c118_exact (S : Solver K) (hb0 : (cell.basis 0).size = 1) {rd cd pd kmax : Nat} (hN : 2 * rd ≤ N)
    (hN1 : cd + rd ≤ N) (hNf : rd + kmax ≤ N) {fcs : List (InfoFace P K)} (hF : FacesIn faces kmax fcs)
    (hA : AllUnknowns faces fcs) (hP : Parts C rd pd) (hcd : rd ≤ cd + 1)
    (hfd : ∀ f k, (f, some k) ∈ fcs → rd ≤ k) (hpd : pd ≤ rd + 1)
    (hn : Nonsing (cell.basis rd).size (mass cell rd (cell.basis rd))) {a u : Nat → K}
    (hu : ∀ c < d, IsInterp C cd fcs (evalFn (cell.basis pd) (comp d c a)) (comp d c u)) (x : P) :
    evalFn (cell.basis rd)
        (app (d * ((cell.basis cd).size + facesDofs fcs)) (divrec d rd cd S cell fcs).1 u) x =
      ∑ c ∈ range d, evalGrad (cell.basis pd) (comp d c a) x c := by
  obtain ⟨g, hg⟩ := C.cell_span rd (fun x => ∑ c ∈ range d, evalGrad (cell.basis pd) (comp d c a) x c)
    (sum_mem' C fun c hc => C.mono (by omega) (evalGrad_mem C pd _ (mem_range.1 hc)))
  rw [hg x]
  refine evalFn_congr (solve_unique hn fun i hi => ?_) x
  rw [mass_exact C hN _ hi, mass_exact C hN _ hi, c118_commutes C S hb0 hN hN1 hNf hF hA hP hcd hfd hn hu hi]
  simp only [hg]

/-- `data` is the form `(D û, D v̂)_T`. -/
theorem c118_energy (S : Solver K) {rd cd n : Nat} (hN : 2 * rd ≤ N) (fcs : List (InfoFace P K))
    (hn : Nonsing (cell.basis rd).size (mass cell rd (cell.basis rd))) (v u : Nat → K) :
    form n (divrec d rd cd S cell fcs).2 v u = C.IT fun x =>
      evalFn (cell.basis rd) (app n (divrec d rd cd S cell fcs).1 u) x *
        evalFn (cell.basis rd) (app n (divrec d rd cd S cell fcs).1 v) x := by
  rw [divrec, form_operData S _ _ _ _ (mass_sym _ _ _ _) hn]
  rw [sum_congr rfl fun k hk => by rw [mass_exact C hN _ (mem_range.1 hk)], ← IT_sum]
  congr 1
  funext x
  conv_rhs => rw [evalFn, sum_mul]
  exact sum_congr rfl fun j _ => by ring

/-! ### C119: symmetric gradient -/

/-- The matrix of which the code computes only one entry in `symCount d` below the diagonal is the whole mass matrix
of the symmetric tensor basis. -/
theorem c119_mass (hd : d = 2 ∨ d = 3) (gd : Nat) (r : K) (cell : Elem P K) {i j : Nat}
    (hi : i < symCount d * (cell.basis gd).size) (hj : j < symCount d * (cell.basis gd).size) :
    symLhs d gd r cell i j = quad (cell.integrate (2 * gd)) fun x =>
      frob d (symFn d r (cell.basis gd) x i) (symFn d r (cell.basis gd) x j) := symLhs_eq hd gd r cell hi hj

/-- `(E û, τ)_T = (∇ˢu_T, τ)_T + Σ (u_F - u_T, τ n)_F` over the faces with unknowns. (`τ` is symmetric: the pairing with
the gradient is the pairing with the symmetric gradient.) -/
theorem c119_relation (S : Solver K) (h2 : (2 : K) ≠ 0) (hd : d = 2 ∨ d = 3) (hb0 : (cell.basis 0).size = 1)
    {gd cd kmax : Nat} (hN : 2 * gd ≤ N) (hN1 : gd + cd ≤ N) (hNf : gd + kmax ≤ N) {fcs : List (InfoFace P K)}
    (hF : FacesIn faces kmax fcs) (r : K) (hn : Nonsing (symCount d * (cell.basis gd).size) (symLhs d gd r cell))
    (u : Nat → K) {i : Nat} (hi : i < symCount d * (cell.basis gd).size) :
    C.IT (fun x => frob d (symFn d r (cell.basis gd) x i) (evalSym d r (cell.basis gd)
        (app (d * ((cell.basis cd).size + facesDofs fcs)) (symGradrec d gd cd r S cell fcs).1 u) x)) =
      C.IT (fun x => frob d (symFn d r (cell.basis gd) x i) fun a c => evalGrad (cell.basis cd) (comp d a u) x c) +
      faceSum (fun f k o => C.IF f fun x =>
        dot d (tensN d (symFn d r (cell.basis gd) x i) f.normal) fun c =>
          evalFn (f.basis k) (seg o (comp d c u)) x - evalVec d (cell.basis cd) u x c) fcs (cell.basis cd).size := by
  rw [← symLhs_exact C hd hN r _ hi, ← symRhs_exact C h2 hd hb0 hN1 hNf hF r u hi]
  exact app_solveMat S (symLhs_sym hd gd r cell) hn u hi

/-- The relation component by component. -/
theorem c119_components (S : Solver K) (h2 : (2 : K) ≠ 0) (hd : d = 2 ∨ d = 3) (hb0 : (cell.basis 0).size = 1)
    {gd cd kmax : Nat} (hN : 2 * gd ≤ N) (hN1 : gd + cd ≤ N) (hNf : gd + kmax ≤ N) {fcs : List (InfoFace P K)}
    (hF : FacesIn faces kmax fcs) (r : K) (hn : Nonsing (symCount d * (cell.basis gd).size) (symLhs d gd r cell))
    (u : Nat → K) {i : Nat} (hi : i < symCount d * (cell.basis gd).size) :
    C.IT (fun x => frob d (symFn d r (cell.basis gd) x i) (evalSym d r (cell.basis gd)
        (app (d * ((cell.basis cd).size + facesDofs fcs)) (symGradrec d gd cd r S cell fcs).1 u) x)) =
      ∑ a ∈ range d, ∑ c ∈ range d, symTensor r ((symPairs d).getD (i % symCount d) (0, 0)) a c *
        (C.IT (fun x => (cell.basis gd).fn x (i / symCount d) * evalGrad (cell.basis cd) (comp d a u) x c) +
        faceSum (fun f k o => C.IF f fun x => (cell.basis gd).fn x (i / symCount d) * f.normal c *
          (evalFn (f.basis k) (seg o (comp d a u)) x - evalFn (cell.basis cd) (comp d a u) x))
          fcs (cell.basis cd).size) := by
  rw [c119_relation C S h2 hd hb0 hN hN1 hNf hF r hn u hi]
  set T := symTensor r ((symPairs d).getD (i % symCount d) (0, 0)) with hT
  have e1 : C.IT (fun x => frob d (symFn d r (cell.basis gd) x i) fun a c => evalGrad (cell.basis cd) (comp d a u) x c) =
      ∑ a ∈ range d, ∑ c ∈ range d, T a c *
        C.IT (fun x => (cell.basis gd).fn x (i / symCount d) * evalGrad (cell.basis cd) (comp d a u) x c) := by
    have : (fun x => frob d (symFn d r (cell.basis gd) x i) fun a c => evalGrad (cell.basis cd) (comp d a u) x c) =
        fun x => ∑ a ∈ range d, ∑ c ∈ range d, T a c *
          ((cell.basis gd).fn x (i / symCount d) * evalGrad (cell.basis cd) (comp d a u) x c) := by
      funext x
      exact sum_congr rfl fun a _ => sum_congr rfl fun c _ => by
        rw [show symFn d r (cell.basis gd) x i a c = T a c * (cell.basis gd).fn x (i / symCount d) from rfl]; ring
    rw [this, IT_sum1]
    exact sum_congr rfl fun a _ => IT_sum C _ _ _
  have e2 : ∀ (f : Face P K) k o, C.IF f (fun x =>
        dot d (tensN d (symFn d r (cell.basis gd) x i) f.normal) fun c =>
          evalFn (f.basis k) (seg o (comp d c u)) x - evalVec d (cell.basis cd) u x c) =
      ∑ a ∈ range d, ∑ c ∈ range d, T a c * C.IF f fun x => (cell.basis gd).fn x (i / symCount d) * f.normal c *
          (evalFn (f.basis k) (seg o (comp d a u)) x - evalFn (cell.basis cd) (comp d a u) x) := by
    intro f k o
    have : (fun x =>
        dot d (tensN d (symFn d r (cell.basis gd) x i) f.normal) fun c =>
          evalFn (f.basis k) (seg o (comp d c u)) x - evalVec d (cell.basis cd) u x c) =
        fun x => ∑ a ∈ range d, ∑ c ∈ range d, T a c * ((cell.basis gd).fn x (i / symCount d) * f.normal c *
          (evalFn (f.basis k) (seg o (comp d a u)) x - evalFn (cell.basis cd) (comp d a u) x)) := by
      funext x
      unfold dot tensN
      refine sum_congr rfl fun a _ => ?_
      rw [sum_mul]
      exact sum_congr rfl fun c _ => by
        rw [show symFn d r (cell.basis gd) x i a c = T a c * (cell.basis gd).fn x (i / symCount d) from rfl]
        unfold evalVec
        ring
    rw [this, IF_sum1]
    exact sum_congr rfl fun a _ => IF_sum C f _ _ _
  simp only [e2]
  rw [e1, faceSum_sum, ← sum_add_distrib]
  refine sum_congr rfl fun a _ => ?_
  rw [faceSum_sum, ← sum_add_distrib]
  refine sum_congr rfl fun c _ => ?_
  rw [faceSum_mul, ← mul_add]

/-- When every face has unknowns, the symmetric gradient is the projection of the gradients of the components on the
symmetric tensors. -/
theorem c119_gradients (S : Solver K) (h2 : (2 : K) ≠ 0) (hd : d = 2 ∨ d = 3) (hb0 : (cell.basis 0).size = 1)
    {gd cd kmax : Nat} (hN : 2 * gd ≤ N) (hN1 : gd + cd ≤ N) (hNf : gd + kmax ≤ N) {fcs : List (InfoFace P K)}
    (hF : FacesIn faces kmax fcs) (hA : AllUnknowns faces fcs) (hP : Parts C gd cd) (r : K)
    (hn : Nonsing (symCount d * (cell.basis gd).size) (symLhs d gd r cell))
    (hng : Nonsing (d * (cell.basis gd).size) (gradLhs d gd cell))
    (u : Nat → K) {i : Nat} (hi : i < symCount d * (cell.basis gd).size) :
    C.IT (fun x => frob d (symFn d r (cell.basis gd) x i) (evalSym d r (cell.basis gd)
        (app (d * ((cell.basis cd).size + facesDofs fcs)) (symGradrec d gd cd r S cell fcs).1 u) x)) =
      C.IT (fun x => frob d (symFn d r (cell.basis gd) x i) fun a c => evalVec d (cell.basis gd)
        (app ((cell.basis cd).size + facesDofs fcs) (gradrec d gd cd S cell fcs).1 (comp d a u)) x c) := by
  have hd0 : 0 < d := by omega
  rw [c119_components C S h2 hd hb0 hN hN1 hNf hF r hn u hi]
  set T := symTensor r ((symPairs d).getD (i % symCount d) (0, 0)) with hT
  set n := (cell.basis cd).size + facesDofs fcs with hnn
  have : (fun x => frob d (symFn d r (cell.basis gd) x i) fun a c => evalVec d (cell.basis gd)
        (app n (gradrec d gd cd S cell fcs).1 (comp d a u)) x c) =
      fun x => ∑ a ∈ range d, ∑ c ∈ range d, T a c *
        ((cell.basis gd).fn x (i / symCount d) * evalVec d (cell.basis gd)
        (app n (gradrec d gd cd S cell fcs).1 (comp d a u)) x c) := by
    funext x
    exact sum_congr rfl fun a _ => sum_congr rfl fun c _ => by
      rw [show symFn d r (cell.basis gd) x i a c = T a c * (cell.basis gd).fn x (i / symCount d) from rfl]; ring
  rw [this, IT_sum1]
  refine sum_congr rfl fun a _ => ?_
  rw [IT_sum]
  refine sum_congr rfl fun c hc => ?_
  have hc := mem_range.1 hc
  congr 1
  have him := div_lt_of_lt_mul hi
  have hi2 : d * (i / symCount d) + c < d * (cell.basis gd).size :=
    calc d * (i / symCount d) + c < d * (i / symCount d) + d := by omega
      _ = d * (i / symCount d + 1) := by ring
      _ ≤ _ := Nat.mul_le_mul_left d him
  have h3 := c117_documented_partial C S hd0 hb0 hN (by omega) hNf hF hA hP hng (comp d a u) hi2
  simp only [dot_vecFn hd0, (divmod_add hc).1, (divmod_add hc).2] at h3
  exact h3.symm

/-- The symmetric gradient of an interpolate is the L² projection of the symmetric gradient. -/
theorem c119_commutes (S : Solver K) (h2 : (2 : K) ≠ 0) (hd : d = 2 ∨ d = 3) (hb0 : (cell.basis 0).size = 1)
    {gd cd pd kmax : Nat} (hN : 2 * gd ≤ N) (hN1 : gd + cd ≤ N) (hNf : gd + kmax ≤ N) {fcs : List (InfoFace P K)}
    (hF : FacesIn faces kmax fcs) (hA : AllUnknowns faces fcs) (hP : Parts C gd cd) (hP' : Parts C gd pd)
    (hcd : gd ≤ cd + 1) (hfd : ∀ f k, (f, some k) ∈ fcs → gd ≤ k) (r : K)
    (hn : Nonsing (symCount d * (cell.basis gd).size) (symLhs d gd r cell)) {p u : Nat → K}
    (hu : ∀ c < d, IsInterp C cd fcs (evalFn (cell.basis pd) (comp d c p)) (comp d c u)) {i : Nat}
    (hi : i < symCount d * (cell.basis gd).size) :
    C.IT (fun x => frob d (symFn d r (cell.basis gd) x i) (evalSym d r (cell.basis gd)
        (app (d * ((cell.basis cd).size + facesDofs fcs)) (symGradrec d gd cd r S cell fcs).1 u) x)) =
      C.IT (fun x => frob d (symFn d r (cell.basis gd) x i) fun a c => evalGrad (cell.basis pd) (comp d a p) x c) := by
  rw [c119_components C S h2 hd hb0 hN hN1 hNf hF r hn u hi]
  set T := symTensor r ((symPairs d).getD (i % symCount d) (0, 0)) with hT
  have him := div_lt_of_lt_mul hi
  have : (fun x => frob d (symFn d r (cell.basis gd) x i) fun a c => evalGrad (cell.basis pd) (comp d a p) x c) =
      fun x => ∑ a ∈ range d, ∑ c ∈ range d, T a c *
        ((cell.basis gd).fn x (i / symCount d) * evalGrad (cell.basis pd) (comp d a p) x c) := by
    funext x
    exact sum_congr rfl fun a _ => sum_congr rfl fun c _ => by
      rw [show symFn d r (cell.basis gd) x i a c = T a c * (cell.basis gd).fn x (i / symCount d) from rfl]; ring
  rw [this, IT_sum1]
  refine sum_congr rfl fun a ha => ?_
  rw [IT_sum]
  refine sum_congr rfl fun c hc => ?_
  have hc := mem_range.1 hc
  have hu := hu a (mem_range.1 ha)
  congr 1
  rw [parts_eval C hP him hc, parts_eval C hP' him hc, interp_cell C hu (C.mono (by omega) (C.grad_mem gd _ him c hc))]
  simp only [mul_sub, IF_sub]
  rw [faceSum_sub, faceSum_all (fun f => C.IF f fun x => (cell.basis gd).fn x (i / symCount d) * f.normal c *
    evalFn (cell.basis cd) (comp d a u) x) hA, ← faceSum_all (fun f => C.IF f fun x =>
      (cell.basis gd).fn x (i / symCount d) * f.normal c * evalFn (cell.basis pd) (comp d a p) x) hA (cell.basis cd).size]
  rw [faceSum_congr_all (g' := fun f _ _ => C.IF f fun x =>
      (cell.basis gd).fn x (i / symCount d) * f.normal c * evalFn (cell.basis pd) (comp d a p) x)
    (fun f k o hmem hp => interp_face C (hF f k hmem).1 hp
      (C.mono (hfd f k hmem) (smul_mem_right C _ (C.cell_mem gd _ him)))) hu.2]
  ring

/-- If the symmetric gradient is in the space of the reconstruction, it is reproduced; in particular rigid motions have
zero symmetric gradient. -/
theorem c119_exact (S : Solver K) (h2 : (2 : K) ≠ 0) (hd : d = 2 ∨ d = 3) (hb0 : (cell.basis 0).size = 1)
    {gd cd pd kmax : Nat} (hN : 2 * gd ≤ N) (hN1 : gd + cd ≤ N) (hNf : gd + kmax ≤ N) {fcs : List (InfoFace P K)}
    (hF : FacesIn faces kmax fcs) (hA : AllUnknowns faces fcs) (hP : Parts C gd cd) (hP' : Parts C gd pd)
    (hcd : gd ≤ cd + 1) (hfd : ∀ f k, (f, some k) ∈ fcs → gd ≤ k) (hpd : pd ≤ gd + 1) {r : K} (hr : r ≠ 0)
    (hn : Nonsing (symCount d * (cell.basis gd).size) (symLhs d gd r cell)) {p u : Nat → K}
    (hu : ∀ c < d, IsInterp C cd fcs (evalFn (cell.basis pd) (comp d c p)) (comp d c u)) (x : P) {a c : Nat}
    (ha : a < d) (hc : c < d) :
    evalSym d r (cell.basis gd)
        (app (d * ((cell.basis cd).size + facesDofs fcs)) (symGradrec d gd cd r S cell fcs).1 u) x a c =
      (evalGrad (cell.basis pd) (comp d a p) x c + evalGrad (cell.basis pd) (comp d c p) x a) / 2 := by
  set F : P → Nat → Nat → K := fun x a c =>
    1 / 2 * (evalGrad (cell.basis pd) (comp d a p) x c + evalGrad (cell.basis pd) (comp d c p) x a) with hFdef
  obtain ⟨t, ht⟩ := symSpan C hd hr (gd := gd) (F := F) (fun x a c => by simp only [hFdef]; ring) fun a ha c hc =>
    smul_mem' C _ (Submodule.add_mem _ (C.mono (by omega) (evalGrad_mem C pd _ hc))
      (C.mono (by omega) (evalGrad_mem C pd _ ha)))
  have key : ∀ j < symCount d * (cell.basis gd).size,
      app (d * ((cell.basis cd).size + facesDofs fcs)) (symGradrec d gd cd r S cell fcs).1 u j = t j := by
    refine solve_unique hn fun i hi => ?_
    rw [symLhs_exact C hd hN r _ hi, symLhs_exact C hd hN r _ hi,
      c119_commutes C S h2 hd hb0 hN hN1 hNf hF hA hP hP' hcd hfd r hn hu hi]
    congr 1
    funext x
    rw [frob_congr (B' := F x) fun a ha c hc => ht x a ha c hc]
    exact (frob_half h2 (symFn_sym r _ x i) _).symm
  have : evalSym d r (cell.basis gd)
        (app (d * ((cell.basis cd).size + facesDofs fcs)) (symGradrec d gd cd r S cell fcs).1 u) x a c =
      evalSym d r (cell.basis gd) t x a c := sum_congr rfl fun j hj => by rw [key j (mem_range.1 hj)]
  rw [this, ht x a ha c hc]
  simp only [hFdef]
  ring

/-- `data` is the form `(E û, E v̂)_T`. -/
theorem c119_energy (S : Solver K) (hd : d = 2 ∨ d = 3) {gd cd n : Nat} (hN : 2 * gd ≤ N) (fcs : List (InfoFace P K))
    (r : K) (hn : Nonsing (symCount d * (cell.basis gd).size) (symLhs d gd r cell)) (v u : Nat → K) :
    form n (symGradrec d gd cd r S cell fcs).2 v u = C.IT fun x =>
      frob d (evalSym d r (cell.basis gd) (app n (symGradrec d gd cd r S cell fcs).1 u) x)
        (evalSym d r (cell.basis gd) (app n (symGradrec d gd cd r S cell fcs).1 v) x) := by
  rw [symGradrec, form_operData S _ _ _ _ (symLhs_sym hd gd r cell) hn]
  rw [sum_congr rfl fun k hk => by rw [symLhs_exact C hd hN r _ (mem_range.1 hk)], ← IT_sum]
  congr 1
  funext x
  conv_rhs => rw [frob_comm]
  conv_rhs =>
    rw [show (evalSym d r (cell.basis gd) (app n (operData S (symCount d * (cell.basis gd).size) (symLhs d gd r cell)
      (symRhs d gd cd r cell fcs)).1 u) x) = fun a b => ∑ j ∈ range (symCount d * (cell.basis gd).size),
      app n (operData S (symCount d * (cell.basis gd).size) (symLhs d gd r cell)
      (symRhs d gd cd r cell fcs)).1 u j * symFn d r (cell.basis gd) x j a b from rfl, frob_sum]
  exact sum_congr rfl fun j _ => by rw [frob_comm]

end

/-! ### Instances -/

/-- On a cell with a face without unknowns the documented relation fails: on the segment with unknowns at one end point
only, the gradient of the interpolate of the constant 1 is not zero. -/
theorem c117_documented_violated (S : Solver ℚ) :
    ∃ (fcs : List (InfoFace ℚ ℚ)) (u : Nat → ℚ), fcs.map Prod.fst = segFaces ∧ FacesIn segFaces 0 fcs ∧
      IsInterp segPoly 0 fcs (fun _ => 1) u ∧
      segPoly.IT (fun x => dot 1 (vecFn 1 (segCell.basis 0) x 0) (evalVec 1 (segCell.basis 0)
        (app ((segCell.basis 0).size + facesDofs fcs) (gradrec 1 0 0 S segCell fcs).1 u) x)) = 1 ∧
      segPoly.IT (fun x => dot 1 (vecFn 1 (segCell.basis 0) x 0) (evalGrad (segCell.basis 0) u x)) +
        faceSum (fun f k o => segPoly.IF f fun x => dot 1 (vecFn 1 (segCell.basis 0) x 0) f.normal *
          (evalFn (f.basis k) (seg o u) x - evalFn (segCell.basis 0) u x)) fcs (segCell.basis 0).size = 0 := by
  have hF : FacesIn segFaces 0 [(endPoint 0 (-1) 1, none), (endPoint 1 1 1, some 0)] := by
    intro f k h
    simp only [List.mem_cons, Prod.mk.injEq, List.not_mem_nil, or_false, reduceCtorEq, and_false, false_or,
      Option.some.injEq] at h
    exact ⟨by rw [h.1]; simp [segFaces], by omega⟩
  refine ⟨[(endPoint 0 (-1) 1, none), (endPoint 1 1 1, some 0)], fun _ => 1, rfl, hF, ?_, ?_, ?_⟩
  · refine ⟨fun i hi => ?_, fun i hi => ?_, trivial⟩
    · obtain rfl : i = 0 := by
        have : i < 1 := hi
        omega
      simp [segPoly, quadLin, quad, segCell, lineBasis, evalFn]
    · obtain rfl : i = 0 := by
        have : i < 1 := hi
        omega
      simp [segPoly, quadLin, quad, endPoint, evalFn, seg]
  · rw [c117_relation segPoly S (by omega) rfl (by omega) (by omega) (by omega) hF ?_ _ (by decide)]
    · simp [segPoly, quadLin, quad, segCell, lineBasis, evalFn, endPoint, faceSum, vecDiv, vecFn, dot, seg]
    · intro x h j hj
      obtain rfl : j = 0 := by
        have : j < 1 := hj
        omega
      have h0 := h 0 (by decide)
      rw [show 1 * (segCell.basis 0).size = 1 from rfl, sum_range_one,
        show gradLhs 1 0 segCell 0 0 = 1 by decide +kernel, one_mul] at h0
      exact h0
  · simp [segPoly, quadLin, quad, segCell, lineBasis, evalFn, evalGrad, endPoint, faceSum, vecFn, dot, seg]

/-- The gradient of `p = x` on the square is reproduced. -/
example : ∃ u : Nat → ℚ, ∀ x, ∀ c < 2, evalVec 2 (sqCell.basis 0) (app ((sqCell.basis 0).size + facesDofs sqInfo)
    (gradrec 2 0 0 (exactSolver ℚ) sqCell sqInfo).1 u) x c =
    evalGrad (sqCell.basis 1) (fun j => if j = 1 then 1 else 0) x c := by
  obtain ⟨u, hu⟩ := sqInterp (fun k => if k / 2 = 1 then 1 else 0)
  have hu := hu 0 (by omega)
  have : comp 2 0 (fun k => if k / 2 = 1 then (1 : ℚ) else 0) = fun j => if j = 1 then 1 else 0 := by
    funext k
    unfold comp
    dsimp only
    rw [Nat.add_zero, Nat.mul_div_cancel_left k (by omega)]
  rw [this] at hu
  exact ⟨comp 2 0 u, fun x c hc => c117_exact sqPoly (exactSolver ℚ) (by omega) rfl (by omega) (by omega) (by omega)
    sqFacesIn sqAll (sqParts 0 (by omega) 1 (by omega)) (by omega) (fun _ _ _ => Nat.zero_le _) (by omega)
    sqGradNonsing hu x hc⟩

/-- The rotation `(-y, x)` has zero divergence and zero symmetric gradient. -/
example : ∃ u : Nat → ℚ, (∀ c < 2, IsInterp sqPoly 0 sqInfo (evalFn (sqCell.basis 1)
      (comp 2 c fun k => if k = 4 then -1 else if k = 3 then 1 else 0)) (comp 2 c u)) ∧
    (∀ x, evalFn (sqCell.basis 0) (app (2 * ((sqCell.basis 0).size + facesDofs sqInfo))
      (divrec 2 0 0 (exactSolver ℚ) sqCell sqInfo).1 u) x = 0) ∧
    ∀ x, ∀ a < 2, ∀ c < 2, evalSym 2 1 (sqCell.basis 0) (app (2 * ((sqCell.basis 0).size + facesDofs sqInfo))
      (symGradrec 2 0 0 1 (exactSolver ℚ) sqCell sqInfo).1 u) x a c = 0 := by
  obtain ⟨u, hu⟩ := sqInterp (fun k => if k = 4 then -1 else if k = 3 then 1 else 0)
  have e : ∀ x, ∀ a < 2, ∀ c < 2, evalGrad (sqCell.basis 1)
      (comp 2 a fun k => if k = 4 then (-1 : ℚ) else if k = 3 then 1 else 0) x c =
      if a = c then 0 else if a = 0 then -1 else 1 := by
    intro x a ha c hc
    unfold evalGrad
    rw [show (sqCell.basis 1).size = 3 from rfl]
    have g0 : ∀ c, (sqCell.basis 1).grad x 0 c = 0 := fun c => sqPoly.grad_one 1 x c
    have g1 : ∀ c, (sqCell.basis 1).grad x 1 c = if c = 0 then 1 else 0 := by
      intro c
      simp [sqCell, sqBasis, sqExps, sqMon, List.range_succ]
    have g2 : ∀ c, (sqCell.basis 1).grad x 2 c = if c = 0 then 0 else 1 := by
      intro c
      simp [sqCell, sqBasis, sqExps, sqMon, List.range_succ]
    simp only [sum_range_succ, range_zero, sum_empty, g0, g1, g2]
    interval_cases a <;> interval_cases c <;> simp [comp]
  refine ⟨u, hu, fun x => ?_, fun x a ha c hc => ?_⟩
  · rw [c118_exact sqPoly (exactSolver ℚ) rfl (by omega) (by omega) (by omega) sqFacesIn sqAll
      (sqParts 0 (by omega) 1 (by omega)) (by omega) (fun _ _ _ => Nat.zero_le _) (by omega) sqMass hu x]
    simp only [sum_range_succ, range_zero, sum_empty]
    rw [e x 0 (by omega) 0 (by omega), e x 1 (by omega) 1 (by omega)]
    simp
  · rw [c119_exact sqPoly (exactSolver ℚ) two_ne_zero (Or.inl rfl) rfl (by omega) (by omega) (by omega) sqFacesIn sqAll
      (sqParts 0 (by omega) 0 (by omega)) (sqParts 0 (by omega) 1 (by omega)) (by omega) (fun _ _ _ => Nat.zero_le _)
      (by omega) one_ne_zero sqSymNonsing hu x ha hc, e x a ha c hc, e x c hc a ha]
    interval_cases a <;> interval_cases c <;> simp

end Verif.Props.HhoVector
