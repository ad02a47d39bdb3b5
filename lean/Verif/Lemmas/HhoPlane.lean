import Verif.Lemmas.HhoCurlPot
/-!
The plane curl operators are those of the scalar Laplacian.
-/
namespace Verif.Lemmas.Hho
open Finset Verif.Hho Verif.Spec.Hho LocalMatrix

variable {K P : Type} [Field K] {N : Nat} {cell : Elem P K} {faces : List (Face P K)}

theorem dot2 (a b : Nat → K) : dot 2 a b = a 0 * b 0 + a 1 * b 1 := by
  simp [dot, sum_range_succ]

theorem dot_planeCurl (b c : Basis P K) (x : P) (i j : Nat) :
    dot 2 (planeCurl b x i) (planeCurl c x j) = dot 2 (b.grad x i) (c.grad x j) := by
  simp only [dot2, planeCurl]
  simp
  ring

theorem planeCross_flux (b : Basis P K) (x : P) (n : Nat → K) (i : Nat) :
    planeCross (planeCurl b x (1 + i)) n = fluxN 2 none b n x i := by
  unfold fluxN rflux flux tailRows
  rw [dot2, Nat.add_comm 1 i]
  simp only [planeCross, planeCurl]
  simp
  ring

theorem app_planeFaces (rd fd : Nat) (rb cb : Basis P K) {n : Nat} (hcb : cb.size ≤ n) (u : Nat → K)
    {i : Nat} (hi : i < rb.size - 1) (fs : List (Face P K)) (off : Nat) (M : Mat K)
    (ho : off + facesDofs (uniform fd fs) ≤ n) :
    app n (planeCurlFaces rd fd rb cb fs off M) u i = app n M u i +
      faceSum (fun f k o => quad (f.integrate (2 * rd)) fun x =>
        fluxN 2 none rb f.normal x i * (evalFn (f.basis k) (seg o u) x - evalFn cb u x)) (uniform fd fs) off := by
  induction fs generalizing off M with
  | nil => simp [planeCurlFaces, uniform, faceSum]
  | cons f fs ih =>
    rw [uniform_cons, facesDofs_cons] at ho
    rw [planeCurlFaces, ih _ _ (by omega), uniform_cons, faceSum, ← add_assoc]
    congr 1
    generalize f.integrate (2 * rd) = qs
    induction qs generalizing M with
    | nil => simp [quad]
    | cons q qs ihq =>
      rw [List.foldl_cons, ihq, app_addBlock (by omega), app_subBlock (by omega), quad_cons, if_pos (by omega),
        if_pos (by omega), seg_zero]
      have h1 : ∀ (g : Nat → K) (w : Nat → K) (m : Nat),
          app m (fun i j => q.w * planeCross (planeCurl rb q.pt (1 + i)) f.normal * g j) w (i - 0) =
          q.w * (fluxN 2 none rb f.normal q.pt i * ∑ j ∈ range m, w j * g j) := by
        intro g w m
        unfold app
        rw [mul_sum, mul_sum]
        exact sum_congr rfl fun j _ => by
          dsimp only
          rw [Nat.sub_zero, planeCross_flux]
          ring
      rw [h1, h1]
      unfold evalFn
      ring

/-- The stiffness matrix of the plane curls. -/
def planeStiff (rd : Nat) (cell : Elem P K) : Mat K :=
  accumDot 2 (cell.integrate (2 * rd)) (planeCurl (cell.basis rd)) (planeCurl (cell.basis rd))

section
variable (C : PolyCell 2 cell faces N)

include C in
theorem planeStiff_eq {rd : Nat} (hN : 2 * rd ≤ N) {i j : Nat} (hi : i < (cell.basis rd).size - 1)
    (hj : j < (cell.basis rd).size - 1) :
    block (planeStiff rd cell) 1 1 i j = lapLhs 2 none (cell.basis rd) rd cell i j := by
  unfold block planeStiff lapLhs
  rw [accumDot_eq, accumDot_eq]
  simp only [dot_planeCurl, rflux, flux]
  unfold tailRows
  have h := dot_mem C (fun c hc => C.grad_mem rd (1 + i) (by omega) c hc) fun c hc => C.grad_mem rd (1 + j) (by omega) c hc
  rw [cell_quad C (m := 2 * rd) (by omega) hN h]
  rw [Nat.add_comm 1 i, Nat.add_comm 1 j] at h ⊢
  rw [← cell_quad C (m := 2 * (rd - 1)) (by omega) (by omega) h]

include C in
theorem app_planeRhs {rd cd fd : Nat} (hcd : cd ≤ rd) (hnest : Nested cell) (hN : 2 * rd ≤ N)
    (hNf : rd + fd ≤ N) (hfd : fd ≤ rd + 1) (hrd : 0 < rd) (S : Solver K) (u : Nat → K) {i : Nat} (hi : i < (cell.basis rd).size - 1) :
    app ((cell.basis cd).size + facesDofs (uniform fd faces)) (planeCurlFaces rd fd (cell.basis rd) (cell.basis cd) faces
        (cell.basis cd).size (setBlock zero 0 0 ((cell.basis rd).size - 1) (cell.basis cd).size
          (block (planeStiff rd cell) 1 0))) u i =
      app ((cell.basis cd).size + facesDofs (uniform fd faces))
        (lapRhs 2 none false S (cell.basis rd) rd cd fd cell faces) u i := by
  obtain ⟨hsz, hb⟩ := hnest cd rd hcd
  rw [app_planeFaces rd fd _ _ (by omega) u hi _ _ _ (le_refl _), app_lapRhs S _ rd cd fd cell faces u hi]
  congr 1
  · have e : ∀ j < (cell.basis cd).size + facesDofs (uniform fd faces),
        setBlock zero 0 0 ((cell.basis rd).size - 1) (cell.basis cd).size (block (planeStiff rd cell) 1 0) i j =
        addBlock zero 0 0 ((cell.basis rd).size - 1) (cell.basis cd).size (block (planeStiff rd cell) 1 0) i j := by
      intro j _
      unfold setBlock addBlock zero
      split_ifs <;> simp
    rw [app_congr e fun _ _ => rfl, app_addBlock (by omega), app_zero, if_pos (by omega), seg_zero, zero_add, Nat.sub_zero]
    have hm := dot_mem C (fun c hc => rflux_mem (tens := none) C rd (i := i) (by omega) hc) fun c hc => evalGrad_mem C cd u hc
    rw [cell_quad C (m := 2 * (rd - 1)) (by omega) (by omega) hm, ← cell_quad C (m := 2 * rd) (by omega) hN hm]
    unfold app evalGrad block planeStiff
    simp only [accumDot_eq, dot_sum]
    rw [quad_sum]
    refine sum_congr rfl fun j hj => ?_
    rw [quad_mul, mul_comm, Nat.zero_add, Nat.add_comm 1 i]
    congr 2
    funext x
    rw [dot_planeCurl, (hb j (mem_range.1 hj) x).2]
    rfl
  · refine faceSum_congr (fun f k o hm => ?_) _
    obtain ⟨hf, rfl⟩ := mem_uniform hm
    have h : OnV C f (rd - 1 + max cd k) fun x => fluxN 2 none (cell.basis rd) f.normal x i *
        (evalFn (f.basis k) (seg o u) x - evalFn (cell.basis cd) u x) :=
      OnV.mul C (OnV.of_mem C (fluxN_mem (tens := none) C rd f.normal (by omega)))
        (OnV.sub C (OnV.mono C (by omega) (OnV.evalFb C hf k _)) (OnV.mono C (by omega) (OnV.of_mem C (evalFn_mem C cd u))))
    rw [face_quad C hf (m := 2 * rd) (by omega) hN h, face_quad C hf (m := rd + max cd k) (by omega) (by omega) h]

include C in
/-- The plane stabilization is the HDG stabilization scaled by the diameters of the faces. -/
theorem form_planeHdgFaces (S : Solver K) {cd fd n : Nat} (hN : 2 * max cd fd + 2 ≤ N) (v u : Nat → K)
    (fs : List (Face P K)) (hfs : ∀ f ∈ fs, f ∈ faces)
    (hm : ∀ f ∈ fs, Nonsing (f.basis fd).size (mass f.toElem fd (f.basis fd)))
    (off : Nat) (M : Mat K) (ho : off + facesDofs (uniform fd fs) ≤ n) (hc : (cell.basis cd).size ≤ off) :
    form n (planeHdgFaces S cd fd (cell.basis cd) fs off M) v u = form n M v u +
      faceSum (fun f k o => quad (f.integrate (2 * k)) (fun x => evalFn (f.basis k) (hdgDelta S cd k cell f o v) x *
        evalFn (f.basis k) (hdgDelta S cd k cell f o u) x) / f.diam) (uniform fd fs) off := by
  induction fs generalizing off M with
  | nil => simp [planeHdgFaces, uniform, faceSum]
  | cons f fs ih =>
    have hf := hfs f List.mem_cons_self
    have hmf := hm f List.mem_cons_self
    rw [uniform_cons, facesDofs_cons] at ho
    rw [planeHdgFaces, ih (fun f hf => hfs f (List.mem_cons_of_mem _ hf)) (fun f hf => hm f (List.mem_cons_of_mem _ hf)) _ _
      (by omega) (by omega), form_addMat, uniform_cons, faceSum, add_assoc]
    congr 2
    rw [form_divMat, form_jumpTerm S (by omega) hc]
    congr 1
    set qs := f.integrate (2 * max cd fd + 2) with hqs
    have hmass : ∀ i < (f.basis fd).size, ∀ j < (f.basis fd).size,
        accum qs (f.basis fd).fn (f.basis fd).fn i j = mass f.toElem fd (f.basis fd) i j := by
      intro i hi j hj
      have h := OnV.mul C (OnV.fb C hf hi) (OnV.fb C hf hj)
      rw [accum_eq, mass_eq, hqs, face_quad C hf (n := fd + fd) (by omega) (by omega) h,
        face_quad C hf (n := fd + fd) (m := 2 * fd) (by omega) (by omega) h]
    have htrace : ∀ i < (f.basis fd).size, ∀ j < (cell.basis cd).size,
        accum qs (f.basis fd).fn (cell.basis cd).fn i j = traceMat f (fd + cd) (f.basis fd) (cell.basis cd) i j := by
      intro i hi j hj
      have h := OnV.mul C (OnV.fb C hf hi) (OnV.of_mem C (C.cell_mem cd j hj))
      rw [traceMat, accum_eq, accum_eq, hqs, face_quad C hf (n := fd + cd) (by omega) (by omega) h,
        face_quad C hf (n := fd + cd) (m := fd + cd) (by omega) (by omega) h]
    have hs : SymOn (f.basis fd).size (accum qs (f.basis fd).fn (f.basis fd).fn) := by
      intro i hi j hj
      rw [hmass i hi j hj, hmass j hj i hi, mass_sym f.toElem fd _ (f.basis fd) i hi j hj]
    have hn : Nonsing (f.basis fd).size (accum qs (f.basis fd).fn (f.basis fd).fn) := by
      intro x hx
      refine hmf x fun i hi => ?_
      rw [← hx i hi]
      exact sum_congr rfl fun j hj => by rw [hmass i hi j (mem_range.1 hj)]
    have hj : ∀ w : Nat → K, ∀ k < (f.basis fd).size, jumpOf S (f.basis fd).size (cell.basis cd).size off
        (accum qs (f.basis fd).fn (f.basis fd).fn) (accum qs (f.basis fd).fn (cell.basis cd).fn) w k =
        -hdgDelta S cd fd cell f off w k := by
      intro w k hk
      unfold jumpOf hdgDelta
      have := solve_unique hmf
        (x := app (cell.basis cd).size (S.solveMat (f.basis fd).size (accum qs (f.basis fd).fn (f.basis fd).fn)
          (accum qs (f.basis fd).fn (cell.basis cd).fn)) w)
        (y := app (cell.basis cd).size (S.solveMat (f.basis fd).size (mass f.toElem fd (f.basis fd))
          (traceMat f (fd + cd) (f.basis fd) (cell.basis cd))) w) (fun i hi => ?_) k hk
      · rw [this]
        ring
      · rw [app_solveMat S (mass_sym f.toElem fd _ (f.basis fd)) hmf w hi,
          ← app_congr (fun j hj => hmass i hi j hj) fun _ _ => rfl, app_solveMat S hs hn w hi]
        exact app_congr (fun j hj => htrace i hi j hj) fun _ _ => rfl
    rw [← form_mass f.toElem fd (f.basis fd)]
    refine sum_congr rfl fun k hk => ?_
    rw [hj v k (mem_range.1 hk), app_congr (B := mass f.toElem fd (f.basis fd))
      (v := fun k => -hdgDelta S cd fd cell f off u k) (fun j hj => hmass k (mem_range.1 hk) j hj) fun k hk => hj u k hk]
    unfold app
    simp only [mul_neg, sum_neg_distrib, neg_mul, neg_neg]

end

end Verif.Lemmas.Hho
