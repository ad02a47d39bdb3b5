import Verif.Lemmas.HhoRec
/-!
Helper lemmas for the stabilization operators of the scalar HHO method.
-/
namespace Verif.Lemmas.Hho
open Finset Verif.Hho Verif.Spec.Hho LocalMatrix

variable {K P : Type} [Field K] {d N : Nat} {cell : Elem P K} {faces : List (Face P K)}

/-! ### Bilinear forms -/

theorem form_zero (n : Nat) (v u : Nat → K) : form n zero v u = 0 := by simp [form, app_zero]

theorem form_addMat (n : Nat) (A B : Mat K) (v u : Nat → K) : form n (addMat A B) v u = form n A v u + form n B v u := by
  simp only [form, app_addMat, mul_add, sum_add_distrib]

theorem form_divMat (n : Nat) (A : Mat K) (h : K) (v u : Nat → K) : form n (divMat A h) v u = form n A v u / h := by
  simp only [form, app_divMat, div_eq_mul_inv, sum_mul]
  exact sum_congr rfl fun _ _ => by ring

theorem form_trans (n : Nat) (A : Mat K) (v u : Nat → K) : form n (tpose A) v u = form n A u v := by
  simp only [form, app, mul_sum, tpose]
  rw [sum_comm]
  exact sum_congr rfl fun _ _ => sum_congr rfl fun _ _ => by ring

theorem form_mul_trans (n m : Nat) (A B : Mat K) (v u : Nat → K) :
    form n (mul m (tpose A) B) v u = ∑ k ∈ range m, app n A v k * app n B u k := by
  have e : ∀ i, app n (mul m (tpose A) B) u i = ∑ k ∈ range m, A k i * app n B u k := fun i => app_mul n m _ _ u i
  simp only [form, e, mul_sum]
  rw [sum_comm]
  refine sum_congr rfl fun k _ => ?_
  rw [show app n A v k = ∑ i ∈ range n, A k i * v i from rfl, sum_mul]
  exact sum_congr rfl fun i _ => by ring

theorem evalFn_mul (b : Basis P K) (x : Nat → K) (p : P) (w : K) :
    evalFn b x p * w = ∑ j ∈ range b.size, x j * (b.fn p j * w) := by
  rw [evalFn, sum_mul]
  exact sum_congr rfl fun i _ => by ring

/-- `Σ_k δ_k(v) (m δ(u))_k` as an integral. -/
theorem form_mass (e : Elem P K) (k : Nat) (b : Basis P K) (x y : Nat → K) :
    ∑ i ∈ range b.size, x i * app b.size (mass e k b) y i =
      quad (e.integrate (2 * k)) fun p => evalFn b x p * evalFn b y p := by
  have h : ∀ i, app b.size (mass e k b) y i = quad (e.integrate (2 * k)) fun p => b.fn p i * evalFn b y p :=
    fun i => app_eval fun j _ => mass_eq ..
  simp only [h, ← quad_mul]
  rw [← quad_sum]
  refine quad_congr fun q _ => ?_
  exact (evalFn_mul _ _ _ _).symm

theorem form_addBlock {n : Nat} {M B : Mat K} {r c nr nc : Nat} (hr : r + nr ≤ n) (hc : c + nc ≤ n) (v u : Nat → K) :
    form n (addBlock M r c nr nc B) v u = form n M v u + ∑ i ∈ range nr, seg r v i * app nc B (seg c u) i := by
  unfold form
  simp only [app_addBlock hc, mul_add, sum_add_distrib]
  congr 1
  rw [← sum_seg hr (fun i => v i * app nc B (seg c u) (i - r))|>.trans (sum_congr rfl fun i _ => by
    rw [Nat.add_sub_cancel_left]; rfl)]
  exact sum_congr rfl fun i _ => by split_ifs <;> simp

theorem form_subBlock {n : Nat} {M B : Mat K} {r c nr nc : Nat} (hr : r + nr ≤ n) (hc : c + nc ≤ n) (v u : Nat → K) :
    form n (subBlock M r c nr nc B) v u = form n M v u - ∑ i ∈ range nr, seg r v i * app nc B (seg c u) i := by
  rw [subBlock_eq, form_addBlock hr hc]
  simp only [app_negMat, mul_neg, sum_neg_distrib, sub_eq_add_neg]

/-! ### HDG stabilization -/

theorem app_setBlocks {n off fbs cbs : Nat} (ho : off + fbs ≤ n) (hc : cbs ≤ off) (A B : Mat K) (u : Nat → K) {i : Nat}
    (hi : i < fbs) :
    app n (setBlock (setBlock zero 0 off fbs fbs A) 0 0 fbs cbs B) u i = app fbs A (seg off u) i + app cbs B u i := by
  have e : setBlock (setBlock (zero : Mat K) 0 off fbs fbs A) 0 0 fbs cbs B =
      addBlock (addBlock zero 0 off fbs fbs A) 0 0 fbs cbs B := by
    funext a b
    unfold setBlock addBlock zero
    by_cases h1 : 0 ≤ a ∧ a < 0 + fbs ∧ 0 ≤ b ∧ b < 0 + cbs
    · rw [if_pos h1, if_pos h1, if_neg (by omega), zero_add]
    · rw [if_neg h1, if_neg h1]
      split_ifs <;> simp
  rw [e, app_addBlock (by omega), app_addBlock ho, app_zero, if_pos (by omega), if_pos (by omega), seg_zero, zero_add,
    Nat.sub_zero]

/-- The difference `π_F u_T - u_F` computed by the HDG stabilization. -/
def hdgDelta (S : Solver K) (cd k : Nat) (cell : Elem P K) (fc : Face P K) (off : Nat) (u : Nat → K) : Nat → K :=
  fun i => app (cell.basis cd).size (S.solveMat (fc.basis k).size (mass fc.toElem k (fc.basis k))
    (traceMat fc (k + cd) (fc.basis k) (cell.basis cd))) u i - u (off + i)

theorem form_hdgFace (S : Solver K) (hF : Bool) {cd k n off : Nat} {fc : Face P K}
    (hm : Nonsing (fc.basis k).size (mass fc.toElem k (fc.basis k)))
    (ho : off + (fc.basis k).size ≤ n) (hc : (cell.basis cd).size ≤ off) (v u : Nat → K) :
    form n (hdgFace S hF cd k cell fc off) v u =
      quad (fc.integrate (2 * k)) (fun x => evalFn (fc.basis k) (hdgDelta S cd k cell fc off v) x *
        evalFn (fc.basis k) (hdgDelta S cd k cell fc off u) x) / hOf hF cell fc := by
  unfold hdgFace
  simp only
  rw [form_divMat, form_mul_trans]
  congr 1
  have h1 : ∀ (w : Nat → K) (i : Nat), i < (fc.basis k).size →
      app n (setBlock (setBlock zero 0 off (fc.basis k).size (fc.basis k).size (negMat ident)) 0 0 (fc.basis k).size
        (cell.basis cd).size (S.solveMat (fc.basis k).size (mass fc.toElem k (fc.basis k))
          (traceMat fc (k + cd) (fc.basis k) (cell.basis cd)))) w i = hdgDelta S cd k cell fc off w i := by
    intro w i hi
    rw [app_setBlocks ho hc _ _ w hi, app_negMat, app_ident hi, hdgDelta]
    simp only [seg]
    ring
  have h2 : ∀ i < (fc.basis k).size,
      app n (setBlock (setBlock zero 0 off (fc.basis k).size (fc.basis k).size
        (negMat (mass fc.toElem k (fc.basis k)))) 0 0 (fc.basis k).size (cell.basis cd).size
        (traceMat fc (k + cd) (fc.basis k) (cell.basis cd))) u i =
      app (fc.basis k).size (mass fc.toElem k (fc.basis k)) (hdgDelta S cd k cell fc off u) i := by
    intro i hi
    rw [app_setBlocks ho hc _ _ u hi, app_negMat,
      ← app_solveMat S (mass_sym fc.toElem k _ (fc.basis k)) hm u hi (B := traceMat fc (k + cd) (fc.basis k) (cell.basis cd))]
    unfold app hdgDelta seg
    simp only [mul_sub, sum_sub_distrib, app]
    ring
  rw [sum_congr rfl fun i hi => by rw [h1 v i (mem_range.1 hi), h2 i (mem_range.1 hi)]]
  exact form_mass fc.toElem k (fc.basis k) _ _

theorem form_hdgFaces (S : Solver K) (hF : Bool) {cd n : Nat} (fcs : List (InfoFace P K)) (off : Nat) (M : Mat K)
    (hm : ∀ f k, (f, some k) ∈ fcs → Nonsing (f.basis k).size (mass f.toElem k (f.basis k)))
    (ho : off + facesDofs fcs ≤ n) (hc : (cell.basis cd).size ≤ off) (v u : Nat → K) :
    form n (hdgFaces S hF cd cell fcs off M) v u = form n M v u + faceSum (fun f k o =>
      quad (f.integrate (2 * k)) (fun x => evalFn (f.basis k) (hdgDelta S cd k cell f o v) x *
        evalFn (f.basis k) (hdgDelta S cd k cell f o u) x) / hOf hF cell f) fcs off := by
  induction fcs generalizing off M with
  | nil => simp [hdgFaces, faceSum]
  | cons a fs ih =>
    have hm' := fun f k h => hm f k (List.mem_cons_of_mem _ h)
    obtain ⟨f, _ | k⟩ := a
    · rw [facesDofs_cons_none] at ho
      exact ih off M hm' ho hc
    · rw [facesDofs_cons] at ho
      rw [hdgFaces, ih _ _ hm' (by omega) (by omega), faceSum, form_addMat,
        form_hdgFace S hF (hm f k List.mem_cons_self) (by omega) hc]
      ring

/-! ### DG stabilization -/

theorem form_dgFace (C : PolyCell d cell faces N) (hF : Bool) {cd k n off : Nat} {fc : Face P K} (hf : fc ∈ faces)
    (h1 : 2 * cd ≤ N) (h2 : 2 * k ≤ N)
    (ho : off + (fc.basis k).size ≤ n) (hc : (cell.basis cd).size ≤ off) (M : Mat K) (v u : Nat → K) :
    form n (dgFace hF cd k cell fc off M) v u = form n M v u +
      C.IF fc (fun x => (evalFn (fc.basis k) (seg off v) x - evalFn (cell.basis cd) v x) *
        (evalFn (fc.basis k) (seg off u) x - evalFn (cell.basis cd) u x)) / hOf hF cell fc := by
  unfold dgFace
  simp only
  rw [form_subBlock ho (by omega), form_subBlock (by omega) ho, form_addBlock ho ho, form_addBlock (by omega) (by omega)]
  simp only [seg_zero, app_divMat]
  set h := hOf hF cell fc
  have hT : ∀ w : Nat → K, OnV C fc cd fun x => evalFn (cell.basis cd) w x := fun w => OnV.of_mem C (evalFn_mem C cd w)
  have hFb : ∀ w : Nat → K, OnV C fc k fun x => evalFn (fc.basis k) w x := fun w => OnV.evalFb C hf k w
  have s1 : ∀ (m : Nat) (y : Nat → K) (A : Mat K) (z : Nat → K),
      ∑ i ∈ range m, y i * (app (cell.basis cd).size A z i / h) = (∑ i ∈ range m, y i * app (cell.basis cd).size A z i) / h := by
    intro m y A z
    simp only [div_eq_mul_inv, sum_mul]
    exact sum_congr rfl fun _ _ => by ring
  have s2 : ∀ (m : Nat) (y : Nat → K) (A : Mat K) (z : Nat → K),
      ∑ i ∈ range m, y i * (app (fc.basis k).size A z i / h) = (∑ i ∈ range m, y i * app (fc.basis k).size A z i) / h := by
    intro m y A z
    simp only [div_eq_mul_inv, sum_mul]
    exact sum_congr rfl fun _ _ => by ring
  rw [s1, s2, s2, s1, form_mass fc.toElem cd, form_mass fc.toElem k]
  have t1 : ∑ i ∈ range (fc.basis k).size, seg off v i *
      app (cell.basis cd).size (traceMat fc (k + cd) (fc.basis k) (cell.basis cd)) u i =
      quad (fc.integrate (k + cd)) fun x => evalFn (fc.basis k) (seg off v) x * evalFn (cell.basis cd) u x := by
    have e : ∀ i, app (cell.basis cd).size (traceMat fc (k + cd) (fc.basis k) (cell.basis cd)) u i =
        quad (fc.integrate (k + cd)) fun x => (fc.basis k).fn x i * evalFn (cell.basis cd) u x :=
      fun i => app_eval fun j _ => accum_eq ..
    simp only [e, ← quad_mul]
    rw [← quad_sum]
    exact quad_congr fun q _ => (evalFn_mul _ _ _ _).symm
  have t2 : ∑ i ∈ range (cell.basis cd).size, v i *
      app (fc.basis k).size (tpose (traceMat fc (k + cd) (fc.basis k) (cell.basis cd))) (seg off u) i =
      quad (fc.integrate (k + cd)) fun x => evalFn (cell.basis cd) v x * evalFn (fc.basis k) (seg off u) x := by
    have e : ∀ i, app (fc.basis k).size (tpose (traceMat fc (k + cd) (fc.basis k) (cell.basis cd))) (seg off u) i =
        quad (fc.integrate (k + cd)) fun x => (cell.basis cd).fn x i * evalFn (fc.basis k) (seg off u) x :=
      fun i => app_eval fun j _ => by
        rw [tpose, traceMat, accum_eq]
        exact quad_congr fun q _ => mul_comm _ _
    simp only [e, ← quad_mul]
    rw [← quad_sum]
    exact quad_congr fun q _ => (evalFn_mul _ _ _ _).symm
  rw [t1, t2, face_quad C hf (n := cd + cd) (by omega) (by omega) (OnV.mul C (hT v) (hT u)),
    face_quad C hf (n := k + k) (by omega) (by omega) (OnV.mul C (hFb _) (hFb _)),
    face_quad C hf (n := cd + k) (by omega) (by omega) (OnV.mul C (hT v) (hFb _)),
    face_quad C hf (n := k + cd) (by omega) (by omega) (OnV.mul C (hFb _) (hT u))]
  have e : (fun x => (evalFn (fc.basis k) (seg off v) x - evalFn (cell.basis cd) v x) *
      (evalFn (fc.basis k) (seg off u) x - evalFn (cell.basis cd) u x)) =
      (fun x => evalFn (cell.basis cd) v x * evalFn (cell.basis cd) u x) +
      (fun x => evalFn (fc.basis k) (seg off v) x * evalFn (fc.basis k) (seg off u) x) -
      (fun x => evalFn (cell.basis cd) v x * evalFn (fc.basis k) (seg off u) x) -
      (fun x => evalFn (fc.basis k) (seg off v) x * evalFn (cell.basis cd) u x) := by
    funext x
    simp only [Pi.sub_apply, Pi.add_apply]
    ring
  rw [e, map_sub, map_sub, map_add]
  ring

theorem form_dgFaces (C : PolyCell d cell faces N) (hF : Bool) {cd n : Nat} (h1 : 2 * cd ≤ N)
    (fcs : List (InfoFace P K)) (off : Nat) (M : Mat K) (hf : ∀ f k, (f, some k) ∈ fcs → f ∈ faces ∧ 2 * k ≤ N)
    (ho : off + facesDofs fcs ≤ n) (hc : (cell.basis cd).size ≤ off) (v u : Nat → K) :
    form n (dgFaces hF cd cell fcs off M) v u = form n M v u + faceSum (fun f k o =>
      C.IF f (fun x => (evalFn (f.basis k) (seg o v) x - evalFn (cell.basis cd) v x) *
        (evalFn (f.basis k) (seg o u) x - evalFn (cell.basis cd) u x)) / hOf hF cell f) fcs off := by
  induction fcs generalizing off M with
  | nil => simp [dgFaces, faceSum]
  | cons a fs ih =>
    have hf' := fun f k h => hf f k (List.mem_cons_of_mem _ h)
    obtain ⟨f, _ | k⟩ := a
    · rw [facesDofs_cons_none] at ho
      exact ih off M hf' ho hc
    · rw [facesDofs_cons] at ho
      obtain ⟨hff, hk⟩ := hf f k List.mem_cons_self
      rw [dgFaces, ih _ _ hf' (by omega) (by omega), faceSum, form_dgFace C hF hff h1 hk (by omega) hc]
      ring

/-! ### HHO stabilization -/

/-- The cell projection of the reconstruction: `M1⁻¹ M2 R û`. -/
theorem app_proj1 (S : Solver K) {n cbs nr : Nat} (hc : cbs ≤ n) (M1 M2 R : Mat K) (u : Nat → K) {i : Nat} (hi : i < cbs) :
    app n (proj1 S cbs nr M1 M2 R) u i = u i - app n (S.solveMat cbs M1 (mul nr M2 R)) u i := by
  unfold proj1
  rw [app_addBlock (by omega), app_negMat, if_pos (by omega), seg_zero, Nat.sub_zero, app_ident hi]
  ring

theorem app_proj1_mass (S : Solver K) {n cbs nr : Nat} {M1 : Mat K} (hs : SymOn cbs M1) (hn : Nonsing cbs M1)
    (M2 R : Mat K) (u : Nat → K) {i : Nat} (hi : i < cbs) :
    app cbs M1 (app n (S.solveMat cbs M1 (mul nr M2 R)) u) i = app nr M2 (app n R u) i := by
  rw [app_solveMat S hs hn u hi, app_mul]

/-- `mass · (BRF û) = MR1 (R û) - mass û_F + MR2 (proj1 û)` -/
theorem app_brf (S : Solver K) {n fbs cbs nr off : Nat} (ho : off + fbs ≤ n) {m : Mat K} (hs : SymOn fbs m)
    (hn : Nonsing fbs m) (MR1 MR2 R pr1 : Mat K) (u : Nat → K) {i : Nat} (hi : i < fbs) :
    app fbs m (app n (brf S fbs cbs nr off m MR1 MR2 R pr1) u) i =
      app nr MR1 (app n R u) i - app fbs m (seg off u) i + app cbs MR2 (app n pr1 u) i := by
  have e : ∀ j < fbs, app n (brf S fbs cbs nr off m MR1 MR2 R pr1) u j =
      app n (S.solveMat fbs m (mul nr MR1 R)) u j - seg off u j + app n (S.solveMat fbs m (mul cbs MR2 pr1)) u j := by
    intro j hj
    unfold brf
    rw [app_addMat, app_subBlock (by omega), if_pos (by omega), Nat.sub_zero, app_ident hj]
  rw [app_congr (fun _ _ => rfl) e, ← app_mul n nr MR1 R u i, ← app_mul n cbs MR2 pr1 u i,
    ← app_solveMat S hs hn u hi (B := mul nr MR1 R), ← app_solveMat S hs hn u hi (B := mul cbs MR2 pr1)]
  simp only [app, mul_add, mul_sub, sum_add_distrib, sum_sub_distrib]

theorem form_brfTerm (n : Nat) (e : Elem P K) (k : Nat) (b : Basis P K) (B : Mat K) (h : K) (v u : Nat → K) :
    form n (brfTerm b.size (mass e k b) B h) v u =
      quad (e.integrate (2 * k)) (fun x => evalFn b (app n B v) x * evalFn b (app n B u) x) / h := by
  unfold brfTerm
  rw [form_divMat, ← form_mass e k b]
  congr 1
  have e1 : ∀ i, app n (mul b.size (mul b.size (tpose B) (mass e k b)) B) u i =
      ∑ k' ∈ range b.size, B k' i * app b.size (mass e k b) (app n B u) k' := by
    intro i
    rw [app_mul, app_mul]
    rfl
  simp only [form, e1, mul_sum]
  rw [sum_comm]
  refine sum_congr rfl fun k' _ => ?_
  rw [show app n B v k' = ∑ i ∈ range n, B k' i * v i from rfl, sum_mul]
  exact sum_congr rfl fun i _ => by ring

/-- Rows of `BRF` all zero on `û`: the term vanishes on `û`. -/
theorem app_brfTerm_zero {n fbs : Nat} {m B : Mat K} {h : K} {u : Nat → K} (hz : ∀ i < fbs, app n B u i = 0) (r : Nat) :
    app n (brfTerm fbs m B h) u r = 0 := by
  unfold brfTerm
  rw [app_divMat, app_mul]
  have : app fbs (mul fbs (tpose B) m) (app n B u) r = 0 :=
    sum_eq_zero fun i hi => by rw [hz i (mem_range.1 hi), mul_zero]
  rw [this, zero_div]

/-- `BRF` of one face in the version with `hho_degree_info`. -/
def hhoB (S : Solver K) (rd cd fd : Nat) (cell : Elem P K) (R pr1 : Mat K) (f : Face P K) (off : Nat) : Mat K :=
  brf S (f.basis fd).size (cell.basis cd).size ((cell.basis rd).size - 1) off (mass f.toElem fd (f.basis fd))
    (accum (f.integrate (rd + fd)) (f.basis fd).fn (fun x j => (cell.basis rd).fn x (j + 1)))
    (accum (f.integrate (rd + fd)) (f.basis fd).fn (cell.basis cd).fn) R pr1

/-- `BRF` of one face in the version with degrees per face. -/
def hhoInfoB (S : Solver K) (rd cbs : Nat) (cell : Elem P K) (R pr1 : Mat K) (f : Face P K) (k off : Nat) : Mat K :=
  brf S (f.basis k).size cbs ((cell.basis rd).size - 1) off (mass f.toElem k (f.basis k))
    (block (traceMat f (rd + k) (f.basis k) (cell.basis rd)) 0 1)
    (block (traceMat f (rd + k) (f.basis k) (cell.basis rd)) 0 0) R pr1

theorem form_hhoFaces (S : Solver K) (rd cd fd n : Nat) (R pr1 : Mat K) (fs : List (Face P K)) (off : Nat) (M : Mat K)
    (v u : Nat → K) :
    form n (hhoFaces S rd fd (cell.basis rd) (cell.basis cd) cell R pr1 fs off M) v u = form n M v u +
      faceSum (fun f k o => quad (f.integrate (2 * k)) (fun x =>
        evalFn (f.basis k) (app n (hhoB S rd cd k cell R pr1 f o) v) x *
        evalFn (f.basis k) (app n (hhoB S rd cd k cell R pr1 f o) u) x) / cell.diam) (uniform fd fs) off := by
  induction fs generalizing off M with
  | nil => simp [hhoFaces, uniform, faceSum]
  | cons f fs ih =>
    rw [hhoFaces, ih, uniform_cons, faceSum, form_addMat, form_brfTerm, add_assoc]
    rfl

theorem app_hhoFaces_zero (S : Solver K) (rd cd fd n : Nat) (R pr1 : Mat K) (fs : List (Face P K)) (off : Nat) (M : Mat K)
    (u : Nat → K) (hz : faceAll (fun f k o => ∀ i < (f.basis k).size, app n (hhoB S rd cd k cell R pr1 f o) u i = 0)
      (uniform fd fs) off) (r : Nat) :
    app n (hhoFaces S rd fd (cell.basis rd) (cell.basis cd) cell R pr1 fs off M) u r = app n M u r := by
  induction fs generalizing off M with
  | nil => rfl
  | cons f fs ih =>
    rw [uniform_cons] at hz
    rw [hhoFaces, ih _ _ hz.2, app_addMat]
    have := app_brfTerm_zero (m := mass f.toElem fd (f.basis fd)) (h := cell.diam) hz.1 r
    unfold hhoB at this
    rw [this, add_zero]

theorem form_hhoInfoFaces (S : Solver K) (hF : Bool) (rd cbs n : Nat) (R pr1 : Mat K) (fcs : List (InfoFace P K)) (off : Nat)
    (M : Mat K) (v u : Nat → K) :
    form n (hhoInfoFaces S hF rd cbs cell R pr1 fcs off M) v u = form n M v u +
      faceSum (fun f k o => quad (f.integrate (2 * k)) (fun x =>
        evalFn (f.basis k) (app n (hhoInfoB S rd cbs cell R pr1 f k o) v) x *
        evalFn (f.basis k) (app n (hhoInfoB S rd cbs cell R pr1 f k o) u) x) / hOf hF cell f) fcs off := by
  induction fcs generalizing off M with
  | nil => simp [hhoInfoFaces, faceSum]
  | cons a fs ih =>
    obtain ⟨f, _ | k⟩ := a
    · exact ih off M
    · rw [hhoInfoFaces, ih, faceSum, form_addMat, form_brfTerm, add_assoc]
      rfl

theorem app_hhoInfoFaces_zero (S : Solver K) (hF : Bool) (rd cbs n : Nat) (R pr1 : Mat K) (fcs : List (InfoFace P K))
    (off : Nat) (M : Mat K) (u : Nat → K)
    (hz : faceAll (fun f k o => ∀ i < (f.basis k).size, app n (hhoInfoB S rd cbs cell R pr1 f k o) u i = 0) fcs off)
    (r : Nat) : app n (hhoInfoFaces S hF rd cbs cell R pr1 fcs off M) u r = app n M u r := by
  induction fcs generalizing off M with
  | nil => rfl
  | cons a fs ih =>
    obtain ⟨f, _ | k⟩ := a
    · exact ih off M hz
    · rw [hhoInfoFaces, ih _ _ hz.2, app_addMat]
      have := app_brfTerm_zero (m := mass f.toElem k (f.basis k)) (h := hOf hF cell f) hz.1 r
      unfold hhoInfoB at this
      rw [this, add_zero]

theorem faceAll_of_forall {g : Face P K → Nat → Nat → Prop} {fcs : List (InfoFace P K)} {n : Nat} {off : Nat}
    (ho : off + facesDofs fcs ≤ n)
    (h : ∀ f k o, (f, some k) ∈ fcs → off ≤ o → o + (f.basis k).size ≤ n → g f k o) : faceAll g fcs off := by
  induction fcs generalizing off with
  | nil => trivial
  | cons a fs ih =>
    obtain ⟨f, _ | k⟩ := a
    · rw [facesDofs_cons_none] at ho
      exact ih ho fun f k o hm => h f k o (List.mem_cons_of_mem _ hm)
    · rw [facesDofs_cons] at ho
      exact ⟨h f k off List.mem_cons_self (le_refl _) (by omega), ih (by omega) fun f' k' o hm hle =>
        h f' k' o (List.mem_cons_of_mem _ hm) (by omega)⟩

theorem faceAll_and {g g' : Face P K → Nat → Nat → Prop} {fcs : List (InfoFace P K)} {off : Nat}
    (h : faceAll g fcs off) (h' : faceAll g' fcs off) : faceAll (fun f k o => g f k o ∧ g' f k o) fcs off := by
  induction fcs generalizing off with
  | nil => trivial
  | cons a fs ih =>
    obtain ⟨f, _ | k⟩ := a
    · exact ih h h'
    · exact ⟨⟨h.1, h'.1⟩, ih h.2 h'.2⟩

section
variable (C : PolyCell d cell faces N)

/-- The cell part of the HHO stabilization: `M1⁻¹ M2 R û` are the coefficients of the projection of the
reconstruction. -/
theorem cellProj_exact (S : Solver K) {rd cd n : Nat} (R : Mat K) {M1 M2 : Mat K}
    (h1 : ∀ i j, i < (cell.basis cd).size → j < (cell.basis cd).size →
      M1 i j = C.IT fun x => (cell.basis cd).fn x i * (cell.basis cd).fn x j)
    (h2 : ∀ i j, i < (cell.basis cd).size → j + 1 < (cell.basis rd).size →
      M2 i j = C.IT fun x => (cell.basis cd).fn x i * (cell.basis rd).fn x (j + 1))
    (hs : SymOn (cell.basis cd).size M1) (hn : Nonsing (cell.basis cd).size M1) (u : Nat → K) :
    IsCellProj C cd (evalTail (cell.basis rd) (app n R u))
      (app n (S.solveMat (cell.basis cd).size M1 (mul ((cell.basis rd).size - 1) M2 R)) u) := by
  intro i hi
  have h := app_proj1_mass S (n := n) (nr := (cell.basis rd).size - 1) hs hn M2 R u hi
  have e : ∀ (m : Nat) (g : P → Nat → K) (y : Nat → K), C.IT (fun x => (cell.basis cd).fn x i * ∑ j ∈ range m, y j * g x j) =
      ∑ j ∈ range m, y j * C.IT fun x => (cell.basis cd).fn x i * g x j := by
    intro m g y
    rw [← IT_sum]
    congr 1
    funext x
    rw [mul_sum]
    exact sum_congr rfl fun j _ => by ring
  unfold evalFn evalTail
  rw [e, e]
  refine (sum_congr rfl fun j hj => ?_).trans (h.trans (sum_congr rfl fun j hj => ?_))
  · rw [h1 i j hi (mem_range.1 hj), mul_comm]
  · rw [h2 i j hi (by have := mem_range.1 hj; omega), mul_comm]

/-- The face part: `BRF û` are the coefficients of the projection of `R û - u_F + (u_T - y)`. -/
theorem faceProj_exact (S : Solver K) {rd cd k n off : Nat} {f : Face P K} (hf : f ∈ faces)
    (hN : 2 * k ≤ N) (hm : Nonsing (f.basis k).size (mass f.toElem k (f.basis k)))
    (ho : off + (f.basis k).size ≤ n) (R pr1 : Mat K) {MR1 MR2 : Mat K}
    (h1 : ∀ i j, i < (f.basis k).size → j + 1 < (cell.basis rd).size →
      MR1 i j = C.IF f fun x => (f.basis k).fn x i * (cell.basis rd).fn x (j + 1))
    (h2 : ∀ i j, i < (f.basis k).size → j < (cell.basis cd).size →
      MR2 i j = C.IF f fun x => (f.basis k).fn x i * (cell.basis cd).fn x j) (u : Nat → K) :
    IsFaceProj C f k (fun x => evalTail (cell.basis rd) (app n R u) x - evalFn (f.basis k) (seg off u) x +
        evalFn (cell.basis cd) (app n pr1 u) x)
      (app n (brf S (f.basis k).size (cell.basis cd).size ((cell.basis rd).size - 1) off (mass f.toElem k (f.basis k))
        MR1 MR2 R pr1) u) := by
  intro i hi
  have h := app_brf S (cbs := (cell.basis cd).size) (nr := (cell.basis rd).size - 1) ho
    (mass_sym f.toElem k (f.basis k).size (f.basis k)) hm MR1 MR2 R pr1 u hi
  have e : ∀ (m : Nat) (g : P → Nat → K) (y : Nat → K), C.IF f (fun x => (f.basis k).fn x i * ∑ j ∈ range m, y j * g x j) =
      ∑ j ∈ range m, y j * C.IF f fun x => (f.basis k).fn x i * g x j := by
    intro m g y
    rw [← IF_sum]
    congr 1
    funext x
    rw [mul_sum]
    exact sum_congr rfl fun j _ => by ring
  have hmass : ∀ y : Nat → K, app (f.basis k).size (mass f.toElem k (f.basis k)) y i =
      C.IF f fun x => (f.basis k).fn x i * evalFn (f.basis k) y x := by
    intro y
    rw [app_eval fun j _ => mass_eq f.toElem k (f.basis k) i j]
    exact face_quad C hf (n := k + k) (by omega) hN (OnV.mul C (OnV.fb C hf hi) (OnV.evalFb C hf k y))
  rw [← hmass, h, hmass]
  have e1 : app ((cell.basis rd).size - 1) MR1 (app n R u) i =
      C.IF f fun x => (f.basis k).fn x i * evalTail (cell.basis rd) (app n R u) x := by
    unfold evalTail
    rw [e]
    exact sum_congr rfl fun j hj => by rw [h1 i j hi (by have := mem_range.1 hj; omega), mul_comm]
  have e2 : app (cell.basis cd).size MR2 (app n pr1 u) i =
      C.IF f fun x => (f.basis k).fn x i * evalFn (cell.basis cd) (app n pr1 u) x := by
    unfold evalFn
    rw [e]
    exact sum_congr rfl fun j hj => by rw [h2 i j hi (mem_range.1 hj), mul_comm]
  rw [e1, e2, ← IF_sub, ← map_add]
  congr 1
  funext x
  simp only [Pi.add_apply]
  ring

/-- Uniqueness of the cell projection. -/
theorem cellProj_unique {cd : Nat} (hN : 2 * cd ≤ N) (hm : Nonsing (cell.basis cd).size (mass cell cd (cell.basis cd)))
    {w w' : P → K} {y y' : Nat → K} (h : IsCellProj C cd w y) (h' : IsCellProj C cd w' y')
    (he : ∀ i < (cell.basis cd).size, C.IT (fun x => (cell.basis cd).fn x i * w x) =
      C.IT (fun x => (cell.basis cd).fn x i * w' x)) : ∀ j < (cell.basis cd).size, y j = y' j := by
  refine solve_unique hm fun i hi => ?_
  have hmass : ∀ z : Nat → K, app (cell.basis cd).size (mass cell cd (cell.basis cd)) z i =
      C.IT fun x => (cell.basis cd).fn x i * evalFn (cell.basis cd) z x := by
    intro z
    rw [app_eval fun j _ => mass_eq cell cd (cell.basis cd) i j]
    exact cell_quad C (n := cd + cd) (by omega) hN (mul_mem' C (C.cell_mem cd i hi) (evalFn_mem C cd z))
  rw [hmass, hmass, h i hi, h' i hi, he i hi]

/-- A projection of a function with zero moments is zero. -/
theorem faceProj_zero {f : Face P K} (hf : f ∈ faces) {k : Nat} (hN : 2 * k ≤ N)
    (hm : Nonsing (f.basis k).size (mass f.toElem k (f.basis k))) {w : P → K} {y : Nat → K} (h : IsFaceProj C f k w y)
    (hz : ∀ i < (f.basis k).size, C.IF f (fun x => (f.basis k).fn x i * w x) = 0) : ∀ j < (f.basis k).size, y j = 0 := by
  refine hm y fun i hi => ?_
  have : app (f.basis k).size (mass f.toElem k (f.basis k)) y i = 0 := by
    rw [app_eval fun j _ => mass_eq f.toElem k (f.basis k) i j]
    rw [← hz i hi, ← h i hi]
    exact face_quad C hf (n := k + k) (by omega) hN (OnV.mul C (OnV.fb C hf hi) (OnV.evalFb C hf k y))
  exact this

/-- On an interpolate whose reconstruction is right, the difference the HHO stabilization penalizes has zero moments. -/
theorem hho_moments {rd cd k off n : Nat} {f : Face P K} {a u y : Nat → K} {pr1 R : Mat K}
    (hNc : 2 * cd ≤ N) (hmT : Nonsing (cell.basis cd).size (mass cell cd (cell.basis cd)))
    (hRu : ∀ j < (cell.basis rd).size - 1, app n R u j = a (j + 1))
    (huT : ∀ i < (cell.basis cd).size, C.IT (fun x => (cell.basis cd).fn x i * evalFn (cell.basis cd) u x) =
      C.IT (fun x => (cell.basis cd).fn x i * evalFn (cell.basis rd) a x))
    (hy : IsCellProj C cd (evalTail (cell.basis rd) (app n R u)) y)
    (hp : ∀ i < (cell.basis cd).size, app n pr1 u i = u i - y i)
    (huF : ∀ i < (f.basis k).size, C.IF f (fun x => (f.basis k).fn x i * evalFn (f.basis k) (seg off u) x) =
      C.IF f (fun x => (f.basis k).fn x i * evalFn (cell.basis rd) a x)) {i : Nat} (hi : i < (f.basis k).size) :
    C.IF f (fun x => (f.basis k).fn x i * (evalTail (cell.basis rd) (app n R u) x - evalFn (f.basis k) (seg off u) x +
        evalFn (cell.basis cd) (app n pr1 u) x)) = 0 := by
  have hT : ∀ x, evalFn (cell.basis rd) a x = evalTail (cell.basis rd) (app n R u) x + a 0 := by
    intro x
    rw [evalTail_eq C]
    congr 1
    exact sum_congr rfl fun j hj => by rw [hRu j (mem_range.1 hj)]
  -- the cell part is the constant `a 0`
  have hc : ∀ j < (cell.basis cd).size, app n pr1 u j = if j = 0 then a 0 else 0 := by
    have h1 : IsCellProj C cd (fun x => evalFn (cell.basis rd) a x - evalTail (cell.basis rd) (app n R u) x) (app n pr1 u) := by
      intro i hi
      have e : (fun x => (cell.basis cd).fn x i * evalFn (cell.basis cd) (app n pr1 u) x) =
          (fun x => (cell.basis cd).fn x i * evalFn (cell.basis cd) u x) -
          (fun x => (cell.basis cd).fn x i * evalFn (cell.basis cd) y x) := by
        funext x
        rw [evalFn_congr hp]
        simp only [evalFn, Pi.sub_apply, sub_mul, sum_sub_distrib, mul_sub]
      have e' : (fun x => (cell.basis cd).fn x i * (evalFn (cell.basis rd) a x - evalTail (cell.basis rd) (app n R u) x)) =
          (fun x => (cell.basis cd).fn x i * evalFn (cell.basis rd) a x) -
          (fun x => (cell.basis cd).fn x i * evalTail (cell.basis rd) (app n R u) x) := by
        funext x
        simp only [Pi.sub_apply, mul_sub]
      rw [e, e', map_sub, map_sub, huT i hi, hy i hi]
    have h2 : IsCellProj C cd (fun _ => a 0) (fun j => if j = 0 then a 0 else 0) := by
      intro i hi
      congr 1
      funext x
      congr 1
      unfold evalFn
      rw [sum_eq_single 0]
      · simp only [if_true, C.cell_one, mul_one]
      · intro j _ hj
        simp only [if_neg hj, zero_mul]
      · intro h
        exact absurd (mem_range.2 (C.cell_pos cd)) h
    refine cellProj_unique C hNc hmT h1 h2 fun i hi => ?_
    congr 1
    funext x
    rw [hT x]
    ring
  have hpr : ∀ x, evalFn (cell.basis cd) (app n pr1 u) x = a 0 := by
    intro x
    rw [evalFn_congr hc]
    unfold evalFn
    rw [sum_eq_single 0]
    · simp only [if_true, C.cell_one, mul_one]
    · intro j _ hj
      simp only [if_neg hj, zero_mul]
    · intro h
      exact absurd (mem_range.2 (C.cell_pos cd)) h
  have e : (fun x => (f.basis k).fn x i * (evalTail (cell.basis rd) (app n R u) x - evalFn (f.basis k) (seg off u) x +
        evalFn (cell.basis cd) (app n pr1 u) x)) =
      (fun x => (f.basis k).fn x i * evalFn (cell.basis rd) a x) -
      (fun x => (f.basis k).fn x i * evalFn (f.basis k) (seg off u) x) := by
    funext x
    simp only [Pi.sub_apply]
    rw [hpr x, hT x]
    ring
  rw [e, map_sub, huF i hi, sub_self]

/-- The product of two functions of the face basis is integrated exactly. -/
theorem face_sq {f : Face P K} (hf : f ∈ faces) {k : Nat} (hN : 2 * k ≤ N) (y z : Nat → K) :
    quad (f.integrate (2 * k)) (fun x => evalFn (f.basis k) y x * evalFn (f.basis k) z x) =
      C.IF f fun x => evalFn (f.basis k) y x * evalFn (f.basis k) z x :=
  face_quad C hf (n := k + k) (by omega) hN (OnV.mul C (OnV.evalFb C hf k y) (OnV.evalFb C hf k z))

theorem hdgDelta_proj (S : Solver K) {cd k off : Nat} {f : Face P K} (hf : f ∈ faces)
    (hN : 2 * k ≤ N) (hN' : k + cd ≤ N) (hm : Nonsing (f.basis k).size (mass f.toElem k (f.basis k))) (u : Nat → K) :
    IsFaceProj C f k (fun x => evalFn (cell.basis cd) u x - evalFn (f.basis k) (seg off u) x)
      (hdgDelta S cd k cell f off u) := by
  intro i hi
  have hmass : ∀ y : Nat → K, app (f.basis k).size (mass f.toElem k (f.basis k)) y i =
      C.IF f fun x => (f.basis k).fn x i * evalFn (f.basis k) y x := by
    intro y
    rw [app_eval fun j _ => mass_eq f.toElem k (f.basis k) i j]
    exact face_quad C hf (n := k + k) (by omega) hN (OnV.mul C (OnV.fb C hf hi) (OnV.evalFb C hf k y))
  have h := app_solveMat S (m := (cell.basis cd).size) (B := traceMat f (k + cd) (f.basis k) (cell.basis cd))
    (mass_sym f.toElem k (f.basis k).size (f.basis k)) hm u hi
  have h1 : app (cell.basis cd).size (traceMat f (k + cd) (f.basis k) (cell.basis cd)) u i =
      quad (f.integrate (k + cd)) (fun x => (f.basis k).fn x i * evalFn (cell.basis cd) u x) :=
    app_eval fun j _ => accum_eq _ _ _ i j
  rw [hmass, h1] at h
  have h2 : quad (f.integrate (k + cd)) (fun x => (f.basis k).fn x i * evalFn (cell.basis cd) u x) =
      C.IF f fun x => (f.basis k).fn x i * evalFn (cell.basis cd) u x :=
    face_quad C hf (n := k + cd) (le_refl _) hN'
      (OnV.mul C (OnV.fb C hf hi) (OnV.of_mem C (evalFn_mem C cd u)))
  have e : (fun x => (f.basis k).fn x i * evalFn (f.basis k) (hdgDelta S cd k cell f off u) x) =
      (fun x => (f.basis k).fn x i * evalFn (f.basis k) (app (cell.basis cd).size (S.solveMat (f.basis k).size
        (mass f.toElem k (f.basis k)) (traceMat f (k + cd) (f.basis k) (cell.basis cd))) u) x) -
      (fun x => (f.basis k).fn x i * evalFn (f.basis k) (seg off u) x) := by
    funext x
    simp only [evalFn, hdgDelta, seg, Pi.sub_apply, sub_mul, sum_sub_distrib, mul_sub]
  have e' : (fun x => (f.basis k).fn x i * (evalFn (cell.basis cd) u x - evalFn (f.basis k) (seg off u) x)) =
      (fun x => (f.basis k).fn x i * evalFn (cell.basis cd) u x) -
      (fun x => (f.basis k).fn x i * evalFn (f.basis k) (seg off u) x) := by
    funext x
    simp only [Pi.sub_apply, mul_sub]
  rw [e, e', map_sub, map_sub, h, h2]

theorem faceSum_comm_of {g g' : Face P K → Nat → Nat → K} {fcs : List (InfoFace P K)} {off : Nat}
    (h : ∀ f k o, g f k o = g' f k o) : faceSum g fcs off = faceSum g' fcs off :=
  faceSum_congr (fun f k o _ => h f k o) off

theorem faceSum_nonneg {K : Type} [Field K] [LinearOrder K] [IsStrictOrderedRing K] {g : Face P K → Nat → Nat → K}
    {fcs : List (InfoFace P K)} {off : Nat}
    (h : ∀ f k o, (f, some k) ∈ fcs → 0 ≤ g f k o) : 0 ≤ faceSum g fcs off := by
  induction fcs generalizing off with
  | nil => exact le_refl _
  | cons a fs ih =>
    have h' := fun f k o hm => h f k o (List.mem_cons_of_mem _ hm)
    obtain ⟨f, _ | k⟩ := a
    · exact ih h'
    · exact add_nonneg (h f k off List.mem_cons_self) (ih h')

/-- Uniqueness of the face projection. -/
theorem faceProj_unique {f : Face P K} (hf : f ∈ faces) {k : Nat} (hN : 2 * k ≤ N)
    (hm : Nonsing (f.basis k).size (mass f.toElem k (f.basis k))) {w w' : P → K} {y y' : Nat → K}
    (h : IsFaceProj C f k w y) (h' : IsFaceProj C f k w' y') (he : ∀ x, w x = w' x) :
    ∀ j < (f.basis k).size, y j = y' j := by
  refine solve_unique hm fun i hi => ?_
  have hmass : ∀ z : Nat → K, app (f.basis k).size (mass f.toElem k (f.basis k)) z i =
      C.IF f fun x => (f.basis k).fn x i * evalFn (f.basis k) z x := by
    intro z
    rw [app_eval fun j _ => mass_eq f.toElem k (f.basis k) i j]
    exact face_quad C hf (n := k + k) (by omega) hN (OnV.mul C (OnV.fb C hf hi) (OnV.evalFb C hf k z))
  rw [hmass, hmass, h i hi, h' i hi, show w = w' from funext he]

end
end Verif.Lemmas.Hho
