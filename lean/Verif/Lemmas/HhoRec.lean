import Mathlib.Algebra.Order.Field.Basic
import Verif.Lemmas.HhoCell
/-!
Helper lemmas for the reconstruction operator and the interpolation operator.
-/
namespace Verif.Lemmas.Hho
open Finset Verif.Hho Verif.Spec.Hho LocalMatrix

variable {K P : Type} [Field K] {d N : Nat} {tens : Option (Mat K)} {cell : Elem P K} {faces : List (Face P K)}

theorem flux_dot_comm (ht : TensSym d tens) (g : Nat → Nat → K) (i j : Nat) :
    dot d (flux d tens g i) (g j) = dot d (flux d tens g j) (g i) := by
  cases tens with
  | none => exact dot_comm _ _ _
  | some D =>
    simp only [flux, dot, sum_mul]
    rw [sum_comm]
    refine sum_congr rfl fun c hc => sum_congr rfl fun e he => ?_
    rw [ht e (mem_range.1 he) c (mem_range.1 hc)]
    ring

theorem lapLhs_sym (ht : TensSym d tens) (rb : Basis P K) (rd n : Nat) : SymOn n (lapLhs d tens rb rd cell) := by
  intro i _ j _
  unfold lapLhs
  rw [accumDot_eq, accumDot_eq]
  exact quad_congr fun q _ => flux_dot_comm ht _ i j

/-- The reconstruction solves its linear system, applied to unknowns. -/
theorem app_oper (ht : TensSym d tens) (S : Solver K) (up : Bool) (rb : Basis P K) (rd cd fd n : Nat)
    (hn : Nonsing (rb.size - 1) (lapLhs d tens rb rd cell)) (u : Nat → K) {i : Nat} (hi : i < rb.size - 1) :
    app (rb.size - 1) (lapLhs d tens rb rd cell)
        (app n (laplacianWith d tens up S rb rd cd fd cell faces).1 u) i =
      app n (lapRhs d tens up S rb rd cd fd cell faces) u i :=
  app_solveMat S (lapLhs_sym ht rb rd _) hn u hi

section
variable (C : PolyCell d cell faces N)

/-- Exact form of the left-hand side. -/
theorem lapLhs_exact {rd : Nat} (hN : 2 * rd ≤ N) (r : Nat → K) {i : Nat} (hi : i + 1 < (cell.basis rd).size) :
    app ((cell.basis rd).size - 1) (lapLhs d tens (cell.basis rd) rd cell) r i =
      C.IT (fun x => dot d (rflux d tens (cell.basis rd) x i) (evalGradTail (cell.basis rd) r x)) := by
  rw [app_lapLhs]
  refine cell_quad C (n := rd - 1 + (rd - 1)) (by omega) (by omega) ?_
  exact dot_mem C (fun c hc => rflux_mem C rd hi hc) fun c hc => evalGradTail_mem C rd r hc

/-- Exact form of the right-hand side. -/
theorem lapRhs_exact {rd cd fd : Nat} (S : Solver K) (hcd : cd ≤ rd) (hN : 2 * rd ≤ N) (hNf : rd + fd ≤ N)
    (u : Nat → K) {i : Nat} (hi : i + 1 < (cell.basis rd).size) :
    app ((cell.basis cd).size + facesDofs (uniform fd faces))
        (lapRhs d tens false S (cell.basis rd) rd cd fd cell faces) u i =
      C.IT (fun x => dot d (rflux d tens (cell.basis rd) x i) (evalGrad (cell.basis cd) u x)) +
      faceSum (fun f k o => C.IF f fun x => fluxN d tens (cell.basis rd) f.normal x i *
        (evalFn (f.basis k) (seg o u) x - evalFn (cell.basis cd) u x)) (uniform fd faces) (cell.basis cd).size := by
  rw [app_lapRhs S _ rd cd fd cell faces u (by omega)]
  congr 1
  · refine cell_quad C (n := rd - 1 + (cd - 1)) (by omega) (by omega) ?_
    exact dot_mem C (fun c hc => rflux_mem C rd hi hc) fun c hc => evalGrad_mem C cd u hc
  · refine faceSum_congr (fun f k off hm => ?_) _
    obtain ⟨hf, rfl⟩ := mem_uniform hm
    refine face_quad C hf (n := rd - 1 + max cd k) (by omega) (by omega) ?_
    refine OnV.mul C (OnV.of_mem C (fluxN_mem C rd f.normal hi)) (OnV.sub C ?_ ?_)
    · exact OnV.mono C (by omega) (OnV.evalFb C hf k _)
    · exact OnV.mono C (by omega) (OnV.of_mem C (evalFn_mem C cd u))

include C in
/-- With face projection the loop adds the same as without. -/
theorem app_lapFace_proj {rd cd fd : Nat} (S : Solver K) {f : Face P K} (hf : f ∈ faces) (hfd : rd ≤ fd + 1)
    (hm : Nonsing (f.basis fd).size (accum (f.integrate (rd + max cd fd)) (f.basis fd).fn (f.basis fd).fn))
    {n off : Nat} (ho : off + (f.basis fd).size ≤ n) (hc : (cell.basis cd).size ≤ n) (M : Mat K)
    (u : Nat → K) {i : Nat} (hi : i + 1 < (cell.basis rd).size) :
    app n (lapFace d tens true S (cell.basis rd) (cell.basis cd) rd cd fd f off M) u i =
      app n M u i + quad (f.integrate (rd + max cd fd)) fun x =>
        fluxN d tens (cell.basis rd) f.normal x i * (evalFn (f.basis fd) (seg off u) x - evalFn (cell.basis cd) u x) := by
  unfold lapFace
  simp only [if_true]
  rw [app_subBlock (by omega), app_faceFold_proj ho u (by omega), if_pos (by omega), seg_zero, Nat.sub_zero, app_mul]
  obtain ⟨g, hg⟩ := C.face_span f hf fd _ (C.mono (by omega : rd - 1 ≤ fd) (fluxN_mem (tens := tens) C rd f.normal hi))
  set qs := f.integrate (rd + max cd fd) with hqs
  set MF := accum qs (f.basis fd).fn (f.basis fd).fn with hMF
  set TF := accum qs (f.basis fd).fn (cell.basis cd).fn with hTF
  have hsym : SymOn (f.basis fd).size MF := by
    intro a _ b _
    rw [hMF, accum_eq, accum_eq]
    exact quad_congr fun q _ => mul_comm _ _
  have key : ∀ w : P → K, quad qs (fun x => fluxN d tens (cell.basis rd) f.normal x i * w x) =
      ∑ l ∈ range (f.basis fd).size, g l * quad qs fun x => (f.basis fd).fn x l * w x := by
    intro w
    simp only [← quad_mul]
    rw [← quad_sum]
    refine quad_congr fun q hq => ?_
    rw [hg q.pt (C.face_pts f hf _ q hq), evalFn, sum_mul]
    exact sum_congr rfl fun l _ => by ring
  have e1 : app (f.basis fd).size (accum qs (fluxN d tens (cell.basis rd) f.normal) (f.basis fd).fn)
      (app (cell.basis cd).size (S.solveMat (f.basis fd).size MF TF) u) i =
      quad qs fun x => fluxN d tens (cell.basis rd) f.normal x i * evalFn (cell.basis cd) u x := by
    rw [key]
    unfold app
    simp only [accum_eq, key]
    simp only [sum_mul]
    rw [sum_comm]
    refine sum_congr rfl fun l hl => ?_
    have := app_solveMat S (m := (cell.basis cd).size) (B := TF) hsym hm u (mem_range.1 hl)
    rw [← show app (cell.basis cd).size TF u l = quad qs fun x => (f.basis fd).fn x l * evalFn (cell.basis cd) u x from
      app_eval fun j _ => by rw [hTF, accum_eq], ← this]
    unfold app
    rw [mul_sum]
    refine sum_congr rfl fun j _ => ?_
    rw [hMF, accum_eq]
    ring
  rw [e1]
  have e2 : (fun x => fluxN d tens (cell.basis rd) f.normal x i *
      (evalFn (f.basis fd) (seg off u) x - evalFn (cell.basis cd) u x)) = fun x =>
      fluxN d tens (cell.basis rd) f.normal x i * evalFn (f.basis fd) (seg off u) x -
        fluxN d tens (cell.basis rd) f.normal x i * evalFn (cell.basis cd) u x := by
    funext x; ring
  rw [e2, quad_sub]
  simp only [evalFn]
  ring

include C in
/-- With face projection the whole right-hand side is the same as without. -/
theorem app_lapRhs_proj {rd cd fd : Nat} (S : Solver K) (hfd : rd ≤ fd + 1)
    (hm : ∀ f ∈ faces, Nonsing (f.basis fd).size (accum (f.integrate (rd + max cd fd)) (f.basis fd).fn (f.basis fd).fn))
    (u : Nat → K) {i : Nat} (hi : i + 1 < (cell.basis rd).size) :
    app ((cell.basis cd).size + facesDofs (uniform fd faces))
        (lapRhs d tens true S (cell.basis rd) rd cd fd cell faces) u i =
    app ((cell.basis cd).size + facesDofs (uniform fd faces))
        (lapRhs d tens false S (cell.basis rd) rd cd fd cell faces) u i := by
  have h : ∀ (fs : List (Face P K)) (_ : ∀ f ∈ fs, f ∈ faces) (n off : Nat) (M M' : Mat K),
      off + facesDofs (uniform fd fs) ≤ n → (cell.basis cd).size ≤ n → app n M u i = app n M' u i →
      app n (lapFaces d tens true S (cell.basis rd) (cell.basis cd) rd cd fd fs off M) u i =
      app n (lapFaces d tens false S (cell.basis rd) (cell.basis cd) rd cd fd fs off M') u i := by
    intro fs
    induction fs with
    | nil => intro _ n off M M' _ _ e; exact e
    | cons f fs ih =>
      intro hs n off M M' ho hc e
      rw [uniform_cons, facesDofs_cons] at ho
      refine ih (fun g hg => hs g (List.mem_cons_of_mem _ hg)) n _ _ _ (by omega) hc ?_
      have hf := hs f List.mem_cons_self
      rw [app_lapFace_proj C S hf hfd (hm f hf) (by omega) hc M u hi, e]
      unfold lapFace
      simp only [Bool.false_eq_true, if_false]
      rw [app_faceFold (by omega) hc u (by omega)]
      simp only [evalFn]
  exact h faces (fun _ hf => hf) _ _ _ _ (le_refl _) (by omega) rfl

end

/-! ### The bilinear form -/

theorem flux_sum (s : Finset Nat) (v : Nat → K) (g : Nat → Nat → K) (b : Nat → K) :
    ∑ i ∈ s, v i * dot d (flux d tens g i) b = dot d (fluxOf d tens fun c => ∑ i ∈ s, v i * g i c) b := by
  cases tens with
  | none =>
    simp only [flux, fluxOf, dot, mul_sum, sum_mul]
    rw [sum_comm]
    exact sum_congr rfl fun c _ => sum_congr rfl fun i _ => by ring
  | some D =>
    simp only [flux, fluxOf, dot, mul_sum, sum_mul]
    rw [sum_comm]
    refine sum_congr rfl fun c _ => ?_
    rw [sum_comm]
    exact sum_congr rfl fun e _ => sum_congr rfl fun i _ => by ring

/-- The energy form of the reconstruction. -/
theorem form_data (ht : TensSym d tens) (S : Solver K) (up : Bool) (rb : Basis P K) (rd cd fd n : Nat)
    (hn : Nonsing (rb.size - 1) (lapLhs d tens rb rd cell)) (v u : Nat → K) :
    let L := laplacianWith d tens up S rb rd cd fd cell faces
    form n L.2 v u = quad (cell.integrate (2 * (rd - 1))) fun x =>
      dot d (fluxOf d tens (evalGradTail rb (app n L.1 v) x)) (evalGradTail rb (app n L.1 u) x) := by
  intro L
  have h1 : form n L.2 v u = ∑ k ∈ range (rb.size - 1), app n L.1 u k *
      app (rb.size - 1) (lapLhs d tens rb rd cell) (app n L.1 v) k := by
    have e : ∀ k ∈ range (rb.size - 1), app n L.1 u k *
        app (rb.size - 1) (lapLhs d tens rb rd cell) (app n L.1 v) k =
        app n L.1 u k * app n (lapRhs d tens up S rb rd cd fd cell faces) v k := by
      intro k hk
      rw [app_oper ht S up rb rd cd fd n hn v (mem_range.1 hk)]
    rw [sum_congr rfl e]
    unfold form
    have e2 : ∀ i, app n L.2 u i = ∑ k ∈ range (rb.size - 1),
        lapRhs d tens up S rb rd cd fd cell faces k i * app n L.1 u k := fun i => app_mul n (rb.size - 1) _ _ u i
    simp only [e2, mul_sum]
    rw [sum_comm]
    refine sum_congr rfl fun k _ => ?_
    rw [show app n (lapRhs d tens up S rb rd cd fd cell faces) v k = ∑ i ∈ range n,
      lapRhs d tens up S rb rd cd fd cell faces k i * v i from rfl, mul_sum]
    exact sum_congr rfl fun i _ => by ring
  rw [h1]
  have h2 : ∀ x : P, dot d (fluxOf d tens (evalGradTail rb (app n L.1 v) x)) (evalGradTail rb (app n L.1 u) x) =
      ∑ k ∈ range (rb.size - 1), app n L.1 u k *
        dot d (rflux d tens rb x k) (evalGradTail rb (app n L.1 v) x) := by
    intro x
    have a1 : dot d (fluxOf d tens (evalGradTail rb (app n L.1 v) x)) (evalGradTail rb (app n L.1 u) x) =
        ∑ i ∈ range (rb.size - 1), app n L.1 v i * ∑ k ∈ range (rb.size - 1), app n L.1 u k *
          dot d (flux d tens (tailRows (rb.grad x)) i) (tailRows (rb.grad x) k) := by
      have := flux_sum (d := d) (tens := tens) (range (rb.size - 1)) (app n L.1 v) (tailRows (rb.grad x))
        (evalGradTail rb (app n L.1 u) x)
      rw [show (evalGradTail rb (app n L.1 v) x) = fun c => ∑ i ∈ range (rb.size - 1), app n L.1 v i *
        tailRows (rb.grad x) i c from rfl, ← this]
      refine sum_congr rfl fun i _ => ?_
      rw [← dot_sum]
      rfl
    rw [a1]
    simp only [mul_sum]
    rw [sum_comm]
    refine sum_congr rfl fun k _ => ?_
    have a2 : dot d (rflux d tens rb x k) (evalGradTail rb (app n L.1 v) x) =
        ∑ i ∈ range (rb.size - 1), app n L.1 v i *
          dot d (flux d tens (tailRows (rb.grad x)) k) (tailRows (rb.grad x) i) := by
      rw [← dot_sum]
      rfl
    rw [a2, mul_sum]
    refine sum_congr rfl fun i _ => ?_
    rw [flux_dot_comm ht]
    ring
  simp only [h2]
  rw [quad_sum]
  exact sum_congr rfl fun k _ => by rw [quad_mul, app_lapLhs]

theorem fluxOf_dot_comm (ht : TensSym d tens) (a b : Nat → K) : dot d (fluxOf d tens a) b = dot d (fluxOf d tens b) a := by
  cases tens with
  | none => exact dot_comm _ _ _
  | some D =>
    simp only [fluxOf, dot, sum_mul]
    rw [sum_comm]
    refine sum_congr rfl fun c hc => sum_congr rfl fun e he => ?_
    rw [ht e (mem_range.1 he) c (mem_range.1 hc)]
    ring

theorem quad_nonneg {K : Type} [Field K] [LinearOrder K] [IsStrictOrderedRing K] {qs : List (QP P K)} {v : P → K}
    (hw : ∀ q ∈ qs, 0 ≤ q.w) (hv : ∀ q ∈ qs, 0 ≤ v q.pt) : 0 ≤ quad qs v := by
  refine List.sum_nonneg fun a ha => ?_
  obtain ⟨q, hq, rfl⟩ := List.mem_map.1 ha
  exact mul_nonneg (hw q hq) (hv q hq)

/-! ### The version with degrees per face -/

theorem lapInfoLhs_eq {rd : Nat} (hrd : 0 < rd) : lapInfoLhs d rd cell = lapLhs d none (cell.basis rd) rd cell := by
  funext i j
  unfold lapInfoLhs block stiffness lapLhs
  rw [if_pos hrd, accumDot_eq, accumDot_eq, Nat.add_comm 1 i, Nat.add_comm 1 j]
  rfl

theorem app_lapInfoRhs {rd cd : Nat} (hrd : 0 < rd) (hcd : cd ≤ rd) (hnest : Nested cell) (fcs : List (InfoFace P K))
    (u : Nat → K) {i : Nat} (hi : i + 1 < (cell.basis rd).size) :
    app ((cell.basis cd).size + facesDofs fcs) (lapInfoRhs d rd cd cell fcs) u i =
      quad (cell.integrate (2 * (rd - 1))) (fun x => dot d (rflux d none (cell.basis rd) x i)
        (evalGrad (cell.basis cd) u x)) +
      faceSum (fun f k o => quad (f.integrate (rd - 1 + max k cd)) fun x => fluxN d none (cell.basis rd) f.normal x i *
        (evalFn (f.basis k) (seg o u) x - evalFn (cell.basis cd) u x)) fcs (cell.basis cd).size := by
  obtain ⟨hsz, hb⟩ := hnest cd rd hcd
  unfold lapInfoRhs
  rw [app_lapInfoFaces _ _ rd cd (by omega) u (by omega) _ _ _ (le_refl _)]
  congr 1
  · have e : ∀ j < (cell.basis cd).size + facesDofs fcs,
        setBlock zero 0 0 ((cell.basis rd).size - 1) (cell.basis cd).size
          (block (stiffness d cell rd (cell.basis rd)) 1 0) i j =
        addBlock zero 0 0 ((cell.basis rd).size - 1) (cell.basis cd).size
          (block (stiffness d cell rd (cell.basis rd)) 1 0) i j := by
      intro j _
      unfold setBlock addBlock zero
      split_ifs <;> simp
    rw [app_congr e fun _ _ => rfl, app_addBlock (by omega), app_zero, if_pos (by omega), seg_zero, zero_add, Nat.sub_zero]
    unfold app evalGrad block stiffness
    simp only [if_pos hrd, accumDot_eq, dot_sum]
    rw [quad_sum]
    refine sum_congr rfl fun j hj => ?_
    rw [quad_mul, mul_comm, Nat.zero_add, Nat.add_comm 1 i]
    congr 2
    funext x
    rw [(hb j (mem_range.1 hj) x).2]
    rfl
  · congr 1
    funext f k o
    congr 1
    funext x
    congr 2
    exact sum_congr rfl fun j hj => by rw [(hb j (mem_range.1 hj) x).1]

/-! ### Interpolation -/

theorem projectElem_spec (S : Solver K) (e : Elem P K) (k di : Nat) (f : P → K)
    (hm : Nonsing (e.basis k).size (mass e k (e.basis k))) {i : Nat} (hi : i < (e.basis k).size) :
    quad (e.integrate (2 * k)) (fun x => (e.basis k).fn x i * evalFn (e.basis k) (projectElem S e k f di) x) =
      quad (e.integrate (2 * (k + di))) fun x => (e.basis k).fn x i * f x := by
  have := S.solves (e.basis k).size (mass e k (e.basis k)) (rhsOf e k di (e.basis k) f) (mass_sym _ _ _ _) hm i hi
  rw [rhsOf_eq] at this
  rw [← this]
  exact (app_eval fun j _ => mass_eq ..).symm

theorem evalFn_congr {b : Basis P K} {u v : Nat → K} (h : ∀ j < b.size, u j = v j) (x : P) :
    evalFn b u x = evalFn b v x := sum_congr rfl fun j hj => by rw [h j (mem_range.1 hj)]

theorem projectFaces_lt (S : Solver K) (cbs fbs fd di : Nat) (f : P → K) (fs : List (Face P K)) (i : Nat)
    (ret : Nat → K) {k : Nat} (hk : k < cbs + i * fbs) : projectFaces S cbs fbs fd di f i fs ret k = ret k := by
  induction fs generalizing i ret with
  | nil => rfl
  | cons g fs ih =>
    rw [projectFaces, ih (i + 1) _ (by rw [Nat.add_mul]; omega), setSegment, if_neg (by omega)]

/-- Each face part of the interpolate is the projection on that face. -/
theorem projectFaces_all (S : Solver K) (cbs fbs fd di : Nat) (f : P → K) (fs : List (Face P K))
    (hs : ∀ g ∈ fs, (g.basis fd).size = fbs) (i : Nat) (ret : Nat → K) :
    faceAll (fun g k off => ∀ j < (g.basis k).size,
      projectFaces S cbs fbs fd di f i fs ret (off + j) = projectElem S g.toElem k f di j)
      (uniform fd fs) (cbs + i * fbs) := by
  induction fs generalizing i ret with
  | nil => trivial
  | cons g fs ih =>
    rw [uniform_cons]
    have hg := hs g List.mem_cons_self
    constructor
    · intro j hj
      rw [projectFaces, projectFaces_lt _ _ _ _ _ _ _ _ _ (by rw [Nat.add_mul]; omega), setSegment, if_pos (by omega)]
      congr 1
      omega
    · have := ih (fun g hg => hs g (List.mem_cons_of_mem _ hg)) (i + 1)
        (setSegment ret (cbs + i * fbs) fbs (projectElem S g.toElem fd f di))
      rw [hg, Nat.add_assoc]
      rw [Nat.add_mul, Nat.one_mul] at this
      exact this

section
variable (C : PolyCell d cell faces N)

/-- The code's interpolation operator computes the interpolate of a polynomial. -/
theorem project_isInterp (S : Solver K) {rd cd fd fbs di : Nat} (hs : ∀ g ∈ faces, (g.basis fd).size = fbs)
    (hmT : Nonsing (cell.basis cd).size (mass cell cd (cell.basis cd)))
    (hmF : ∀ g ∈ faces, Nonsing (g.basis fd).size (mass g.toElem fd (g.basis fd)))
    (hd1 : rd ≤ cd + 2 * di) (hd2 : rd ≤ fd + 2 * di) (hN1 : 2 * (cd + di) ≤ N) (hN2 : 2 * (fd + di) ≤ N)
    {p : P → K} (hp : p ∈ C.V rd) :
    IsInterp C cd (uniform fd faces) p (project S cell faces cd fd fbs di p) := by
  constructor
  · intro i hi
    have h1 := projectElem_spec S cell cd di p hmT hi
    rw [cell_quad C (n := cd + cd) (by omega) (by omega) (mul_mem' C (C.cell_mem cd i hi) (evalFn_mem C cd _)),
      cell_quad C (n := cd + rd) (by omega) (by omega) (mul_mem' C (C.cell_mem cd i hi) hp)] at h1
    rw [← h1]
    congr 1
    funext x
    congr 1
    refine evalFn_congr (fun j hj => ?_) x
    unfold project
    rw [projectFaces_lt _ _ _ _ _ _ _ _ _ (by omega), setSegment, if_pos (by omega), Nat.sub_zero]
  · have h := projectFaces_all S (cell.basis cd).size fbs fd di p faces hs 0
      (setSegment (fun _ => 0) 0 (cell.basis cd).size (projectElem S cell cd p di))
    rw [Nat.zero_mul, Nat.add_zero] at h
    refine faceAll_mono (fun f k off hm hj i hi => ?_) h
    obtain ⟨hf, rfl⟩ := mem_uniform hm
    have h1 := projectElem_spec S f.toElem k di p (hmF f hf) hi
    rw [face_quad C hf (n := k + k) (by omega) (by omega) (OnV.mul C (OnV.fb C hf hi) (OnV.evalFb C hf k _)),
      face_quad C hf (n := k + rd) (by omega) (by omega) (OnV.mul C (OnV.fb C hf hi) (OnV.of_mem C hp))] at h1
    rw [← h1]
    congr 1
    funext x
    congr 1
    exact evalFn_congr (fun j hj' => hj j hj') x

end
end Verif.Lemmas.Hho
