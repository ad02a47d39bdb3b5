import Mathlib.Tactic.Ring
import Mathlib.Tactic.Linarith
import Verif.Lemmas.HhoStab
import Verif.Spec.Nitsche
/-!
Lemmas for the weak Dirichlet conditions.
-/
namespace Verif.Lemmas.Nitsche
open Finset Verif.Hho Verif.Spec.Hho Verif.Lemmas.Hho Verif.Nitsche Verif.Spec.Nitsche LocalMatrix

variable {K P : Type} [Field K]

/-- Form of an accumulated matrix. -/
theorem sum_accum (qs : List (QP P K)) (a b : P → Nat → K) (m k : Nat) (x y : Nat → K) :
    ∑ i ∈ range m, x i * app k (accum qs a b) y i =
      quad qs fun p => (∑ i ∈ range m, x i * a p i) * ∑ j ∈ range k, y j * b p j := by
  have h : ∀ i, app k (accum qs a b) y i = quad qs fun p => a p i * ∑ j ∈ range k, y j * b p j := fun i =>
    app_eval fun j _ => accum_eq ..
  simp only [h, ← quad_mul]
  rw [← quad_sum]
  refine quad_congr fun q _ => ?_
  rw [sum_mul]
  exact sum_congr rfl fun i _ => by ring

theorem sum_fluxN (d : Nat) (rb : Basis P K) (n : Nat → K) (w : Nat → K) (x : P) :
    ∑ j ∈ range (rb.size - 1), w j * fluxN d none rb n x j = normalD d rb w n x := by
  unfold normalD
  rw [dot_comm]
  change _ = dot d n (fun c => ∑ j ∈ range (rb.size - 1), w j * rb.grad x (j + 1) c)
  rw [dot_sum]
  refine sum_congr rfl fun j _ => ?_
  rw [dot_comm]
  rfl

theorem accumVec_eq (qs : List (QP P K)) (a : P → Nat → K) (g : P → K) (i : Nat) :
    accumVec qs a g i = quad qs fun x => a x i * g x := by
  have h : ∀ (qs : List (QP P K)) (v : Nat → K),
      (qs.foldl (fun v q => fun i => v i + q.w * a q.pt i * g q.pt) v) i = v i + quad qs fun x => a x i * g x := by
    intro qs
    induction qs with
    | nil => intro v; simp [quad]
    | cons q qs ih => intro v; rw [List.foldl_cons, ih, quad_cons]; ring
  unfold accumVec
  rw [h, zero_add]

theorem load_addSeg {n r nr : Nat} (h : r + nr ≤ n) (b c v : Nat → K) :
    load n (addSeg b r nr c) v = load n b v + ∑ j ∈ range nr, c j * seg r v j := by
  have := sum_seg h (fun i => c (i - r) * v i)
  simp only [Nat.add_sub_cancel_left] at this
  unfold load seg
  rw [← this, ← sum_add_distrib]
  refine sum_congr rfl fun i _ => ?_
  unfold addSeg
  split_ifs <;> ring

theorem load_fold {n r nr : Nat} (h : r + nr ≤ n) (a : P → Nat → K) (t : K) (g : P → K) (v : Nat → K)
    (qs : List (QP P K)) (b : Nat → K) :
    load n (qs.foldl (fun b q => addSeg b r nr fun j => q.w * a q.pt j * t * g q.pt) b) v =
      load n b v + t * quad qs fun x => g x * ∑ j ∈ range nr, seg r v j * a x j := by
  induction qs generalizing b with
  | nil => simp [quad]
  | cons q qs ih =>
    rw [List.foldl_cons, ih, load_addSeg h, quad_cons]
    have : ∑ j ∈ range nr, q.w * a q.pt j * t * g q.pt * seg r v j =
        t * (q.w * (g q.pt * ∑ j ∈ range nr, seg r v j * a q.pt j)) := by
      simp only [mul_sum]
      exact sum_congr rfl fun j _ => by ring
    rw [this]
    ring

/-- What a boundary face adds to the bilinear form. -/
theorem form_faceTerms {d rd fd n : Nat} (pen : K) (g : P → K) (rb : Basis P K) (R : Mat K) {ofs : Nat} (fc : BFace P K)
    (s : Mat K × (Nat → K)) (ho : ofs + (fc.basis fd).size ≤ n) (v u : Nat → K) :
    form n (faceTerms d rd fd n pen g rb R ofs fc s).1 v u = form n s.1 v u +
      (-quad (fc.integrate (2 * rd)) (fun x => evalFn (fc.basis fd) (seg ofs v) x * normalD d rb (app n R u) fc.normal x) -
        quad (fc.integrate (2 * rd)) (fun x => evalFn (fc.basis fd) (seg ofs u) x * normalD d rb (app n R v) fc.normal x) +
        pen / fc.meas * quad (fc.integrate (2 * rd)) fun x =>
          evalFn (fc.basis fd) (seg ofs v) x * evalFn (fc.basis fd) (seg ofs u) x) := by
  have e : ∀ a b : Nat → K, ∑ i ∈ range (fc.basis fd).size, seg ofs a i *
      app n (mul (rb.size - 1) (accum (fc.integrate (2 * rd)) (fc.basis fd).fn (fluxN d none rb fc.normal)) R) b i =
      quad (fc.integrate (2 * rd)) fun x =>
        evalFn (fc.basis fd) (seg ofs a) x * normalD d rb (app n R b) fc.normal x := by
    intro a b
    simp only [app_mul]
    rw [sum_accum]
    refine quad_congr fun q _ => ?_
    rw [sum_fluxN]
    rfl
  have t : ∀ (A : Mat K), ∑ i ∈ range n, v i * app (fc.basis fd).size (tpose A) (seg ofs u) i =
      ∑ i ∈ range (fc.basis fd).size, seg ofs u i * app n A v i := by
    intro A
    simp only [app, mul_sum, tpose]
    rw [sum_comm]
    exact sum_congr rfl fun _ _ => sum_congr rfl fun _ _ => by ring
  have m : ∑ i ∈ range (fc.basis fd).size, seg ofs v i * app (fc.basis fd).size
      (fun i j => pen / fc.meas * accum (fc.integrate (2 * rd)) (fc.basis fd).fn (fc.basis fd).fn i j) (seg ofs u) i =
      pen / fc.meas * quad (fc.integrate (2 * rd)) fun x =>
          evalFn (fc.basis fd) (seg ofs v) x * evalFn (fc.basis fd) (seg ofs u) x := by
    have := sum_accum (fc.integrate (2 * rd)) (fc.basis fd).fn (fc.basis fd).fn (fc.basis fd).size (fc.basis fd).size
      (seg ofs v) (seg ofs u)
    unfold evalFn
    rw [← this, mul_sum]
    refine sum_congr rfl fun i _ => ?_
    simp only [app, mul_sum]
    exact sum_congr rfl fun j _ => by ring
  unfold faceTerms
  dsimp only
  rw [form_addBlock ho ho, form_subBlock (by omega) ho, form_subBlock ho (by omega)]
  simp only [seg_zero]
  rw [t, e, e, m]
  ring

/-- What a boundary face adds to the load. -/
theorem load_faceTerms {d rd fd n : Nat} (pen : K) (g : P → K) (rb : Basis P K) (R : Mat K) {ofs : Nat} (fc : BFace P K)
    (s : Mat K × (Nat → K)) (ho : ofs + (fc.basis fd).size ≤ n) (v : Nat → K) :
    load n (faceTerms d rd fd n pen g rb R ofs fc s).2 v = load n s.2 v +
      (pen / fc.meas * quad (fc.integrate (2 * rd)) (fun x => g x * evalFn (fc.basis fd) (seg ofs v) x) -
        quad (fc.integrate (2 * rd)) fun x => g x * normalD d rb (app n R v) fc.normal x) := by
  have h := load_fold ho (fc.basis fd).fn (pen / fc.meas) g v (fc.integrate (2 * rd)) s.2
  have e : ∑ i ∈ range n, (∑ k ∈ range (rb.size - 1), R k i *
      accumVec (fc.integrate (2 * rd)) (fluxN d none rb fc.normal) g k) * v i =
      quad (fc.integrate (2 * rd)) fun x => g x * normalD d rb (app n R v) fc.normal x := by
    simp only [accumVec_eq, ← sum_fluxN, sum_mul, mul_sum]
    rw [sum_comm, quad_sum]
    refine sum_congr rfl fun k _ => ?_
    have : (fun x => g x * (app n R v k * fluxN d none rb fc.normal x k)) =
        fun x => app n R v k * (fluxN d none rb fc.normal x k * g x) := funext fun x => by ring
    rw [this, quad_mul, app, sum_mul]
    exact sum_congr rfl fun i _ => by ring
  unfold faceTerms
  dsimp only
  unfold load at h ⊢
  simp only [sub_mul, sum_sub_distrib]
  rw [h, e]
  unfold evalFn
  ring

theorem bndSum_congr {fd : Nat} {h h' : BFace P K → Nat → K} {fs : List (BFace P K)}
    (e : ∀ f ∈ fs, f.boundary = true → ∀ o, h f o = h' f o) (off : Nat) : bndSum fd h fs off = bndSum fd h' fs off := by
  induction fs generalizing off with
  | nil => rfl
  | cons f fs ih =>
    simp only [bndSum]
    rw [ih fun g hg => e g (List.mem_cons_of_mem _ hg)]
    split_ifs with hb
    · rw [e f List.mem_cons_self hb]
    · rfl

theorem bndSum_add (fd : Nat) (h h' : BFace P K → Nat → K) (fs : List (BFace P K)) (off : Nat) :
    bndSum fd (fun f o => h f o + h' f o) fs off = bndSum fd h fs off + bndSum fd h' fs off := by
  induction fs generalizing off with
  | nil => simp [bndSum]
  | cons f fs ih => simp only [bndSum, ih]; split_ifs <;> ring

theorem bndSum_sub (fd : Nat) (h h' : BFace P K → Nat → K) (fs : List (BFace P K)) (off : Nat) :
    bndSum fd (fun f o => h f o - h' f o) fs off = bndSum fd h fs off - bndSum fd h' fs off := by
  induction fs generalizing off with
  | nil => simp [bndSum]
  | cons f fs ih => simp only [bndSum, ih]; split_ifs <;> ring

theorem bndSum_mul (fd : Nat) (a : K) (h : BFace P K → Nat → K) (fs : List (BFace P K)) (off : Nat) :
    bndSum fd (fun f o => a * h f o) fs off = a * bndSum fd h fs off := by
  induction fs generalizing off with
  | nil => simp [bndSum]
  | cons f fs ih => simp only [bndSum, ih]; split_ifs <;> ring

theorem facesDofs_uniform_cons (fd : Nat) (f : BFace P K) (fs : List (BFace P K)) :
    facesDofs (uniform fd ((f :: fs).map BFace.toFace)) =
      (f.basis fd).size + facesDofs (uniform fd (fs.map BFace.toFace)) := by
  simp [uniform, facesDofs, faceDofs]

/-- The bilinear form and the load after the face loop. -/
theorem loop_eq {d rd fd n cbs : Nat} (pen : K) (g : P → K) (rb : Basis P K) (R : Mat K) {fbs : Nat} (v u : Nat → K)
    (fs : List (BFace P K)) (hs : ∀ f ∈ fs, (f.basis fd).size = fbs) (i : Nat) (s : Mat K × (Nat → K))
    (ho : cbs + fbs * i + facesDofs (uniform fd (fs.map BFace.toFace)) ≤ n) :
    form n (loop d rd fd n cbs pen g rb R i fs s).1 v u = form n s.1 v u + bndSum fd (fun fc ofs =>
      -quad (fc.integrate (2 * rd)) (fun x => evalFn (fc.basis fd) (seg ofs v) x * normalD d rb (app n R u) fc.normal x) -
        quad (fc.integrate (2 * rd)) (fun x => evalFn (fc.basis fd) (seg ofs u) x * normalD d rb (app n R v) fc.normal x) +
        pen / fc.meas * quad (fc.integrate (2 * rd)) fun x =>
          evalFn (fc.basis fd) (seg ofs v) x * evalFn (fc.basis fd) (seg ofs u) x) fs (cbs + fbs * i) ∧
    load n (loop d rd fd n cbs pen g rb R i fs s).2 v = load n s.2 v + bndSum fd (fun fc ofs =>
      pen / fc.meas * quad (fc.integrate (2 * rd)) (fun x => g x * evalFn (fc.basis fd) (seg ofs v) x) -
        quad (fc.integrate (2 * rd)) fun x => g x * normalD d rb (app n R v) fc.normal x) fs (cbs + fbs * i) := by
  induction fs generalizing i s with
  | nil => simp [loop, bndSum]
  | cons f fs ih =>
    have hf := hs f List.mem_cons_self
    rw [facesDofs_uniform_cons, hf] at ho
    have hi : cbs + fbs * (i + 1) = cbs + fbs * i + fbs := by ring
    obtain ⟨h1, h2⟩ := ih (fun f hf => hs f (List.mem_cons_of_mem _ hf)) (i + 1)
      (if f.boundary then faceTerms d rd fd n pen g rb R (cbs + (f.basis fd).size * i) f s else s)
      (by rw [hi]; omega)
    unfold loop
    rw [h1, h2]
    simp only [bndSum]
    rw [hf, ← hi]
    by_cases hb : f.boundary = true
    · simp only [hb, if_true]
      rw [form_faceTerms pen g rb R f s (by rw [hf]; omega), load_faceTerms pen g rb R f s (by rw [hf]; omega)]
      constructor <;> ring
    · simp only [hb]
      constructor <;> simp

end Verif.Lemmas.Nitsche
