import Mathlib.LinearAlgebra.FiniteDimensional.Lemmas
import Verif.Lemmas.HhoCurlPot
/-!
Helper lemmas for the tangential interpolation.
-/
namespace Verif.Lemmas.Hho
open Finset Verif.Hho Verif.Spec.Hho LocalMatrix

variable {K P : Type} [Field K] {N : Nat} {cell : Elem P K} {faces : List (Face P K)}

theorem rhsFold_eq (qs : List (QP P K)) (b : P → Nat → Nat → K) (f : P → Nat → K) (i : Nat) (v : Nat → K) :
    qs.foldl (fun v q => fun i => v i + dot 3 (b q.pt i) fun c => q.w * f q.pt c) v i =
      v i + quad qs fun x => dot 3 (b x i) (f x) := by
  induction qs generalizing v with
  | nil => simp [quad]
  | cons q qs ih =>
    rw [List.foldl_cons, ih, quad_cons, add_assoc]
    congr 2
    simp only [dot3]
    ring

theorem projectVec_spec (S : Solver K) (e : Elem P K) {k di n : Nat} (b : P → Nat → Nat → K) (f : P → Nat → K)
    (hm : Nonsing n (accumDot 3 (e.integrate (2 * k)) b b)) {i : Nat} (hi : i < n) :
    quad (e.integrate (2 * k)) (fun x => ∑ j ∈ range n, projectVec S e k di n b f j * dot 3 (b x i) (b x j)) =
      quad (e.integrate (2 * (k + di))) fun x => dot 3 (b x i) (f x) := by
  have hs : SymOn n (accumDot 3 (e.integrate (2 * k)) b b) := by
    intro i _ j _
    rw [accumDot_eq, accumDot_eq]
    exact quad_congr fun q _ => dot_comm _ _ _
  have := S.solves n _ ((e.integrate (2 * (k + di))).foldl
    (fun v q => fun i => v i + dot 3 (b q.pt i) fun c => q.w * f q.pt c) fun _ => 0) hs hm i hi
  rw [rhsFold_eq, zero_add] at this
  rw [← this, quad_sum]
  refine sum_congr rfl fun j _ => ?_
  rw [accumDot_eq, quad_mul, mul_comm]
  rfl

theorem tangentFaces_lt (S : Solver K) (fr : Frames P K) (cbs fbs fd di : Nat) (f : P → Nat → K) (fs : List (Face P K))
    (i : Nat) (ret : Nat → K) {k : Nat} (hk : k < cbs + i * fbs) :
    tangentFaces S fr cbs fbs fd di f i fs ret k = ret k := by
  induction fs generalizing i ret with
  | nil => rfl
  | cons g fs ih =>
    rw [tangentFaces, ih _ _ (by rw [Nat.add_mul]; omega), setSegment, if_neg (by omega)]

theorem maxwellFaces_lt (S : Solver K) (fr : Frames P K) (cell : Elem P K) (cbs fbs fd : Nat) (f : P → Nat → K)
    (fs : List (Face P K)) (i : Nat) (ret : Nat → K) {k : Nat} (hk : k < cbs + i * fbs) :
    maxwellFaces S fr cell cbs fbs fd f i fs ret k = ret k := by
  induction fs generalizing i ret with
  | nil => rfl
  | cons g fs ih =>
    rw [maxwellFaces, ih _ _ (by rw [Nat.add_mul]; omega), setSegment, if_neg (by omega)]

theorem tangentFaces_all (S : Solver K) (fr : Frames P K) (cbs fbs fd di : Nat) (f : P → Nat → K) (fs : List (Face P K))
    (hs : ∀ g ∈ fs, 2 * (g.basis fd).size = fbs) (i : Nat) (ret : Nat → K) :
    tanAll 2 fd (fun g off => ∀ j < 2 * (g.basis fd).size,
      tangentFaces S fr cbs fbs fd di f i fs ret (off + j) =
        projectVec S g.toElem fd di (2 * (g.basis fd).size) (tanFn (fr g) (g.basis fd))
          (fun x => cross g.normal (cross (f x) g.normal)) j) fs (cbs + i * fbs) := by
  induction fs generalizing i ret with
  | nil => trivial
  | cons g fs ih =>
    have hg := hs g List.mem_cons_self
    constructor
    · intro j hj
      rw [tangentFaces, tangentFaces_lt _ _ _ _ _ _ _ _ _ _ (by rw [Nat.add_mul]; omega), setSegment, if_pos (by omega)]
      congr 1
      omega
    · have := ih (fun g hg => hs g (List.mem_cons_of_mem _ hg)) (i + 1)
        (setSegment ret (cbs + i * fbs) fbs (projectVec S g.toElem fd di (2 * (g.basis fd).size)
          (tanFn (fr g) (g.basis fd)) fun x => cross g.normal (cross (f x) g.normal)))
      rw [hg, Nat.add_assoc]
      rw [Nat.add_mul, Nat.one_mul] at this
      exact this

theorem evalTan_congr {e : Nat → Nat → K} {b : Basis P K} {u w : Nat → K} (h : ∀ j < 2 * b.size, u j = w j) (x : P) :
    evalTan e b u x = evalTan e b w x := by
  funext c
  unfold evalTan
  refine sum_congr rfl fun s hs => ?_
  have hs := mem_range.1 hs
  rw [evalFn_congr (fun k hk => ?_) x]
  unfold comp
  exact h _ (by omega)

theorem evalVec_congr {b : Basis P K} {u w : Nat → K} (h : ∀ j < 3 * b.size, u j = w j) (x : P) {c : Nat} (hc : c < 3) :
    evalVec 3 b u x c = evalVec 3 b w x c := by
  unfold evalVec
  refine evalFn_congr (fun k hk => ?_) x
  unfold comp
  exact h _ (by omega)

section
variable (C : PolyCell 3 cell faces N)

/-- The cell part of the interpolates. -/
theorem projectVec_cell (S : Solver K) {cd di pd : Nat}
    (hm : Nonsing (3 * (cell.basis cd).size) (accumDot 3 (cell.integrate (2 * cd)) (vecFn 3 (cell.basis cd))
      (vecFn 3 (cell.basis cd)))) (hd : pd ≤ cd + 2 * di) (hN : 2 * (cd + di) ≤ N) {p : P → Nat → K}
    (hp : ∀ c < 3, (fun x => p x c) ∈ C.V pd) {c i : Nat} (hc : c < 3) (hi : i < (cell.basis cd).size) :
    C.IT (fun x => (cell.basis cd).fn x i * evalVec 3 (cell.basis cd)
        (projectVec S cell cd di (3 * (cell.basis cd).size) (vecFn 3 (cell.basis cd)) p) x c) =
      C.IT (fun x => (cell.basis cd).fn x i * p x c) := by
  have h := projectVec_spec S cell (di := di) (vecFn 3 (cell.basis cd)) p hm (show 3 * i + c < 3 * (cell.basis cd).size by omega)
  simp only [sum_vec] at h
  simp only [dot_vecFn (show 0 < 3 by omega), (divmod_add hc).1, (divmod_add hc).2] at h
  unfold evalVec at h ⊢
  rw [cell_quad C (n := cd + cd) (by omega) (by omega) (mul_mem' C (C.cell_mem cd i hi) (evalFn_mem C cd _)),
    cell_quad C (n := cd + pd) (by omega) (by omega) (mul_mem' C (C.cell_mem cd i hi) (hp c hc))] at h
  exact h

/-- `project_tangent` computes the tangential interpolate. -/
theorem projectTangent_isInterp (S : Solver K) {fr : Frames P K} {cd fd fbs di pd : Nat}
    (hs : ∀ f ∈ faces, 2 * (f.basis fd).size = fbs)
    (hmc : Nonsing (3 * (cell.basis cd).size) (accumDot 3 (cell.integrate (2 * cd)) (vecFn 3 (cell.basis cd))
      (vecFn 3 (cell.basis cd))))
    (hmf : ∀ f ∈ faces, Nonsing (2 * (f.basis fd).size) (accumDot 3 (f.integrate (2 * fd)) (tanFn (fr f) (f.basis fd))
      (tanFn (fr f) (f.basis fd)))) (hfr : ∀ f ∈ faces, IsFrame f.normal (fr f))
    (hd : pd ≤ cd + 2 * di) (hdf : pd ≤ fd + 2 * di) (hN : 2 * (cd + di) ≤ N) (hNf : 2 * (fd + di) ≤ N)
    {p : P → Nat → K} (hp : ∀ c < 3, (fun x => p x c) ∈ C.V pd) :
    IsTanInterp C fr cd fd p (projectTangent S fr cell faces cd fd fbs di p) := by
  constructor
  · intro c hc i hi
    rw [← projectVec_cell C S hmc hd hN hp hc hi]
    congr 1
    funext x
    rw [evalVec_congr (fun j hj => ?_) x hc]
    unfold projectTangent
    rw [tangentFaces_lt _ _ _ _ _ _ _ _ _ _ (by omega), setSegment, if_pos (by omega), Nat.sub_zero]
  · have h := tangentFaces_all S fr (3 * (cell.basis cd).size) fbs fd di p faces hs 0
      (setSegment (fun _ => 0) 0 (3 * (cell.basis cd).size) (projectVec S cell cd di (3 * (cell.basis cd).size)
        (vecFn 3 (cell.basis cd)) p))
    rw [Nat.zero_mul, Nat.add_zero] at h
    refine tanAll_mono (fun f hf o h s hs i hi => ?_) h
    have h1 := projectVec_spec S f.toElem (di := di) (tanFn (fr f) (f.basis fd))
      (fun x => cross f.normal (cross (p x) f.normal)) (hmf f hf) (show 2 * i + s < 2 * (f.basis fd).size by omega)
    have e : ∀ x, evalTan (fr f) (f.basis fd) (seg o (projectTangent S fr cell faces cd fd fbs di p)) x =
        evalTan (fr f) (f.basis fd) (projectVec S f.toElem fd di (2 * (f.basis fd).size) (tanFn (fr f) (f.basis fd))
          fun x => cross f.normal (cross (p x) f.normal)) x := fun x => evalTan_congr (fun j hj => h j hj) x
    simp only [e]
    simp only [sum_tan] at h1
    simp only [dot_tanFn, (divmod_add hs).1, (divmod_add hs).2,
      dot_tangent (hfr f hf).1 (frame_tangential (hfr f hf) hs)] at h1
    rw [face_quad C hf (n := fd + fd) (by omega) (by omega)
        (OnV_dotTan C hf _ (le_refl _) i hi fun c _ => OnV_evalTan C hf _ fd _ c),
      face_quad C hf (n := fd + max fd pd) (by omega) (by omega)
        (OnV_dotTan C hf _ (by omega) i hi fun c hc => OnV.of_mem C (C.mono (by omega) (hp c hc)))] at h1
    exact h1

end

/-- A rule with fewer points than functions: some combination of the functions vanishes at all points. -/
theorem exists_vanishing (b : Basis P K) (qs : List (QP P K)) (h : qs.length < b.size) :
    ∃ a : Nat → K, (∃ j < b.size, a j ≠ 0) ∧ ∀ q ∈ qs, evalFn b a q.pt = 0 := by
  let f : (Fin b.size → K) →ₗ[K] (Fin qs.length → K) :=
    { toFun := fun a k => ∑ j : Fin b.size, a j * b.fn (qs.get k).pt j.1
      map_add' := fun a a' => by
        funext k
        simp only [Pi.add_apply, _root_.add_mul, sum_add_distrib]
      map_smul' := fun r a => by
        funext k
        simp only [Pi.smul_apply, smul_eq_mul, RingHom.id_apply, mul_sum, mul_assoc] }
  have hk : LinearMap.ker f ≠ ⊥ := LinearMap.ker_ne_bot_of_finrank_lt (by simpa using h)
  obtain ⟨a, ha, hne⟩ := (Submodule.ne_bot_iff _).1 hk
  refine ⟨fun j => if hj : j < b.size then a ⟨j, hj⟩ else 0, ?_, fun q hq => ?_⟩
  · by_contra hc
    push Not at hc
    refine hne (funext fun j => ?_)
    have := hc j.1 j.2
    rwa [dif_pos j.2] at this
  · obtain ⟨k, hk, rfl⟩ := List.getElem_of_mem hq
    have := congrFun (LinearMap.mem_ker.1 ha) ⟨k, hk⟩
    unfold evalFn
    rw [← Fin.sum_univ_eq_sum_range (fun j => (if hj : j < b.size then a ⟨j, hj⟩ else 0) * b.fn qs[k].pt j) b.size]
    simpa [f] using this

end Verif.Lemmas.Hho
