import Verif.Lemmas.HhoStab
import Verif.Props.HhoLaplacian
/-!
C84: what the stabilizations penalize. C85: the HHO stabilization vanishes on interpolates. C86: the scaling flag.
-/
namespace Verif.Props.HhoStab
open Finset Verif.Hho Verif.Spec.Hho Verif.Lemmas.Hho LocalMatrix

variable {K P : Type} [Field K] {d N : Nat} {cell : Elem P K} {faces : List (Face P K)}

/-- The HDG stabilization penalizes the face projection of `u_T - u_F`, scaled by the diameter selected by `hF`. -/
theorem c84_hdg (C : PolyCell d cell faces N) (S : Solver K) (hF : Bool) {cd : Nat} (fcs : List (InfoFace P K))
    (hf : ∀ f k, (f, some k) ∈ fcs → f ∈ faces ∧ 2 * k ≤ N ∧ k + cd ≤ N ∧
      Nonsing (f.basis k).size (mass f.toElem k (f.basis k))) :
    ∃ δ : Face P K → Nat → Nat → (Nat → K) → Nat → K,
      (∀ u, faceAll (fun f k o => IsFaceProj C f k
        (fun x => evalFn (cell.basis cd) u x - evalFn (f.basis k) (seg o u) x) (δ f k o u)) fcs (cell.basis cd).size) ∧
      ∀ v u, form ((cell.basis cd).size + facesDofs fcs) (hdg S hF cd cell fcs) v u = faceSum (fun f k o =>
        C.IF f (fun x => evalFn (f.basis k) (δ f k o v) x * evalFn (f.basis k) (δ f k o u) x) /
          (if hF then f.diam else cell.diam)) fcs (cell.basis cd).size := by
  refine ⟨fun f k o u => hdgDelta S cd k cell f o u, fun u => ?_, fun v u => ?_⟩
  · refine faceAll_of_forall (n := (cell.basis cd).size + facesDofs fcs) (le_refl _) fun f k o hm _ _ => ?_
    obtain ⟨h1, h2, h3, h4⟩ := hf f k hm
    exact hdgDelta_proj C S h1 h2 h3 h4 u
  · unfold hdg
    rw [form_hdgFaces S hF fcs _ _ (fun f k h => (hf f k h).2.2.2) (le_refl _) (le_refl _), form_zero, zero_add]
    refine faceSum_congr (fun f k o hm => ?_) _
    obtain ⟨h1, h2, _, _⟩ := hf f k hm
    rw [face_sq C h1 h2]
    rfl

/-- The DG stabilization penalizes the jump `u_F - u_T` itself. -/
theorem c84_dg (C : PolyCell d cell faces N) (hF : Bool) {cd : Nat} (hcd : 2 * cd ≤ N) (fcs : List (InfoFace P K))
    (hf : ∀ f k, (f, some k) ∈ fcs → f ∈ faces ∧ 2 * k ≤ N) (v u : Nat → K) :
    form ((cell.basis cd).size + facesDofs fcs) (dg hF cd cell fcs) v u = faceSum (fun f k o =>
      C.IF f (fun x => (evalFn (f.basis k) (seg o v) x - evalFn (cell.basis cd) v x) *
        (evalFn (f.basis k) (seg o u) x - evalFn (cell.basis cd) u x)) / (if hF then f.diam else cell.diam))
      fcs (cell.basis cd).size := by
  unfold dg
  rw [form_dgFaces C hF hcd fcs _ _ hf (le_refl _) (le_refl _), form_zero, zero_add]
  rfl

/-- The HHO stabilization with degrees per face penalizes the face projection of `R û - u_F + (u_T - y)`, `y` the cell
projection of `R û`, scaled by the diameter selected by `hF`. -/
theorem c84_hho_info (C : PolyCell d cell faces N) (hnest : Nested cell) (S : Solver K) (hF : Bool) {rd cd : Nat}
    (hcd : cd ≤ rd) (hN : 2 * rd ≤ N) (hmT : Nonsing (cell.basis cd).size (mass cell rd (cell.basis rd)))
    (R : Mat K) (fcs : List (InfoFace P K))
    (hf : ∀ f k, (f, some k) ∈ fcs → f ∈ faces ∧ 2 * k ≤ N ∧ rd + k ≤ N ∧
      Nonsing (f.basis k).size (mass f.toElem k (f.basis k))) :
    let n := (cell.basis cd).size + facesDofs fcs
    ∃ (y : (Nat → K) → Nat → K) (δ : Face P K → Nat → Nat → (Nat → K) → Nat → K),
      (∀ u, IsCellProj C cd (evalTail (cell.basis rd) (app n R u)) (y u)) ∧
      (∀ u, faceAll (fun f k o => IsFaceProj C f k
        (fun x => evalTail (cell.basis rd) (app n R u) x - evalFn (f.basis k) (seg o u) x +
          (evalFn (cell.basis cd) u x - evalFn (cell.basis cd) (y u) x)) (δ f k o u)) fcs (cell.basis cd).size) ∧
      ∀ v u, form n (hhoInfo S hF rd cd cell R fcs) v u = faceSum (fun f k o =>
        C.IF f (fun x => evalFn (f.basis k) (δ f k o v) x * evalFn (f.basis k) (δ f k o u) x) /
          (if hF then f.diam else cell.diam)) fcs (cell.basis cd).size := by
  intro n
  obtain ⟨hsz, hfn⟩ := hnest cd rd hcd
  have hM1 : ∀ i j, i < (cell.basis cd).size → j < (cell.basis cd).size → block (mass cell rd (cell.basis rd)) 0 0 i j =
      C.IT fun x => (cell.basis cd).fn x i * (cell.basis cd).fn x j := by
    intro i j hi hj
    simp only [block, Nat.zero_add]
    rw [mass_eq, cell_quad C (n := rd + rd) (by omega) hN
      (mul_mem' C (C.cell_mem rd i (by omega)) (C.cell_mem rd j (by omega)))]
    congr 1
    funext x
    rw [(hfn i hi x).1, (hfn j hj x).1]
  have hM2 : ∀ i j, i < (cell.basis cd).size → j + 1 < (cell.basis rd).size →
      block (mass cell rd (cell.basis rd)) 0 1 i j = C.IT fun x => (cell.basis cd).fn x i * (cell.basis rd).fn x (j + 1) := by
    intro i j hi hj
    simp only [block, Nat.zero_add]
    rw [Nat.add_comm 1 j, mass_eq, cell_quad C (n := rd + rd) (by omega) hN
      (mul_mem' C (C.cell_mem rd i (by omega)) (C.cell_mem rd (j + 1) hj))]
    congr 1
    funext x
    rw [(hfn i hi x).1]
  have hs : SymOn (cell.basis cd).size (block (mass cell rd (cell.basis rd)) 0 0) := by
    intro i hi j hj
    simp only [block, Nat.zero_add]
    exact mass_sym cell rd (cell.basis cd).size (cell.basis rd) i hi j hj
  have hn : Nonsing (cell.basis cd).size (block (mass cell rd (cell.basis rd)) 0 0) := by
    intro x hx
    refine hmT x fun i hi => ?_
    have := hx i hi
    simp only [block, Nat.zero_add] at this
    exact this
  refine ⟨fun u => app n (S.solveMat (cell.basis cd).size (block (mass cell rd (cell.basis rd)) 0 0)
      (mul ((cell.basis rd).size - 1) (block (mass cell rd (cell.basis rd)) 0 1) R)) u,
    fun f k o u => app n (hhoInfoB S rd (cell.basis cd).size cell R (proj1 S (cell.basis cd).size
      ((cell.basis rd).size - 1) (block (mass cell rd (cell.basis rd)) 0 0) (block (mass cell rd (cell.basis rd)) 0 1) R)
      f k o) u, fun u => ?_, fun u => ?_, fun v u => ?_⟩
  · exact cellProj_exact C S R hM1 hM2 hs hn u
  · refine faceAll_of_forall (n := n) (le_refl _) fun f k o hm _ ho => ?_
    obtain ⟨h1, h2, h3, h4⟩ := hf f k hm
    intro i hi
    unfold hhoInfoB
    rw [faceProj_exact C S (rd := rd) (cd := cd) h1 h2 h4 ho R _ ?_ ?_ u i hi]
    · congr 1
      funext x
      dsimp only
      congr 2
      simp only [evalFn]
      rw [← sum_sub_distrib]
      refine sum_congr rfl fun j hj => ?_
      rw [app_proj1 S (by omega) _ _ R u (mem_range.1 hj), sub_mul]
    · intro i j hi hj
      simp only [block, Nat.zero_add]
      rw [Nat.add_comm 1 j, traceMat, accum_eq]
      exact face_quad C h1 (n := k + rd) (by omega) h3 (OnV.mul C (OnV.fb C h1 hi) (OnV.of_mem C (C.cell_mem rd _ hj)))
    · intro i j hi hj
      simp only [block, Nat.zero_add]
      rw [traceMat, accum_eq, face_quad C h1 (n := k + rd) (by omega) h3
        (OnV.mul C (OnV.fb C h1 hi) (OnV.of_mem C (C.cell_mem rd _ (by omega))))]
      congr 1
      funext x
      rw [(hfn j hj x).1]
  · unfold hhoInfo
    simp only
    rw [form_hhoInfoFaces, form_zero, zero_add]
    refine faceSum_congr (fun f k o hm => ?_) _
    obtain ⟨h1, h2, _, _⟩ := hf f k hm
    rw [face_sq C h1 h2]
    rfl

/-- The HHO stabilization with `hho_degree_info` penalizes the same difference, scaled by the diameter of the cell. -/
theorem c84_hho (C : PolyCell d cell faces N) (S : Solver K) (x : Bool) {rd cd fd : Nat}
    (hcd : 2 * cd ≤ N) (hrc : rd + cd ≤ N) (hN : 2 * fd ≤ N) (hNf : rd + fd ≤ N) (hcr : cd ≤ rd)
    (hmT : Nonsing (cell.basis cd).size (mass cell cd (cell.basis cd)))
    (hmF : ∀ f ∈ faces, Nonsing (f.basis fd).size (mass f.toElem fd (f.basis fd))) (R : Mat K) :
    let fcs := uniform fd faces
    let n := (cell.basis cd).size + facesDofs fcs
    ∃ (y : (Nat → K) → Nat → K) (δ : Face P K → Nat → Nat → (Nat → K) → Nat → K),
      (∀ u, IsCellProj C cd (evalTail (cell.basis rd) (app n R u)) (y u)) ∧
      (∀ u, faceAll (fun f k o => IsFaceProj C f k
        (fun x => evalTail (cell.basis rd) (app n R u) x - evalFn (f.basis k) (seg o u) x +
          (evalFn (cell.basis cd) u x - evalFn (cell.basis cd) (y u) x)) (δ f k o u)) fcs (cell.basis cd).size) ∧
      ∀ v u, form n (hho S x rd cd fd cell R faces) v u = faceSum (fun f k o =>
        C.IF f (fun x => evalFn (f.basis k) (δ f k o v) x * evalFn (f.basis k) (δ f k o u) x) / cell.diam)
        fcs (cell.basis cd).size := by
  intro fcs n
  refine ⟨fun u => app n (S.solveMat (cell.basis cd).size (mass cell cd (cell.basis cd))
      (mul ((cell.basis rd).size - 1) (accum (cell.integrate (rd + cd)) (cell.basis cd).fn
        (fun x j => (cell.basis rd).fn x (j + 1))) R)) u,
    fun f k o u => app n (hhoB S rd cd k cell R (proj1 S (cell.basis cd).size
      ((cell.basis rd).size - 1) (mass cell cd (cell.basis cd)) (accum (cell.integrate (rd + cd)) (cell.basis cd).fn
        (fun x j => (cell.basis rd).fn x (j + 1))) R) f o) u, fun u => ?_, fun u => ?_, fun v u => ?_⟩
  · refine cellProj_exact C S R ?_ ?_ (mass_sym cell cd _ (cell.basis cd)) hmT u
    · intro i j hi hj
      rw [mass_eq]
      exact cell_quad C (n := cd + cd) (by omega) hcd (mul_mem' C (C.cell_mem cd i hi) (C.cell_mem cd j hj))
    · intro i j hi hj
      rw [accum_eq]
      exact cell_quad C (n := cd + rd) (by omega) hrc (mul_mem' C (C.cell_mem cd i hi) (C.cell_mem rd (j + 1) hj))
  · refine faceAll_of_forall (n := n) (le_refl _) fun f k o hm _ ho => ?_
    obtain ⟨h1, rfl⟩ := mem_uniform hm
    intro i hi
    unfold hhoB
    rw [faceProj_exact C S (rd := rd) (cd := cd) h1 hN (hmF f h1) ho R _ ?_ ?_ u i hi]
    · congr 1
      funext x
      dsimp only
      congr 2
      simp only [evalFn]
      rw [← sum_sub_distrib]
      refine sum_congr rfl fun j hj => ?_
      rw [app_proj1 S (by omega) _ _ R u (mem_range.1 hj), sub_mul]
    · intro i j hi hj
      rw [accum_eq]
      exact face_quad C h1 (n := k + rd) (by omega) hNf (OnV.mul C (OnV.fb C h1 hi) (OnV.of_mem C (C.cell_mem rd _ hj)))
    · intro i j hi hj
      rw [accum_eq]
      exact face_quad C h1 (n := k + cd) (by omega) hNf (OnV.mul C (OnV.fb C h1 hi) (OnV.of_mem C (C.cell_mem cd _ hj)))
  · unfold hho hhoWith
    simp only
    rw [form_hhoFaces, form_zero, zero_add]
    refine faceSum_congr (fun f k o hm => ?_) _
    obtain ⟨h1, rfl⟩ := mem_uniform hm
    rw [face_sq C h1 hN]

/-- All four matrices are symmetric and, for positive diameters and positive face integrals of squares, positive
semidefinite. -/
theorem c84_sym_nonneg {K : Type} [Field K] [LinearOrder K] [IsStrictOrderedRing K] {cell : Elem P K}
    {faces : List (Face P K)} (C : PolyCell d cell faces N) (hnest : Nested cell) (S : Solver K) (hF : Bool) {rd cd : Nat}
    (hcd : cd ≤ rd) (hN : 2 * rd ≤ N) (hmT : Nonsing (cell.basis cd).size (mass cell rd (cell.basis rd)))
    (R : Mat K) (fcs : List (InfoFace P K))
    (hf : ∀ f k, (f, some k) ∈ fcs → f ∈ faces ∧ 2 * k ≤ N ∧ rd + k ≤ N ∧
      Nonsing (f.basis k).size (mass f.toElem k (f.basis k)))
    (hd : 0 < cell.diam) (hdf : ∀ f ∈ faces, 0 < f.diam)
    (hpos : ∀ f ∈ faces, ∀ w : P → K, 0 ≤ C.IF f fun x => w x * w x) :
    ∀ M ∈ [hdg S hF cd cell fcs, dg hF cd cell fcs, hhoInfo S hF rd cd cell R fcs], ∀ v u : Nat → K,
      form ((cell.basis cd).size + facesDofs fcs) M v u = form ((cell.basis cd).size + facesDofs fcs) M u v ∧
      0 ≤ form ((cell.basis cd).size + facesDofs fcs) M u u := by
  have hh : ∀ f ∈ faces, 0 < (if hF then f.diam else cell.diam) := by
    intro f h
    split
    · exact hdf f h
    · exact hd
  have key : ∀ (M : Mat K) (w : Face P K → Nat → Nat → (Nat → K) → P → K),
      (∀ v u, form ((cell.basis cd).size + facesDofs fcs) M v u = faceSum (fun f k o =>
        C.IF f (fun x => w f k o v x * w f k o u x) / (if hF then f.diam else cell.diam)) fcs (cell.basis cd).size) →
      ∀ v u : Nat → K,
      form ((cell.basis cd).size + facesDofs fcs) M v u = form ((cell.basis cd).size + facesDofs fcs) M u v ∧
      0 ≤ form ((cell.basis cd).size + facesDofs fcs) M u u := by
    intro M w h v u
    constructor
    · rw [h v u, h u v]
      refine faceSum_congr (fun f k o _ => ?_) _
      simp only [mul_comm]
    · rw [h u u]
      refine faceSum_nonneg fun f k o hm => ?_
      have := (hf f k hm).1
      exact div_nonneg (hpos f this _) (le_of_lt (hh f this))
  intro M hM
  simp only [List.mem_cons, List.not_mem_nil, or_false] at hM
  rcases hM with rfl | rfl | rfl
  · obtain ⟨δ, _, h⟩ := c84_hdg C S hF (cd := cd) fcs fun f k h => by
      obtain ⟨h1, h2, h3, h4⟩ := hf f k h
      exact ⟨h1, h2, by omega, h4⟩
    exact key _ (fun f k o u x => evalFn (f.basis k) (δ f k o u) x) h
  · exact key _ (fun f k o u x => evalFn (f.basis k) (seg o u) x - evalFn (cell.basis cd) u x)
      (c84_dg C hF (by omega) fcs fun f k h => ⟨(hf f k h).1, (hf f k h).2.1⟩)
  · obtain ⟨y, δ, _, _, h⟩ := c84_hho_info C hnest S hF hcd hN hmT R fcs hf
    exact key _ (fun f k o u x => evalFn (f.basis k) (δ f k o u) x) h

theorem c84_sym_nonneg_hho {K : Type} [Field K] [LinearOrder K] [IsStrictOrderedRing K] {cell : Elem P K}
    {faces : List (Face P K)} (C : PolyCell d cell faces N) (S : Solver K) (x : Bool) {rd cd fd : Nat}
    (hcd : 2 * cd ≤ N) (hrc : rd + cd ≤ N) (hN : 2 * fd ≤ N) (hNf : rd + fd ≤ N) (hcr : cd ≤ rd)
    (hmT : Nonsing (cell.basis cd).size (mass cell cd (cell.basis cd)))
    (hmF : ∀ f ∈ faces, Nonsing (f.basis fd).size (mass f.toElem fd (f.basis fd))) (R : Mat K)
    (hd : 0 < cell.diam) (hpos : ∀ f ∈ faces, ∀ w : P → K, 0 ≤ C.IF f fun x => w x * w x) (v u : Nat → K) :
    let n := (cell.basis cd).size + facesDofs (uniform fd faces)
    form n (hho S x rd cd fd cell R faces) v u = form n (hho S x rd cd fd cell R faces) u v ∧
      0 ≤ form n (hho S x rd cd fd cell R faces) u u := by
  intro n
  obtain ⟨y, δ, _, _, h⟩ := c84_hho C S x hcd hrc hN hNf hcr hmT hmF R
  constructor
  · rw [h v u, h u v]
    refine faceSum_congr (fun f k o _ => ?_) _
    simp only [mul_comm]
  · rw [h u u]
    refine faceSum_nonneg fun f k o hm => ?_
    exact div_nonneg (hpos f (mem_uniform hm).1 _) (le_of_lt hd)

/-- If the reconstruction of the interpolate of a polynomial is that polynomial, the HHO stabilization vanishes on the
interpolate. -/
theorem c85_hho_of (C : PolyCell d cell faces N) (S : Solver K) (x : Bool) {rd cd fd : Nat}
    (hcd : 2 * cd ≤ N) (hrc : rd + cd ≤ N) (hN : 2 * fd ≤ N) (hNf : rd + fd ≤ N) (hcr : cd ≤ rd)
    (hmT : Nonsing (cell.basis cd).size (mass cell cd (cell.basis cd)))
    (hmF : ∀ f ∈ faces, Nonsing (f.basis fd).size (mass f.toElem fd (f.basis fd))) (R : Mat K) {a u : Nat → K}
    (hu : IsInterp C cd (uniform fd faces) (evalFn (cell.basis rd) a) u)
    (hR : ∀ j < (cell.basis rd).size - 1, app ((cell.basis cd).size + facesDofs (uniform fd faces)) R u j = a (j + 1))
    (r : Nat) :
    app ((cell.basis cd).size + facesDofs (uniform fd faces)) (hho S x rd cd fd cell R faces) u r = 0 := by
  unfold hho hhoWith
  simp only
  rw [app_hhoFaces_zero, app_zero]
  refine faceAll_mono ?_ (faceAll_and hu.2 (faceAll_of_forall (g := fun f k o => (f, some k) ∈ uniform fd faces ∧
    o + (f.basis k).size ≤ (cell.basis cd).size + facesDofs (uniform fd faces)) (le_refl _)
    fun f k o hm _ ho => ⟨hm, ho⟩))
  rintro f k o _ ⟨hFu, hm, ho⟩
  obtain ⟨h1, rfl⟩ := mem_uniform hm
  have hy := cellProj_exact C S (rd := rd) (cd := cd)
    (n := (cell.basis cd).size + facesDofs (uniform k faces)) R (M1 := mass cell cd (cell.basis cd))
    (M2 := accum (cell.integrate (rd + cd)) (cell.basis cd).fn (fun x j => (cell.basis rd).fn x (j + 1)))
    (fun i j hi hj => by
      rw [mass_eq]
      exact cell_quad C (n := cd + cd) (by omega) hcd (mul_mem' C (C.cell_mem cd i hi) (C.cell_mem cd j hj)))
    (fun i j hi hj => by
      rw [accum_eq]
      exact cell_quad C (n := cd + rd) (by omega) hrc (mul_mem' C (C.cell_mem cd i hi) (C.cell_mem rd (j + 1) hj)))
    (mass_sym cell cd _ (cell.basis cd)) hmT u
  refine faceProj_zero C h1 hN (hmF f h1) (faceProj_exact C S (rd := rd) (cd := cd) h1 hN (hmF f h1) ho R _ ?_ ?_ u)
    fun i hi => hho_moments C hcd hmT hR hu.1 hy (fun i hi => app_proj1 S (by omega) _ _ R u hi) hFu hi
  · intro i j hi hj
    rw [accum_eq]
    exact face_quad C h1 (n := k + rd) (by omega) hNf (OnV.mul C (OnV.fb C h1 hi) (OnV.of_mem C (C.cell_mem rd _ hj)))
  · intro i j hi hj
    rw [accum_eq]
    exact face_quad C h1 (n := k + cd) (by omega) hNf (OnV.mul C (OnV.fb C h1 hi) (OnV.of_mem C (C.cell_mem cd _ hj)))

/-- The HHO stabilization built from the HHO reconstruction vanishes on the interpolates of the polynomials of the
reconstruction degree. -/
theorem c85_hho (C : PolyCell d cell faces N) (S : Solver K) (x : Bool) {tens : Option (Mat K)} (ht : TensSym d tens)
    {rd cd fd : Nat} (hcd : cd ≤ rd) (hcd' : rd ≤ cd + 2) (hfd : rd ≤ fd + 1) (hN : 2 * rd ≤ N) (hN' : 2 * fd ≤ N)
    (hNf : rd + fd ≤ N) (hG : Green C tens rd cd)
    (hn : Nonsing ((cell.basis rd).size - 1) (lapLhs d tens (cell.basis rd) rd cell))
    (hmT : Nonsing (cell.basis cd).size (mass cell cd (cell.basis cd)))
    (hmF : ∀ f ∈ faces, Nonsing (f.basis fd).size (mass f.toElem fd (f.basis fd))) {a u : Nat → K}
    (hu : IsInterp C cd (uniform fd faces) (evalFn (cell.basis rd) a) u) (r : Nat) :
    app ((cell.basis cd).size + facesDofs (uniform fd faces))
      (hho S x rd cd fd cell (laplacian d tens false S rd cd fd cell faces).1 faces) u r = 0 :=
  c85_hho_of C S x (by omega) (by omega) hN' hNf hcd hmT hmF _ hu
    (HhoLaplacian.c82_consistency C S ht hcd hcd' hfd hN hNf hG hn hu) r

/-- The same for the version with degrees per face. -/
theorem c85_hho_info (C : PolyCell d cell faces N) (hnest : Nested cell) (S : Solver K) (hF : Bool) {rd cd fd : Nat}
    (hrd : 0 < rd) (hcd : cd ≤ rd) (hcd' : rd ≤ cd + 2) (hfd : rd ≤ fd + 1) (hN : 2 * rd ≤ N) (hN' : 2 * fd ≤ N)
    (hNf : rd + fd ≤ N) (hG : Green C none rd cd)
    (hn : Nonsing ((cell.basis rd).size - 1) (lapLhs d none (cell.basis rd) rd cell))
    (hmT : Nonsing (cell.basis cd).size (mass cell cd (cell.basis cd)))
    (hmF : ∀ f ∈ faces, Nonsing (f.basis fd).size (mass f.toElem fd (f.basis fd))) {a u : Nat → K}
    (hu : IsInterp C cd (uniform fd faces) (evalFn (cell.basis rd) a) u) (r : Nat) :
    app ((cell.basis cd).size + facesDofs (uniform fd faces))
      (hhoInfo S hF rd cd cell (laplacianInfo d rd cd S cell (uniform fd faces)).1 (uniform fd faces)) u r = 0 := by
  have hR : ∀ j < (cell.basis rd).size - 1, app ((cell.basis cd).size + facesDofs (uniform fd faces))
      (laplacianInfo d rd cd S cell (uniform fd faces)).1 u j = a (j + 1) := by
    intro j hj
    rw [HhoLaplacian.c82_info_same C hnest S hrd hcd hN hNf hn u j hj]
    exact HhoLaplacian.c82_consistency C S (tens := none) trivial hcd hcd' hfd hN hNf hG hn hu j hj
  obtain ⟨hsz, hfn⟩ := hnest cd rd hcd
  have hM1 : ∀ i j, i < (cell.basis cd).size → j < (cell.basis cd).size → block (mass cell rd (cell.basis rd)) 0 0 i j =
      C.IT fun x => (cell.basis cd).fn x i * (cell.basis cd).fn x j := by
    intro i j hi hj
    simp only [block, Nat.zero_add]
    rw [mass_eq, cell_quad C (n := rd + rd) (by omega) hN
      (mul_mem' C (C.cell_mem rd i (by omega)) (C.cell_mem rd j (by omega)))]
    congr 1
    funext x
    rw [(hfn i hi x).1, (hfn j hj x).1]
  have hM2 : ∀ i j, i < (cell.basis cd).size → j + 1 < (cell.basis rd).size →
      block (mass cell rd (cell.basis rd)) 0 1 i j = C.IT fun x => (cell.basis cd).fn x i * (cell.basis rd).fn x (j + 1) := by
    intro i j hi hj
    simp only [block, Nat.zero_add]
    rw [Nat.add_comm 1 j, mass_eq, cell_quad C (n := rd + rd) (by omega) hN
      (mul_mem' C (C.cell_mem rd i (by omega)) (C.cell_mem rd (j + 1) hj))]
    congr 1
    funext x
    rw [(hfn i hi x).1]
  have hs : SymOn (cell.basis cd).size (block (mass cell rd (cell.basis rd)) 0 0) := by
    intro i hi j hj
    simp only [block, Nat.zero_add]
    exact mass_sym cell rd (cell.basis cd).size (cell.basis rd) i hi j hj
  have hnn : Nonsing (cell.basis cd).size (block (mass cell rd (cell.basis rd)) 0 0) := by
    intro x hx
    refine hmT x fun i hi => ?_
    rw [← hx i hi]
    refine sum_congr rfl fun j hj => ?_
    rw [hM1 i j hi (mem_range.1 hj), mass_eq, cell_quad C (n := cd + cd) (by omega) (by omega)
      (mul_mem' C (C.cell_mem cd i hi) (C.cell_mem cd j (mem_range.1 hj)))]
  unfold hhoInfo
  simp only
  rw [app_hhoInfoFaces_zero, app_zero]
  refine faceAll_mono ?_ (faceAll_and hu.2 (faceAll_of_forall (g := fun f k o => (f, some k) ∈ uniform fd faces ∧
    o + (f.basis k).size ≤ (cell.basis cd).size + facesDofs (uniform fd faces)) (le_refl _)
    fun f k o hm _ ho => ⟨hm, ho⟩))
  rintro f k o _ ⟨hFu, hm, ho⟩
  obtain ⟨h1, rfl⟩ := mem_uniform hm
  have hy := cellProj_exact C S (n := (cell.basis cd).size + facesDofs (uniform k faces))
    (laplacianInfo d rd cd S cell (uniform k faces)).1 hM1 hM2 hs hnn u
  refine faceProj_zero C h1 hN' (hmF f h1) (faceProj_exact C S (rd := rd) (cd := cd) h1 hN' (hmF f h1) ho _ _ ?_ ?_ u)
    fun i hi => hho_moments C (by omega) hmT hR hu.1 hy (fun i hi => app_proj1 S (by omega) _ _ _ u hi) hFu hi
  · intro i j hi hj
    simp only [block, Nat.zero_add]
    rw [Nat.add_comm 1 j, traceMat, accum_eq]
    exact face_quad C h1 (n := k + rd) (by omega) hNf (OnV.mul C (OnV.fb C h1 hi) (OnV.of_mem C (C.cell_mem rd _ hj)))
  · intro i j hi hj
    simp only [block, Nat.zero_add]
    rw [traceMat, accum_eq, face_quad C h1 (n := k + rd) (by omega) hNf
      (OnV.mul C (OnV.fb C h1 hi) (OnV.of_mem C (C.cell_mem rd _ (by omega))))]
    congr 1
    funext x
    rw [(hfn j hj x).1]

/-- The energy of the local HHO operator `A + S` on the interpolate of a polynomial of the reconstruction degree is
that of the reconstruction alone. -/
theorem c85_local_energy (C : PolyCell d cell faces N) (S : Solver K) (x : Bool) {tens : Option (Mat K)}
    (ht : TensSym d tens) {rd cd fd : Nat} (hcd : cd ≤ rd) (hcd' : rd ≤ cd + 2) (hfd : rd ≤ fd + 1) (hN : 2 * rd ≤ N)
    (hN' : 2 * fd ≤ N) (hNf : rd + fd ≤ N) (hG : Green C tens rd cd)
    (hn : Nonsing ((cell.basis rd).size - 1) (lapLhs d tens (cell.basis rd) rd cell))
    (hmT : Nonsing (cell.basis cd).size (mass cell cd (cell.basis cd)))
    (hmF : ∀ f ∈ faces, Nonsing (f.basis fd).size (mass f.toElem fd (f.basis fd))) {a u : Nat → K}
    (hu : IsInterp C cd (uniform fd faces) (evalFn (cell.basis rd) a) u) (v : Nat → K) :
    let n := (cell.basis cd).size + facesDofs (uniform fd faces)
    let L := laplacian d tens false S rd cd fd cell faces
    form n (addMat L.2 (hho S x rd cd fd cell L.1 faces)) v u = form n L.2 v u := by
  intro n L
  rw [form_addMat]
  have : form n (hho S x rd cd fd cell L.1 faces) v u = 0 := by
    unfold form
    refine sum_eq_zero fun i _ => ?_
    rw [c85_hho C S x ht hcd hcd' hfd hN hN' hNf hG hn hmT hmF hu i, mul_zero]
  rw [this, add_zero]

/-- The segment: the stabilization vanishes on what the library's interpolation returns for a quadratic polynomial. -/
example (x : Bool) (a : Nat → ℚ) (r : Nat) : app 4 (hho (exactSolver ℚ) x 2 1 1 segCell
    (laplacian 1 none false (exactSolver ℚ) 2 1 1 segCell segFaces).1 segFaces)
    (project (exactSolver ℚ) segCell segFaces 1 1 1 1 (evalFn (segCell.basis 2) a)) r = 0 := by
  have hmF : ∀ g ∈ segFaces, Nonsing (g.basis 1).size (mass g.toElem 1 (g.basis 1)) := fun g hg => by
    have := segFaceMass g hg (2 * 1)
    simp only [segFaces, List.mem_cons, List.not_mem_nil, or_false] at hg
    rcases hg with rfl | rfl <;> exact this
  have hs : ∀ g ∈ segFaces, (g.basis 1).size = 1 := fun g hg => by
    simp only [segFaces, List.mem_cons, List.not_mem_nil, or_false] at hg
    rcases hg with rfl | rfl <;> rfl
  exact c85_hho segPoly (exactSolver ℚ) x (tens := none) trivial (rd := 2) (cd := 1) (fd := 1) (by omega) (by omega)
    (by omega) (by omega) (by omega) (by omega) segGreen segNonsing segMass hmF
    (HhoLaplacian.c83_interpolation segPoly (exactSolver ℚ) (rd := 2) (cd := 1) (fd := 1) (fbs := 1) (di := 1)
      hs segMass hmF (by omega) (by omega) (by omega) (by omega) (evalFn_mem segPoly 2 a)) r

/-- With equal degrees on all faces, the version with `hho_degree_info` gives the matrix that the version with degrees
per face gives for `hF = false`, whatever is passed for the flag. -/
theorem c86_cell_scaling_partial (C : PolyCell d cell faces N) (hnest : Nested cell) (S : Solver K) (x : Bool)
    {rd cd fd : Nat} (hcd : cd ≤ rd) (hN : 2 * rd ≤ N) (hNf : rd + fd ≤ N) (hN' : 2 * fd ≤ N)
    (hmT : Nonsing (cell.basis cd).size (mass cell cd (cell.basis cd)))
    (hmT' : Nonsing (cell.basis cd).size (mass cell rd (cell.basis rd)))
    (hmF : ∀ f ∈ faces, Nonsing (f.basis fd).size (mass f.toElem fd (f.basis fd))) (R : Mat K) (v u : Nat → K) :
    let n := (cell.basis cd).size + facesDofs (uniform fd faces)
    form n (hho S x rd cd fd cell R faces) v u = form n (hhoInfo S false rd cd cell R (uniform fd faces)) v u := by
  intro n
  obtain ⟨y, δ, h1, h2, h3⟩ := c84_hho C S x (rd := rd) (cd := cd) (fd := fd) (by omega) (by omega) hN' hNf hcd hmT hmF R
  obtain ⟨y', δ', h1', h2', h3'⟩ := c84_hho_info C hnest S false hcd hN hmT' R (uniform fd faces)
    (fun f k hm => by
      obtain ⟨hf, rfl⟩ := mem_uniform hm
      exact ⟨hf, hN', hNf, hmF f hf⟩)
  rw [h3 v u, h3' v u]
  have hy : ∀ w : Nat → K, ∀ x, evalFn (cell.basis cd) (y w) x = evalFn (cell.basis cd) (y' w) x := fun w x =>
    evalFn_congr (cellProj_unique C (by omega) hmT (h1 w) (h1' w) fun _ _ => rfl) x
  refine faceSum_congr_all (p := fun f k o => (∀ x, evalFn (f.basis k) (δ f k o v) x = evalFn (f.basis k) (δ' f k o v) x) ∧
    ∀ x, evalFn (f.basis k) (δ f k o u) x = evalFn (f.basis k) (δ' f k o u) x) (fun f k o _ h => ?_) (faceAll_and ?_ ?_)
  · simp only [h.1, h.2, Bool.false_eq_true, if_false]
  · refine faceAll_mono ?_ (faceAll_and (h2 v) (h2' v))
    rintro f k o hm ⟨ha, hb⟩ x
    obtain ⟨hf, rfl⟩ := mem_uniform hm
    exact evalFn_congr (faceProj_unique C hf hN' (hmF f hf) ha hb fun x => by rw [hy v x]) x
  · refine faceAll_mono ?_ (faceAll_and (h2 u) (h2' u))
    rintro f k o hm ⟨ha, hb⟩ x
    obtain ⟨hf, rfl⟩ := mem_uniform hm
    exact evalFn_congr (faceProj_unique C hf hN' (hmF f hf) ha hb fun x => by rw [hy u x]) x

/-- The flag of `make_scalar_hho_stabilization(msh, cl, reconstruction, hdi, x)` has no effect. -/
theorem c86_flag_ignored (S : Solver K) (rd cd fd : Nat) (cell : Elem P K) (R : Mat K) (faces : List (Face P K)) :
    hho S true rd cd fd cell R faces = hho S false rd cd fd cell R faces := rfl

/-- The segment with one face of diameter 2. -/
def wideFace : Face ℚ ℚ := endPoint 0 (-1) 2

theorem solve_one (S : Solver ℚ) (A : Mat ℚ) (h : A 0 0 = 1) (b : Nat → ℚ) : S.solve 1 A b 0 = b 0 := by
  have hs : SymOn 1 A := by
    intro i hi j hj
    obtain rfl : i = 0 := by omega
    obtain rfl : j = 0 := by omega
    rfl
  have hn : Nonsing 1 A := by
    intro x hx i hi
    obtain rfl : i = 0 := by omega
    have := hx 0 (by omega)
    simpa [h] using this
  have := S.solves 1 A b hs hn 0 (by omega)
  simpa [h] using this

/-- The documented scaling by the face diameter is not what the version with `hho_degree_info` computes: with the flag
set, the value differs from that of the version with degrees per face. -/
theorem c86_face_scaling_violated (S : Solver ℚ) :
    form 2 (hho S true 1 0 0 segCell zero [wideFace]) (fun i => i) (fun i => i) = 1 ∧
    form 2 (hhoInfo S true 1 0 segCell zero (uniform 0 [wideFace])) (fun i => i) (fun i => i) = 1 / 2 := by
  have hm : mass segCell 0 (segCell.basis 0) 0 0 = 1 := by
    rw [mass_eq]; simp [segCell, lineBasis, quad]; norm_num
  have hm' : block (mass segCell 1 (segCell.basis 1)) 0 0 0 0 = 1 := by
    simp only [block]
    rw [mass_eq]; simp [segCell, lineBasis, quad]; norm_num
  have hf : mass wideFace.toElem 0 (wideFace.basis 0) 0 0 = 1 := by
    rw [mass_eq]; simp [wideFace, endPoint, quad]
  have hs : (wideFace.basis 0).size = 1 := rfl
  have hc : (segCell.basis 0).size = 1 := rfl
  have hc1 : (segCell.basis 1).size = 2 := rfl
  have hd : segCell.diam = 1 := rfl
  have hd' : wideFace.diam = 2 := rfl
  have e1 : accum (wideFace.integrate (1 + 0)) (wideFace.basis 0).fn (segCell.basis 0).fn 0 0 = 1 := by
    rw [accum_eq]; simp [wideFace, endPoint, quad, segCell, lineBasis]
  have e2 : accum (wideFace.integrate (1 + 0)) (wideFace.basis 0).fn (segCell.basis 1).fn 0 0 = 1 := by
    rw [accum_eq]; simp [wideFace, endPoint, quad, segCell, lineBasis]
  constructor
  · unfold hho hhoWith
    simp only [hhoFaces, uniform, List.map]
    rw [form_addMat, form_zero, zero_add, hs, hc, hc1, hd]
    simp only [form, app, brfTerm, divMat, mul, tpose, brf, addMat, subBlock, addBlock, proj1, negMat, Solver.solveMat,
      sum_range_succ, range_zero, sum_empty, solve_one S _ hm, solve_one S _ hf]
    norm_num [zero, ident, e1, hf]
  · unfold hhoInfo
    simp only [hhoInfoFaces, uniform, List.map]
    rw [form_addMat, form_zero, zero_add, hs, hc, hc1]
    simp only [form, app, brfTerm, divMat, mul, tpose, brf, addMat, subBlock, addBlock, proj1, negMat, Solver.solveMat,
      sum_range_succ, range_zero, sum_empty, solve_one S _ hm', solve_one S _ hf, hOf, if_true, hd']
    norm_num [zero, ident, traceMat, block, e2, hf]

/-- The hypotheses of C84 and C86 on the segment, with a reconstruction of degree 2, for any matrix `R`. -/
example (hF : Bool) (R : Mat ℚ) (v u : Nat → ℚ) :
    form 4 (hho (exactSolver ℚ) hF 2 1 1 segCell R segFaces) v u =
      form 4 (hhoInfo (exactSolver ℚ) false 2 1 segCell R (uniform 1 segFaces)) v u ∧
    0 ≤ form 4 (dg hF 1 segCell (uniform 1 segFaces)) u u := by
  have hmF : ∀ g ∈ segFaces, Nonsing (g.basis 1).size (mass g.toElem 1 (g.basis 1)) := fun g hg => by
    have := segFaceMass g hg (2 * 1)
    simp only [segFaces, List.mem_cons, List.not_mem_nil, or_false] at hg
    rcases hg with rfl | rfl <;> exact this
  refine ⟨c86_cell_scaling_partial segPoly segNested (exactSolver ℚ) hF (rd := 2) (cd := 1) (fd := 1) (by omega)
    (by omega) (by omega) (by omega) segMass segMass hmF R v u, ?_⟩
  refine (c84_sym_nonneg segPoly segNested (exactSolver ℚ) hF (rd := 2) (cd := 1) (by omega) (by omega) segMass R
    (uniform 1 segFaces) (fun f k hm => ?_) (by norm_num [segCell]) (fun f hf => ?_) (fun f hf w => ?_) _
    (List.mem_cons_of_mem _ List.mem_cons_self) v u).2
  · obtain ⟨hf, rfl⟩ := mem_uniform hm
    exact ⟨hf, by omega, by omega, hmF f hf⟩
  · simp only [segFaces, List.mem_cons, List.not_mem_nil, or_false] at hf
    rcases hf with rfl | rfl <;> norm_num [endPoint]
  · have : segPoly.IF f (fun x => w x * w x) = quad (f.integrate 0) fun x => w x * w x := rfl
    rw [this]
    simp only [segFaces, List.mem_cons, List.not_mem_nil, or_false] at hf
    rcases hf with rfl | rfl <;> simp [endPoint, quad] <;> exact mul_self_nonneg _

end Verif.Props.HhoStab
