import Mathlib.Tactic.FieldSimp
import Mathlib.Tactic.IntervalCases
import Verif.Lemmas.HhoRec
import Verif.Spec.HhoVector
/-!
Helper lemmas for the gradient, divergence and symmetric gradient reconstructions.
-/
namespace Verif.Lemmas.Hho
open Finset Verif.Hho Verif.Spec.Hho LocalMatrix

variable {K P : Type} [Field K] {d N : Nat} {cell : Elem P K} {faces : List (Face P K)}

/-! ### Vector bases -/

theorem sum_range_mul' (d n : Nat) (g : Nat → K) :
    ∑ j ∈ range (d * n), g j = ∑ k ∈ range n, ∑ c ∈ range d, g (d * k + c) := by
  induction n with
  | zero => simp
  | succ n ih => rw [Nat.mul_succ, sum_range_add, ih, sum_range_succ]

theorem dot_vecFn (hd : 0 < d) (b : Basis P K) (x : P) (i : Nat) (a : Nat → K) :
    dot d (vecFn d b x i) a = b.fn x (i / d) * a (i % d) := by
  unfold dot vecFn
  simp only [ite_mul, zero_mul]
  rw [sum_ite_eq']
  simp [Nat.mod_lt i hd]

theorem dot_vecFn' (hd : 0 < d) (b : Basis P K) (x : P) (i : Nat) (a : Nat → K) :
    dot d a (vecFn d b x i) = a (i % d) * b.fn x (i / d) := by rw [dot_comm, dot_vecFn hd, mul_comm]

theorem divmod_add {d k c : Nat} (hc : c < d) : (d * k + c) / d = k ∧ (d * k + c) % d = c := by
  have hd : 0 < d := by omega
  constructor
  · rw [Nat.mul_add_div hd, Nat.div_eq_of_lt hc, Nat.add_zero]
  · rw [Nat.mul_add_mod, Nat.mod_eq_of_lt hc]

theorem div_lt_of_lt_mul {d n i : Nat} (hi : i < d * n) : i / d < n := Nat.div_lt_of_lt_mul hi

/-- Pairing with all vector basis functions. -/
theorem sum_vec (b : Basis P K) (u : Nat → K) (a : Nat → K) (x : P) :
    ∑ j ∈ range (d * b.size), u j * dot d a (vecFn d b x j) = dot d a (evalVec d b u x) := by
  rw [sum_range_mul']
  unfold evalVec evalFn
  rw [show dot d a (fun c => ∑ j ∈ range b.size, comp d c u j * b.fn x j) =
    ∑ c ∈ range d, ∑ k ∈ range b.size, a c * (comp d c u k * b.fn x k) from sum_congr rfl fun c _ => by rw [mul_sum]]
  rw [sum_comm]
  refine sum_congr rfl fun c hc => sum_congr rfl fun k _ => ?_
  have hc := mem_range.1 hc
  rw [dot_vecFn' (by omega), (divmod_add hc).1, (divmod_add hc).2]
  unfold comp
  ring

theorem comp_seg (d c o : Nat) (u : Nat → K) : comp d c (seg (d * o) u) = seg o (comp d c u) := by
  funext k
  unfold comp seg
  congr 1
  ring

theorem evalVec_seg (d o : Nat) (b : Basis P K) (u : Nat → K) (x : P) :
    evalVec d b (seg (d * o) u) x = fun c => evalFn b (seg o (comp d c u)) x := by
  funext c
  unfold evalVec
  rw [comp_seg]

/-! ### Loops -/

theorem app_kerAdd {qs : List (QP P K)} {n nr off nc : Nat} {ker : P → Nat → Nat → K} (ho : off + nc ≤ n)
    (u : Nat → K) {i : Nat} (hi : i < nr) (M : Mat K) :
    app n (kerAdd qs off nr nc ker M) u i =
      app n M u i + quad qs fun x => ∑ j ∈ range nc, seg off u j * ker x i j := by
  unfold kerAdd
  induction qs generalizing M with
  | nil => simp [quad]
  | cons q qs ih =>
    rw [List.foldl_cons, ih, app_addBlock ho, quad_cons, if_pos (by omega), mul_sum]
    have : app nc (fun i j => q.w * ker q.pt i j) (seg off u) (i - 0) =
        ∑ j ∈ range nc, q.w * (seg off u j * ker q.pt i j) :=
      sum_congr rfl fun j _ => by rw [Nat.sub_zero]; ring
    rw [this]
    ring

theorem app_kerSub {qs : List (QP P K)} {n nr off nc : Nat} {ker : P → Nat → Nat → K} (ho : off + nc ≤ n)
    (u : Nat → K) {i : Nat} (hi : i < nr) (M : Mat K) :
    app n (kerSub qs off nr nc ker M) u i =
      app n M u i - quad qs fun x => ∑ j ∈ range nc, seg off u j * ker x i j := by
  unfold kerSub
  induction qs generalizing M with
  | nil => simp [quad]
  | cons q qs ih =>
    rw [List.foldl_cons, ih, app_subBlock ho, quad_cons, if_pos (by omega), mul_sum]
    have : app nc (fun i j => q.w * ker q.pt i j) (seg off u) (i - 0) =
        ∑ j ∈ range nc, q.w * (seg off u j * ker q.pt i j) :=
      sum_congr rfl fun j _ => by rw [Nat.sub_zero]; ring
    rw [this]
    ring

/-- The energy form of `oper`, `data`. -/
theorem form_operData (S : Solver K) (m n : Nat) (L R : Mat K) (hs : SymOn m L) (hn : Nonsing m L) (v u : Nat → K) :
    form n (operData S m L R).2 v u = ∑ k ∈ range m, app n (operData S m L R).1 u k *
      app m L (app n (operData S m L R).1 v) k := by
  have e : ∀ k ∈ range m, app n (operData S m L R).1 u k * app m L (app n (operData S m L R).1 v) k =
      app n (operData S m L R).1 u k * app n R v k := by
    intro k hk
    rw [show app m L (app n (operData S m L R).1 v) k = app n R v k from app_solveMat S hs hn v (mem_range.1 hk)]
  rw [sum_congr rfl e]
  unfold form
  have e2 : ∀ i, app n (operData S m L R).2 u i = ∑ k ∈ range m, R k i * app n (operData S m L R).1 u k :=
    fun i => app_mul n m _ _ u i
  simp only [e2, mul_sum]
  rw [sum_comm]
  refine sum_congr rfl fun k _ => ?_
  rw [show app n R v k = ∑ i ∈ range n, R k i * v i from rfl, mul_sum]
  exact sum_congr rfl fun i _ => by ring

theorem faceSum_add (g g' : Face P K → Nat → Nat → K) (fcs : List (InfoFace P K)) (off : Nat) :
    faceSum (fun f k o => g f k o + g' f k o) fcs off = faceSum g fcs off + faceSum g' fcs off := by
  induction fcs generalizing off with
  | nil => simp [faceSum]
  | cons a fs ih =>
    obtain ⟨f, _ | k⟩ := a
    · exact ih off
    · simp only [faceSum]
      rw [ih]
      ring

theorem faceSum_sum (s : Finset Nat) (g : Nat → Face P K → Nat → Nat → K) (fcs : List (InfoFace P K)) (off : Nat) :
    faceSum (fun f k o => ∑ c ∈ s, g c f k o) fcs off = ∑ c ∈ s, faceSum (g c) fcs off := by
  induction fcs generalizing off with
  | nil => simp [faceSum]
  | cons a fs ih =>
    obtain ⟨f, _ | k⟩ := a
    · exact ih off
    · simp only [faceSum]
      rw [ih, sum_add_distrib]

theorem faceSum_mul (a : K) (g : Face P K → Nat → Nat → K) (fcs : List (InfoFace P K)) (off : Nat) :
    faceSum (fun f k o => a * g f k o) fcs off = a * faceSum g fcs off := by
  induction fcs generalizing off with
  | nil => simp [faceSum]
  | cons b fs ih =>
    obtain ⟨f, _ | k⟩ := b
    · exact ih off
    · simp only [faceSum]
      rw [ih, mul_add]

/-- Over faces that all have unknowns, a quantity without unknowns is summed over all faces. -/
theorem faceSum_all (g : Face P K → K) {fcs : List (InfoFace P K)} (h : AllUnknowns faces fcs) (off : Nat) :
    faceSum (fun f _ _ => g f) fcs off = (faces.map g).sum := by
  obtain ⟨rfl, h⟩ := h
  induction fcs generalizing off with
  | nil => rfl
  | cons a fs ih =>
    have ih := fun off => ih off fun p hp => h p (List.mem_cons_of_mem _ hp)
    obtain ⟨f, _ | k⟩ := a
    · exact absurd rfl (h _ List.mem_cons_self)
    · simp only [faceSum, List.map_cons, List.sum_cons]
      rw [ih]

/-! ### The gradient -/

theorem gradLhs_sym (gd n : Nat) (cell : Elem P K) : SymOn n (gradLhs d gd cell) := by
  intro i _ j _
  unfold gradLhs
  rw [accumDot_eq, accumDot_eq]
  exact quad_congr fun q _ => dot_comm _ _ _

theorem app_gradLhs (gd : Nat) (cell : Elem P K) (t : Nat → K) (i : Nat) :
    app (d * (cell.basis gd).size) (gradLhs d gd cell) t i = quad (cell.integrate (2 * gd)) fun x =>
      dot d (vecFn d (cell.basis gd) x i) (evalVec d (cell.basis gd) t x) := by
  simp only [← sum_vec]
  rw [quad_sum]
  unfold app gradLhs
  refine sum_congr rfl fun j _ => ?_
  rw [accumDot_eq, quad_mul, mul_comm]

theorem app_gradFaces (gd : Nat) (gb : Basis P K) {n : Nat} (u : Nat → K) {i : Nat} (hi : i < d * gb.size)
    (fs : List (InfoFace P K)) (off : Nat) (M : Mat K) (ho : off + facesDofs fs ≤ n) :
    app n (gradFaces d gd gb fs off M) u i = app n M u i +
      faceSum (fun f k o => quad (f.integrate (gd + k)) fun x =>
        dot d (vecFn d gb x i) f.normal * evalFn (f.basis k) (seg o u) x) fs off := by
  induction fs generalizing off M with
  | nil => simp [gradFaces, faceSum]
  | cons a fs ih =>
    obtain ⟨f, _ | k⟩ := a
    · rw [facesDofs_cons_none] at ho
      rw [gradFaces, ih _ _ ho, faceSum]
    · rw [facesDofs_cons] at ho
      rw [gradFaces, ih _ _ (by omega), faceSum, app_kerAdd (by omega) u hi, add_assoc]
      congr 3
      funext x
      unfold evalFn
      rw [mul_sum]
      exact sum_congr rfl fun j _ => by ring

theorem app_gradRhs (gd cd : Nat) (cell : Elem P K) (fcs : List (InfoFace P K)) (u : Nat → K) {i : Nat}
    (hi : i < d * (cell.basis gd).size) :
    app ((cell.basis cd).size + facesDofs fcs) (gradRhs d gd cd cell fcs) u i =
      (if gd > 0 then -quad (cell.integrate (cd + gd - 1))
        (fun x => vecDiv d (cell.basis gd) x i * evalFn (cell.basis cd) u x) else 0) +
      faceSum (fun f k o => quad (f.integrate (gd + k)) fun x =>
        dot d (vecFn d (cell.basis gd) x i) f.normal * evalFn (f.basis k) (seg o u) x) fcs (cell.basis cd).size := by
  unfold gradRhs
  rw [app_gradFaces gd _ u hi _ _ _ (le_refl _)]
  congr 1
  split_ifs with h
  · rw [app_kerSub (by omega) u hi, app_zero, zero_sub, seg_zero]
    congr 2
    funext x
    unfold evalFn
    rw [mul_sum]
    exact sum_congr rfl fun j _ => by ring
  · exact app_zero _ _ _

section
variable (C : PolyCell d cell faces N)

theorem IF_mul (f : Face P K) (a : K) (v : P → K) : C.IF f (fun x => a * v x) = a * C.IF f v := map_smul (C.IF f) a v
theorem IT_mul (a : K) (v : P → K) : C.IT (fun x => a * v x) = a * C.IT v := map_smul C.IT a v
theorem IT_add (v w : P → K) : C.IT (fun x => v x + w x) = C.IT v + C.IT w := map_add _ _ _
theorem IF_add (f : Face P K) (v w : P → K) : C.IF f (fun x => v x + w x) = C.IF f v + C.IF f w := map_add _ _ _
theorem IT_zero : C.IT (fun _ => 0) = 0 := map_zero C.IT

theorem IT_sum1 (s : Finset Nat) (v : Nat → P → K) : C.IT (fun x => ∑ j ∈ s, v j x) = ∑ j ∈ s, C.IT (v j) := by
  have : (fun x => ∑ j ∈ s, v j x) = ∑ j ∈ s, v j := by funext x; rw [Finset.sum_apply]
  rw [this, map_sum]

theorem IF_sum1 (f : Face P K) (s : Finset Nat) (v : Nat → P → K) :
    C.IF f (fun x => ∑ j ∈ s, v j x) = ∑ j ∈ s, C.IF f (v j) := by
  have : (fun x => ∑ j ∈ s, v j x) = ∑ j ∈ s, v j := by funext x; rw [Finset.sum_apply]
  rw [this, map_sum]

/-- Integration by parts against a function given by coefficients. -/
theorem parts_eval {m n : Nat} (hP : Parts C m n) {i c : Nat} (hi : i < (cell.basis m).size) (hc : c < d) (u : Nat → K) :
    C.IT (fun x => (cell.basis m).fn x i * evalGrad (cell.basis n) u x c) =
      -C.IT (fun x => (cell.basis m).grad x i c * evalFn (cell.basis n) u x) +
        (faces.map fun f => C.IF f fun x => (cell.basis m).fn x i * f.normal c * evalFn (cell.basis n) u x).sum := by
  have e : ∀ (g : P → K) (h : Nat → P → K), (fun x => g x * ∑ j ∈ range (cell.basis n).size, u j * h j x) =
      fun x => ∑ j ∈ range (cell.basis n).size, u j * (g x * h j x) := by
    intro g h
    funext x
    rw [mul_sum]
    exact sum_congr rfl fun j _ => by ring
  unfold evalGrad evalFn
  rw [e (fun x => (cell.basis m).fn x i) fun j x => (cell.basis n).grad x j c, IT_sum,
    e (fun x => (cell.basis m).grad x i c) fun j x => (cell.basis n).fn x j, IT_sum]
  have h2 : ∀ fs : List (Face P K), (fs.map fun f => C.IF f fun x => (cell.basis m).fn x i * f.normal c *
      ∑ j ∈ range (cell.basis n).size, u j * (cell.basis n).fn x j).sum =
      ∑ j ∈ range (cell.basis n).size, u j * (fs.map fun f => C.IF f fun x =>
        (cell.basis m).fn x i * f.normal c * (cell.basis n).fn x j).sum := by
    intro fs
    induction fs with
    | nil => simp
    | cons f fs ih =>
      simp only [List.map_cons, List.sum_cons, mul_add, sum_add_distrib]
      rw [ih, e (fun x => (cell.basis m).fn x i * f.normal c) fun j x => (cell.basis n).fn x j, IF_sum]
  rw [h2, ← sum_neg_distrib, ← sum_add_distrib]
  refine sum_congr rfl fun j hj => ?_
  rw [hP i hi j (mem_range.1 hj) c hc]
  ring

include C in
/-- For the degree-zero basis (one constant) the divergences vanish. -/
theorem grad_zero (hb0 : (cell.basis 0).size = 1) {i : Nat} (hi : i < (cell.basis 0).size) (x : P) (c : Nat) :
    (cell.basis 0).grad x i c = 0 := by
  obtain rfl : i = 0 := by omega
  exact C.grad_one 0 x c

theorem gradLhs_exact (hd : 0 < d) {gd : Nat} (hN : 2 * gd ≤ N) (t : Nat → K) {i : Nat}
    (hi : i < d * (cell.basis gd).size) :
    app (d * (cell.basis gd).size) (gradLhs d gd cell) t i =
      C.IT fun x => dot d (vecFn d (cell.basis gd) x i) (evalVec d (cell.basis gd) t x) := by
  rw [app_gradLhs]
  simp only [dot_vecFn hd]
  exact cell_quad C (n := gd + gd) (by omega) hN
    (mul_mem' C (C.cell_mem gd _ (div_lt_of_lt_mul hi)) (evalFn_mem C gd _))

theorem gradRhs_exact (hd : 0 < d) (hb0 : (cell.basis 0).size = 1) {gd cd kmax : Nat} (hN : cd + gd ≤ N)
    (hNf : gd + kmax ≤ N) {fcs : List (InfoFace P K)} (hF : FacesIn faces kmax fcs) (u : Nat → K) {i : Nat}
    (hi : i < d * (cell.basis gd).size) :
    app ((cell.basis cd).size + facesDofs fcs) (gradRhs d gd cd cell fcs) u i =
      -C.IT (fun x => vecDiv d (cell.basis gd) x i * evalFn (cell.basis cd) u x) +
      faceSum (fun f k o => C.IF f fun x => dot d (vecFn d (cell.basis gd) x i) f.normal *
        evalFn (f.basis k) (seg o u) x) fcs (cell.basis cd).size := by
  have hi' := div_lt_of_lt_mul hi
  rw [app_gradRhs gd cd cell fcs u hi]
  congr 1
  · split_ifs with h
    · congr 1
      refine cell_quad C (n := gd - 1 + cd) (by omega) (by omega) ?_
      exact mul_mem' C (C.grad_mem gd _ hi' _ (Nat.mod_lt _ hd)) (evalFn_mem C cd _)
    · obtain rfl : gd = 0 := by omega
      have : (fun x => vecDiv d (cell.basis 0) x i * evalFn (cell.basis cd) u x) = fun _ => 0 := by
        funext x
        unfold vecDiv
        rw [grad_zero C hb0 hi', zero_mul]
      rw [this, IT_zero, neg_zero]
  · refine faceSum_congr (fun f k o hm => ?_) _
    obtain ⟨hf, hk⟩ := hF f k hm
    simp only [dot_vecFn hd]
    refine face_quad C hf (n := gd + k) (by omega) (by omega) ?_
    exact OnV.mul C (OnV.of_mem C (smul_mem_right C _ (C.cell_mem gd _ hi'))) (OnV.evalFb C hf k _)

end

/-! ### The divergence -/

theorem app_divFaces (rd : Nat) (rb : Basis P K) {n : Nat} (u : Nat → K) {i : Nat} (hi : i < rb.size)
    (fs : List (InfoFace P K)) (o : Nat) (M : Mat K) (ho : d * (o + facesDofs fs) ≤ n) :
    app n (divFaces d rd rb fs (d * o) M) u i = app n M u i +
      faceSum (fun f k o => quad (f.integrate (k + rd)) fun x =>
        rb.fn x i * dot d f.normal fun c => evalFn (f.basis k) (seg o (comp d c u)) x) fs o := by
  induction fs generalizing o M with
  | nil => simp [divFaces, faceSum]
  | cons a fs ih =>
    obtain ⟨f, _ | k⟩ := a
    · rw [facesDofs_cons_none] at ho
      rw [divFaces, ih _ _ ho, faceSum]
    · rw [facesDofs_cons, ← Nat.add_assoc] at ho
      have h1 : d * o + d * (f.basis k).size ≤ n := by
        rw [← Nat.mul_add]
        exact (Nat.mul_le_mul_left d (Nat.le_add_right _ _)).trans ho
      rw [divFaces, ← Nat.mul_add, ih _ _ ho, faceSum, app_kerAdd h1 u hi, add_assoc]
      congr 3
      funext x
      rw [← evalVec_seg, ← sum_vec, mul_sum]
      exact sum_congr rfl fun j _ => by rw [dot_comm]; ring

theorem app_divRhs (rd cd : Nat) (cell : Elem P K) (fcs : List (InfoFace P K)) (u : Nat → K) {i : Nat}
    (hi : i < (cell.basis rd).size) :
    app (d * ((cell.basis cd).size + facesDofs fcs)) (divRhs d rd cd cell fcs) u i =
      (if rd > 0 then -quad (cell.integrate (cd + rd - 1))
        (fun x => dot d ((cell.basis rd).grad x i) (evalVec d (cell.basis cd) u x)) else 0) +
      faceSum (fun f k o => quad (f.integrate (k + rd)) fun x => (cell.basis rd).fn x i *
        dot d f.normal fun c => evalFn (f.basis k) (seg o (comp d c u)) x) fcs (cell.basis cd).size := by
  unfold divRhs
  rw [app_divFaces rd _ u hi _ _ _ (le_refl _)]
  congr 1
  split_ifs with h
  · rw [app_kerSub (by rw [Nat.mul_add]; omega) u hi, app_zero, zero_sub, seg_zero]
    simp only [sum_vec]
  · exact app_zero _ _ _

section
variable (C : PolyCell d cell faces N)

theorem divRhs_exact (hb0 : (cell.basis 0).size = 1) {rd cd kmax : Nat} (hN : cd + rd ≤ N)
    (hNf : rd + kmax ≤ N) {fcs : List (InfoFace P K)} (hF : FacesIn faces kmax fcs) (u : Nat → K) {i : Nat}
    (hi : i < (cell.basis rd).size) :
    app (d * ((cell.basis cd).size + facesDofs fcs)) (divRhs d rd cd cell fcs) u i =
      -C.IT (fun x => dot d ((cell.basis rd).grad x i) (evalVec d (cell.basis cd) u x)) +
      faceSum (fun f k o => C.IF f fun x => (cell.basis rd).fn x i *
        dot d f.normal fun c => evalFn (f.basis k) (seg o (comp d c u)) x) fcs (cell.basis cd).size := by
  rw [app_divRhs rd cd cell fcs u hi]
  congr 1
  · split_ifs with h
    · congr 1
      refine cell_quad C (n := rd - 1 + cd) (by omega) (by omega) ?_
      exact dot_mem C (fun c hc => C.grad_mem rd i hi c hc) fun c _ => evalFn_mem C cd _
    · obtain rfl : rd = 0 := by omega
      have : (fun x => dot d ((cell.basis 0).grad x i) (evalVec d (cell.basis cd) u x)) = fun _ => 0 := by
        funext x
        unfold dot
        exact sum_eq_zero fun c _ => by rw [grad_zero C hb0 hi, zero_mul]
      rw [this, IT_zero, neg_zero]
  · refine faceSum_congr (fun f k o hm => ?_) _
    obtain ⟨hf, hk⟩ := hF f k hm
    refine face_quad C hf (n := rd + k) (by omega) (by omega) ?_
    exact OnV.mul C (OnV.of_mem C (C.cell_mem rd i hi)) (OnV.sum C fun c _ => OnV.evalFb C hf k _)

theorem mass_exact {rd : Nat} (hN : 2 * rd ≤ N) (t : Nat → K) {i : Nat} (hi : i < (cell.basis rd).size) :
    app (cell.basis rd).size (mass cell rd (cell.basis rd)) t i =
      C.IT fun x => (cell.basis rd).fn x i * evalFn (cell.basis rd) t x := by
  rw [app_eval fun j _ => mass_eq ..]
  exact cell_quad C (n := rd + rd) (by omega) hN (mul_mem' C (C.cell_mem rd i hi) (evalFn_mem C rd _))

end

/-! ### The symmetric gradient -/

theorem symTensor_sym (r : K) (p : Nat × Nat) (a b : Nat) : symTensor r p a b = symTensor r p b a := by
  unfold symTensor
  by_cases h : p.1 = p.2
  · rw [if_pos h, if_pos h]; simp only [and_comm]
  · rw [if_neg h, if_neg h]; simp only [and_comm, or_comm]

theorem symFn_sym (r : K) (b : Basis P K) (x : P) (i a c : Nat) : symFn d r b x i a c = symFn d r b x i c a := by
  unfold symFn
  rw [symTensor_sym]

theorem symTensor_disjoint (r : K) {p q : Nat × Nat} (hp : p.1 ≤ p.2) (hq : q.1 ≤ q.2) (h : p ≠ q) (a b : Nat) :
    symTensor r p a b * symTensor r q a b = 0 := by
  obtain ⟨p1, p2⟩ := p
  obtain ⟨q1, q2⟩ := q
  have h' : ¬(p1 = q1 ∧ p2 = q2) := fun ⟨e1, e2⟩ => h (by rw [e1, e2])
  simp only at hp hq
  unfold symTensor
  dsimp only
  split_ifs <;> first | ring1 | (exfalso; omega)

theorem symPairs_facts (hd : d = 2 ∨ d = 3) : (symPairs d).length = symCount d ∧ 0 < symCount d ∧
    (∀ i < symCount d, ((symPairs d).getD i (0, 0)).1 ≤ ((symPairs d).getD i (0, 0)).2) ∧
    ∀ i < symCount d, ∀ j < symCount d, i ≠ j → (symPairs d).getD i (0, 0) ≠ (symPairs d).getD j (0, 0) := by
  rcases hd with rfl | rfl <;> decide

theorem symFn_ortho (hd : d = 2 ∨ d = 3) (r : K) (b : Basis P K) (x : P) {i j : Nat}
    (h : i % symCount d ≠ j % symCount d) : frob d (symFn d r b x i) (symFn d r b x j) = 0 := by
  obtain ⟨_, hpos, hle, hne⟩ := symPairs_facts hd
  refine sum_eq_zero fun a _ => sum_eq_zero fun c _ => ?_
  unfold symFn
  have := symTensor_disjoint r (hle _ (Nat.mod_lt i hpos)) (hle _ (Nat.mod_lt j hpos))
    (hne _ (Nat.mod_lt i hpos) _ (Nat.mod_lt j hpos) h) a c
  rw [mul_mul_mul_comm, this, zero_mul]

theorem frob_comm (A B : Nat → Nat → K) : frob d A B = frob d B A :=
  sum_congr rfl fun _ _ => sum_congr rfl fun _ _ => mul_comm _ _

theorem symLower_eq (d gd : Nat) (r : K) (cell : Elem P K) (i j : Nat) :
    symLower d gd r cell i j = if j ≤ i ∧ i < symCount d * (cell.basis gd).size ∧ (i - j) % symCount d = 0 then
      quad (cell.integrate (2 * gd)) fun x =>
        frob d (symFn d r (cell.basis gd) x i) (symFn d r (cell.basis gd) x j) else 0 := by
  have h : ∀ (qs : List (QP P K)) (M : Mat K),
      (qs.foldl (fun M q => fun i j =>
        if j ≤ i ∧ i < symCount d * (cell.basis gd).size ∧ (i - j) % symCount d = 0 then
          M i j + frob d (symFn d r (cell.basis gd) q.pt i) (fun a b => q.w * symFn d r (cell.basis gd) q.pt j a b)
        else M i j) M) i j = M i j +
      if j ≤ i ∧ i < symCount d * (cell.basis gd).size ∧ (i - j) % symCount d = 0 then
      quad qs fun x => frob d (symFn d r (cell.basis gd) x i) (symFn d r (cell.basis gd) x j) else 0 := by
    intro qs
    induction qs with
    | nil => intro M; simp [quad]
    | cons q qs ih =>
      intro M
      rw [List.foldl_cons, ih, quad_cons]
      split_ifs with hc
      · have : frob d (symFn d r (cell.basis gd) q.pt i) (fun a b => q.w * symFn d r (cell.basis gd) q.pt j a b) =
            q.w * frob d (symFn d r (cell.basis gd) q.pt i) (symFn d r (cell.basis gd) q.pt j) := by
          unfold frob
          rw [mul_sum]
          refine sum_congr rfl fun a _ => ?_
          rw [mul_sum]
          exact sum_congr rfl fun b _ => by ring
        rw [this]
        ring
      · rfl
  unfold symLower
  rw [h]
  simp [zero]

theorem quad_zero (qs : List (QP P K)) {v : P → K} (h : ∀ x, v x = 0) : quad qs v = 0 := by
  induction qs with
  | nil => rfl
  | cons q qs ih => rw [quad_cons, ih, h, mul_zero, add_zero]

/-- The partially filled, mirrored matrix is the whole mass matrix of the symmetric basis. -/
theorem symLhs_eq (hd : d = 2 ∨ d = 3) (gd : Nat) (r : K) (cell : Elem P K) {i j : Nat}
    (hi : i < symCount d * (cell.basis gd).size) (hj : j < symCount d * (cell.basis gd).size) :
    symLhs d gd r cell i j = quad (cell.integrate (2 * gd)) fun x =>
      frob d (symFn d r (cell.basis gd) x i) (symFn d r (cell.basis gd) x j) := by
  have low : ∀ {i j : Nat}, j ≤ i → i < symCount d * (cell.basis gd).size →
      symLower d gd r cell i j = quad (cell.integrate (2 * gd)) fun x =>
        frob d (symFn d r (cell.basis gd) x i) (symFn d r (cell.basis gd) x j) := by
    intro i j hij hi
    rw [symLower_eq]
    by_cases h : (i - j) % symCount d = 0
    · rw [if_pos ⟨hij, hi, h⟩]
    · rw [if_neg fun hc => h hc.2.2, quad_zero]
      intro x
      refine symFn_ortho hd r _ x fun e => h ?_
      exact (Nat.sub_mod_eq_zero_of_mod_eq e)
  unfold symLhs
  split_ifs with h
  · rw [low h.le hj]
    exact quad_congr fun q _ => frob_comm _ _
  · exact low (not_lt.1 h) hi

theorem symLhs_sym (hd : d = 2 ∨ d = 3) (gd : Nat) (r : K) (cell : Elem P K) :
    SymOn (symCount d * (cell.basis gd).size) (symLhs d gd r cell) := by
  intro i hi j hj
  rw [symLhs_eq hd gd r cell hi hj, symLhs_eq hd gd r cell hj hi]
  exact quad_congr fun q _ => frob_comm _ _

theorem frob_sum (A : Nat → Nat → K) (s : Finset Nat) (t : Nat → K) (G : Nat → Nat → Nat → K) :
    frob d A (fun a b => ∑ j ∈ s, t j * G j a b) = ∑ j ∈ s, t j * frob d A (G j) := by
  unfold frob
  simp only [mul_sum]
  rw [sum_congr rfl fun a _ => sum_comm, sum_comm]
  refine sum_congr rfl fun j _ => sum_congr rfl fun a _ => sum_congr rfl fun b _ => by ring

theorem app_symLhs (hd : d = 2 ∨ d = 3) (gd : Nat) (r : K) (cell : Elem P K) (t : Nat → K) {i : Nat}
    (hi : i < symCount d * (cell.basis gd).size) :
    app (symCount d * (cell.basis gd).size) (symLhs d gd r cell) t i = quad (cell.integrate (2 * gd)) fun x =>
      frob d (symFn d r (cell.basis gd) x i) (evalSym d r (cell.basis gd) t x) := by
  unfold evalSym
  simp only [frob_sum]
  rw [quad_sum]
  exact sum_congr rfl fun j hj => by rw [symLhs_eq hd gd r cell hi (mem_range.1 hj), quad_mul, mul_comm]

/-- Pairing a symmetric tensor with the symmetric gradients of the vector basis functions. -/
theorem sum_sgrad (h2 : (2 : K) ≠ 0) (b : Basis P K) (u : Nat → K) {A : Nat → Nat → K} (hA : ∀ a c, A a c = A c a) (x : P) :
    ∑ j ∈ range (d * b.size), u j * frob d A (vecSGrad d b x j) =
      frob d A fun a c => evalGrad b (comp d a u) x c := by
  have h : ∀ j, 0 < d → frob d A (vecSGrad d b x j) = ∑ c ∈ range d, A (j % d) c * b.grad x (j / d) c := by
    intro j hd
    have hm := Nat.mod_lt j hd
    have e1 : frob d A (vecSGrad d b x j) = 1 / 2 *
        ((∑ a ∈ range d, ∑ c ∈ range d, if a = j % d then A a c * b.grad x (j / d) c else 0) +
        ∑ a ∈ range d, ∑ c ∈ range d, if c = j % d then A a c * b.grad x (j / d) a else 0) := by
      unfold frob vecSGrad
      rw [← sum_add_distrib, mul_sum]
      refine sum_congr rfl fun a _ => ?_
      rw [← sum_add_distrib, mul_sum]
      refine sum_congr rfl fun c _ => ?_
      split_ifs <;> ring
    have e2 : (∑ a ∈ range d, ∑ c ∈ range d, if a = j % d then A a c * b.grad x (j / d) c else 0) =
        ∑ c ∈ range d, A (j % d) c * b.grad x (j / d) c := by
      rw [sum_comm]
      refine sum_congr rfl fun c _ => ?_
      rw [sum_ite_eq']
      simp [hm]
    have e3 : (∑ a ∈ range d, ∑ c ∈ range d, if c = j % d then A a c * b.grad x (j / d) a else 0) =
        ∑ c ∈ range d, A (j % d) c * b.grad x (j / d) c := by
      refine sum_congr rfl fun a _ => ?_
      rw [sum_ite_eq']
      simp [hm, hA a]
    rw [e1, e2, e3]
    field_simp
    ring
  rw [sum_range_mul']
  rcases Nat.eq_zero_or_pos d with rfl | hd
  · simp [frob]
  · simp only [h _ hd]
    unfold frob evalGrad
    rw [sum_comm]
    refine sum_congr rfl fun a ha => ?_
    have ha := mem_range.1 ha
    simp only [mul_sum]
    rw [sum_comm]
    refine sum_congr rfl fun c _ => sum_congr rfl fun k _ => ?_
    rw [(divmod_add ha).1, (divmod_add ha).2]
    unfold comp
    ring

theorem app_symFaceFold {S : List (QP P K)} {n nr off fbs cbs : Nat} {kf kc : P → Nat → Nat → K} (ho : off + fbs ≤ n)
    (hc : cbs ≤ n) (u : Nat → K) {i : Nat} (hi : i < nr) (M : Mat K) :
    app n (S.foldl (fun M q => subBlock (addBlock M 0 off nr fbs fun i j => q.w * kf q.pt i j)
      0 0 nr cbs fun i j => q.w * kc q.pt i j) M) u i =
    app n M u i + quad S fun x => (∑ j ∈ range fbs, seg off u j * kf x i j) - ∑ j ∈ range cbs, u j * kc x i j := by
  induction S generalizing M with
  | nil => simp [quad]
  | cons q S ih =>
    rw [List.foldl_cons, ih, app_subBlock (by omega), app_addBlock ho, quad_cons, if_pos (by omega), if_pos (by omega),
      seg_zero]
    have h1 : ∀ (g : Nat → Nat → K) (w : Nat → K) (m : Nat), app m (fun i j => q.w * g i j) w (i - 0) =
        q.w * ∑ j ∈ range m, w j * g i j := by
      intro g w m
      unfold app
      rw [mul_sum]
      exact sum_congr rfl fun j _ => by rw [Nat.sub_zero]; ring
    rw [h1 (kf q.pt), h1 (kc q.pt)]
    ring

theorem app_symFaces (gd cd : Nat) (r : K) (cell : Elem P K) {n : Nat} (hcn : d * (cell.basis cd).size ≤ n)
    (u : Nat → K) {i : Nat} (hi : i < symCount d * (cell.basis gd).size)
    (fs : List (InfoFace P K)) (o : Nat) (M : Mat K) (ho : d * (o + facesDofs fs) ≤ n) :
    app n (symFaces d gd cd r cell fs (d * o) M) u i = app n M u i +
      faceSum (fun f k o => quad (f.integrate (gd + max cd k)) fun x =>
        dot d (tensN d (symFn d r (cell.basis gd) x i) f.normal) fun c =>
          evalFn (f.basis k) (seg o (comp d c u)) x - evalVec d (cell.basis cd) u x c) fs o := by
  induction fs generalizing o M with
  | nil => simp [symFaces, faceSum]
  | cons a fs ih =>
    obtain ⟨f, _ | k⟩ := a
    · rw [facesDofs_cons_none] at ho
      rw [symFaces, ih _ _ ho, faceSum]
    · rw [facesDofs_cons, ← Nat.add_assoc] at ho
      have h1 : d * o + d * (f.basis k).size ≤ n := by
        rw [← Nat.mul_add]
        exact (Nat.mul_le_mul_left d (Nat.le_add_right _ _)).trans ho
      rw [symFaces, ← Nat.mul_add, ih _ _ ho, faceSum,
        app_symFaceFold (kf := fun x i j => dot d (tensN d (symFn d r (cell.basis gd) x i) f.normal)
          (vecFn d (f.basis k) x j)) (kc := fun x i j => dot d (tensN d (symFn d r (cell.basis gd) x i) f.normal)
          (vecFn d (cell.basis cd) x j)) h1 hcn u hi, add_assoc]
      congr 3
      funext x
      rw [sum_vec, sum_vec, evalVec_seg]
      unfold dot
      exact Eq.trans (sum_sub_distrib _ _).symm (sum_congr rfl fun c _ => by ring)

theorem app_symRhs (h2 : (2 : K) ≠ 0) (gd cd : Nat) (r : K) (cell : Elem P K) (fcs : List (InfoFace P K)) (u : Nat → K)
    {i : Nat} (hi : i < symCount d * (cell.basis gd).size) :
    app (d * ((cell.basis cd).size + facesDofs fcs)) (symRhs d gd cd r cell fcs) u i =
      (if cd > 0 then quad (cell.integrate (gd + cd - 1))
        (fun x => frob d (symFn d r (cell.basis gd) x i) fun a c => evalGrad (cell.basis cd) (comp d a u) x c) else 0) +
      faceSum (fun f k o => quad (f.integrate (gd + max cd k)) fun x =>
        dot d (tensN d (symFn d r (cell.basis gd) x i) f.normal) fun c =>
          evalFn (f.basis k) (seg o (comp d c u)) x - evalVec d (cell.basis cd) u x c) fcs (cell.basis cd).size := by
  unfold symRhs
  rw [app_symFaces gd cd r cell (Nat.mul_le_mul_left d (Nat.le_add_right _ _)) u hi _ _ _ (le_refl _)]
  congr 1
  split_ifs with h
  · rw [app_kerAdd (by rw [Nat.mul_add]; omega) u hi, app_zero, zero_add, seg_zero]
    congr 1
    funext x
    exact sum_sgrad h2 _ u (symFn_sym r _ x i) x
  · exact app_zero _ _ _

section
variable (C : PolyCell d cell faces N)

theorem symFn_mem (hd : d = 2 ∨ d = 3) (r : K) {gd i : Nat} (hi : i < symCount d * (cell.basis gd).size) (a c : Nat) :
    (fun x => symFn d r (cell.basis gd) x i a c) ∈ C.V gd := by
  have := (symPairs_facts hd).2.1
  exact smul_mem' C _ (C.cell_mem gd _ (div_lt_of_lt_mul hi))

theorem frob_mem {m n : Nat} {A B : P → Nat → Nat → K} (ha : ∀ a < d, ∀ c < d, (fun x => A x a c) ∈ C.V m)
    (hb : ∀ a < d, ∀ c < d, (fun x => B x a c) ∈ C.V n) : (fun x => frob d (A x) (B x)) ∈ C.V (m + n) :=
  sum_mem' C fun a hA => sum_mem' C fun c hc => C.mul (ha a (mem_range.1 hA) c (mem_range.1 hc))
    (hb a (mem_range.1 hA) c (mem_range.1 hc))

theorem evalSym_mem (hd : d = 2 ∨ d = 3) (r : K) (gd : Nat) (t : Nat → K) (a c : Nat) :
    (fun x => evalSym d r (cell.basis gd) t x a c) ∈ C.V gd :=
  sum_mem' C fun _ hj => smul_mem' C _ (symFn_mem C hd r (mem_range.1 hj) a c)

theorem symLhs_exact (hd : d = 2 ∨ d = 3) {gd : Nat} (hN : 2 * gd ≤ N) (r : K) (t : Nat → K) {i : Nat}
    (hi : i < symCount d * (cell.basis gd).size) :
    app (symCount d * (cell.basis gd).size) (symLhs d gd r cell) t i =
      C.IT fun x => frob d (symFn d r (cell.basis gd) x i) (evalSym d r (cell.basis gd) t x) := by
  rw [app_symLhs hd gd r cell t hi]
  exact cell_quad C (n := gd + gd) (by omega) hN
    (frob_mem C (fun a _ c _ => symFn_mem C hd r hi a c) fun a _ c _ => evalSym_mem C hd r gd t a c)

theorem symRhs_exact (h2 : (2 : K) ≠ 0) (hd : d = 2 ∨ d = 3) (hb0 : (cell.basis 0).size = 1) {gd cd kmax : Nat}
    (hN : gd + cd ≤ N) (hNf : gd + kmax ≤ N) {fcs : List (InfoFace P K)} (hF : FacesIn faces kmax fcs) (r : K)
    (u : Nat → K) {i : Nat} (hi : i < symCount d * (cell.basis gd).size) :
    app (d * ((cell.basis cd).size + facesDofs fcs)) (symRhs d gd cd r cell fcs) u i =
      C.IT (fun x => frob d (symFn d r (cell.basis gd) x i) fun a c => evalGrad (cell.basis cd) (comp d a u) x c) +
      faceSum (fun f k o => C.IF f fun x =>
        dot d (tensN d (symFn d r (cell.basis gd) x i) f.normal) fun c =>
          evalFn (f.basis k) (seg o (comp d c u)) x - evalVec d (cell.basis cd) u x c) fcs (cell.basis cd).size := by
  rw [app_symRhs h2 gd cd r cell fcs u hi]
  congr 1
  · split_ifs with h
    · refine cell_quad C (n := gd + (cd - 1)) (by omega) (by omega) ?_
      exact frob_mem C (fun a _ c _ => symFn_mem C hd r hi a c) fun a _ c hc => evalGrad_mem C cd _ hc
    · obtain rfl : cd = 0 := by omega
      have : (fun x => frob d (symFn d r (cell.basis gd) x i) fun a c => evalGrad (cell.basis 0) (comp d a u) x c) =
          fun _ => 0 := by
        funext x
        refine sum_eq_zero fun a _ => sum_eq_zero fun c _ => ?_
        unfold evalGrad
        dsimp only
        rw [sum_eq_zero fun j hj => by rw [grad_zero C hb0 (mem_range.1 hj), mul_zero], mul_zero]
      rw [this, IT_zero]
  · refine faceSum_congr (fun f k o hm => ?_) _
    obtain ⟨hf, hk⟩ := hF f k hm
    refine face_quad C hf (n := gd + max cd k) (by omega) (by omega) ?_
    have e : (fun x => dot d (tensN d (symFn d r (cell.basis gd) x i) f.normal) fun c =>
          evalFn (f.basis k) (seg o (comp d c u)) x - evalVec d (cell.basis cd) u x c) = fun x =>
        ∑ c ∈ range d, 1 * (tensN d (symFn d r (cell.basis gd) x i) f.normal c *
          (evalFn (f.basis k) (seg o (comp d c u)) x - evalVec d (cell.basis cd) u x c)) := by
      funext x
      simp only [one_mul]
      rfl
    rw [e]
    refine OnV.sum C fun c _ => OnV.mul C (OnV.of_mem C ?_) (OnV.sub C ?_ ?_)
    · exact sum_mem' C fun b _ => smul_mem_right C _ (symFn_mem C hd r hi c b)
    · exact OnV.mono C (by omega) (OnV.evalFb C hf k _)
    · exact OnV.mono C (by omega) (OnV.of_mem C (evalFn_mem C cd _))

theorem frob_congr {A B B' : Nat → Nat → K} (h : ∀ a < d, ∀ c < d, B a c = B' a c) : frob d A B = frob d A B' :=
  sum_congr rfl fun a ha => sum_congr rfl fun c hc => by rw [h a (mem_range.1 ha) c (mem_range.1 hc)]

theorem frob_half (h2 : (2 : K) ≠ 0) {A : Nat → Nat → K} (hA : ∀ a c, A a c = A c a) (G : Nat → Nat → K) :
    frob d A (fun a c => 1 / 2 * (G a c + G c a)) = frob d A G := by
  have e : frob d A (fun a c => G c a) = frob d A G := by
    unfold frob
    rw [sum_comm]
    exact sum_congr rfl fun a _ => sum_congr rfl fun c _ => by rw [hA]
  have e2 : frob d A (fun a c => 1 / 2 * (G a c + G c a)) = 1 / 2 * (frob d A G + frob d A fun a c => G c a) := by
    unfold frob
    rw [← sum_add_distrib, mul_sum]
    refine sum_congr rfl fun a _ => ?_
    rw [← sum_add_distrib, mul_sum]
    exact sum_congr rfl fun c _ => by ring
  rw [e2, e]
  field_simp
  ring

/-- The symmetric basis spans the symmetric tensor fields with polynomial components. -/
theorem symSpan (hd : d = 2 ∨ d = 3) {r : K} (hr : r ≠ 0) {gd : Nat} {F : P → Nat → Nat → K}
    (hs : ∀ x a c, F x a c = F x c a) (hF : ∀ a < d, ∀ c < d, (fun x => F x a c) ∈ C.V gd) :
    ∃ t : Nat → K, ∀ x, ∀ a < d, ∀ c < d, evalSym d r (cell.basis gd) t x a c = F x a c := by
  choose! g hg using fun a (ha : a < d) c (hc : c < d) => C.cell_span gd _ (hF a ha c hc)
  obtain ⟨_, hpos, _, _⟩ := symPairs_facts hd
  set pr : Nat → Nat × Nat := fun s => (symPairs d).getD s (0, 0) with hpr
  set w : Nat → K := fun s => if (pr s).1 = (pr s).2 then 1 else r⁻¹ with hw
  refine ⟨fun j => w (j % symCount d) * g (pr (j % symCount d)).1 (pr (j % symCount d)).2 (j / symCount d),
    fun x a ha c hc => ?_⟩
  have e : evalSym d r (cell.basis gd) (fun j => w (j % symCount d) *
      g (pr (j % symCount d)).1 (pr (j % symCount d)).2 (j / symCount d)) x a c =
      ∑ s ∈ range (symCount d), w s * symTensor r (pr s) a c * evalFn (cell.basis gd) (g (pr s).1 (pr s).2) x := by
    unfold evalSym
    rw [sum_range_mul', sum_comm]
    refine sum_congr rfl fun s hs => ?_
    have hs := mem_range.1 hs
    unfold evalFn
    rw [mul_sum]
    refine sum_congr rfl fun k _ => ?_
    unfold symFn
    dsimp only
    rw [(divmod_add hs).1, (divmod_add hs).2]
    ring
  have e2 : ∀ s < symCount d, evalFn (cell.basis gd) (g (pr s).1 (pr s).2) x = F x (pr s).1 (pr s).2 := by
    intro s hs
    have h : (pr s).1 < d ∧ (pr s).2 < d := by
      rw [hpr]
      rcases hd with rfl | rfl
      · exact (by decide : ∀ s < symCount 2, ((symPairs 2).getD s (0, 0)).1 < 2 ∧ ((symPairs 2).getD s (0, 0)).2 < 2) s hs
      · exact (by decide : ∀ s < symCount 3, ((symPairs 3).getD s (0, 0)).1 < 3 ∧ ((symPairs 3).getD s (0, 0)).2 < 3) s hs
    exact (hg _ h.1 _ h.2 x).symm
  rw [e, sum_congr rfl fun s hs => by rw [e2 s (mem_range.1 hs)]]
  rcases hd with rfl | rfl
  · rw [show symCount 2 = 3 from rfl]
    have p0 : pr 0 = (0, 0) := rfl
    have p1 : pr 1 = (0, 1) := rfl
    have p2 : pr 2 = (1, 1) := rfl
    simp only [sum_range_succ, range_zero, sum_empty, hw, p0, p1, p2]
    interval_cases a <;> interval_cases c <;> simp [symTensor, hr, hs x 1 0]
  · rw [show symCount 3 = 6 from rfl]
    have p0 : pr 0 = (0, 0) := rfl
    have p1 : pr 1 = (0, 1) := rfl
    have p2 : pr 2 = (1, 1) := rfl
    have p3 : pr 3 = (0, 2) := rfl
    have p4 : pr 4 = (1, 2) := rfl
    have p5 : pr 5 = (2, 2) := rfl
    simp only [sum_range_succ, range_zero, sum_empty, hw, p0, p1, p2, p3, p4, p5]
    interval_cases a <;> interval_cases c <;> simp [symTensor, hr, hs x 1 0, hs x 2 0, hs x 2 1]

end

end Verif.Lemmas.Hho
