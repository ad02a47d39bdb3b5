import Verif.Lemmas.HhoLocal
/-!
Helper lemmas for the local HHO operators on a cell with polynomial spaces.
-/
namespace Verif.Lemmas.Hho
open Finset Verif.Hho Verif.Spec.Hho LocalMatrix

variable {K P : Type} [Field K] {d N : Nat} {tens : Option (Mat K)} {cell : Elem P K} {faces : List (Face P K)}

section
variable (C : PolyCell d cell faces N)

theorem sum_mem' {m : Nat} {s : Finset Nat} {v : Nat → P → K} (h : ∀ j ∈ s, v j ∈ C.V m) :
    (fun x => ∑ j ∈ s, v j x) ∈ C.V m := by
  have : (fun x => ∑ j ∈ s, v j x) = ∑ j ∈ s, v j := by funext x; rw [Finset.sum_apply]
  rw [this]
  exact Submodule.sum_mem _ h

theorem smul_mem' {m : Nat} {v : P → K} (a : K) (h : v ∈ C.V m) : (fun x => a * v x) ∈ C.V m :=
  Submodule.smul_mem _ a h

theorem smul_mem_right {m : Nat} {v : P → K} (a : K) (h : v ∈ C.V m) : (fun x => v x * a) ∈ C.V m := by
  have : (fun x => v x * a) = fun x => a * v x := funext fun x => mul_comm _ _
  rw [this]
  exact smul_mem' C a h

theorem mul_mem' {m n : Nat} {v w : P → K} (hv : v ∈ C.V m) (hw : w ∈ C.V n) : (fun x => v x * w x) ∈ C.V (m + n) :=
  C.mul hv hw

theorem evalFn_mem (k : Nat) (u : Nat → K) : (fun x => evalFn (cell.basis k) u x) ∈ C.V k :=
  sum_mem' C fun j hj => smul_mem' C _ (C.cell_mem k j (mem_range.1 hj))

theorem evalTail_mem (k : Nat) (u : Nat → K) : (fun x => evalTail (cell.basis k) u x) ∈ C.V k :=
  sum_mem' C fun j hj => smul_mem' C _ (C.cell_mem k (j + 1) (by have := mem_range.1 hj; omega))

theorem evalGrad_mem (k : Nat) (u : Nat → K) {c : Nat} (hc : c < d) :
    (fun x => evalGrad (cell.basis k) u x c) ∈ C.V (k - 1) :=
  sum_mem' C fun j hj => smul_mem' C _ (C.grad_mem k j (mem_range.1 hj) c hc)

theorem evalGradTail_mem (k : Nat) (u : Nat → K) {c : Nat} (hc : c < d) :
    (fun x => evalGradTail (cell.basis k) u x c) ∈ C.V (k - 1) :=
  sum_mem' C fun j hj => smul_mem' C _ (C.grad_mem k (j + 1) (by have := mem_range.1 hj; omega) c hc)

theorem rflux_mem (rd : Nat) {i c : Nat} (hi : i + 1 < (cell.basis rd).size) (hc : c < d) :
    (fun x => rflux d tens (cell.basis rd) x i c) ∈ C.V (rd - 1) := by
  unfold rflux flux
  cases tens with
  | none => exact C.grad_mem rd (i + 1) hi c hc
  | some D =>
    exact sum_mem' C fun e he => smul_mem_right C _ (C.grad_mem rd (i + 1) hi e (mem_range.1 he))

theorem dot_mem {m n : Nat} {a b : P → Nat → K} (ha : ∀ c < d, (fun x => a x c) ∈ C.V m)
    (hb : ∀ c < d, (fun x => b x c) ∈ C.V n) : (fun x => dot d (a x) (b x)) ∈ C.V (m + n) :=
  sum_mem' C fun c hc => C.mul (ha c (mem_range.1 hc)) (hb c (mem_range.1 hc))

theorem fluxN_mem (rd : Nat) (n : Nat → K) {i : Nat} (hi : i + 1 < (cell.basis rd).size) :
    (fun x => fluxN d tens (cell.basis rd) n x i) ∈ C.V (rd - 1) :=
  sum_mem' C fun c hc => smul_mem_right C _ (rflux_mem C rd hi (mem_range.1 hc))

/-- A function that coincides on a face with a polynomial of degree `n`. -/
def OnV (f : Face P K) (n : Nat) (w : P → K) : Prop := ∃ v ∈ C.V n, ∀ x ∈ C.on f, w x = v x

theorem OnV.of_mem {f : Face P K} {n : Nat} {w : P → K} (h : w ∈ C.V n) : OnV C f n w := ⟨w, h, fun _ _ => rfl⟩

theorem OnV.mul {f : Face P K} {m n : Nat} {v w : P → K} (hv : OnV C f m v) (hw : OnV C f n w) :
    OnV C f (m + n) fun x => v x * w x := by
  obtain ⟨a, ha, ha'⟩ := hv
  obtain ⟨b, hb, hb'⟩ := hw
  exact ⟨a * b, C.mul ha hb, fun x hx => by dsimp only; rw [ha' x hx, hb' x hx]; rfl⟩

theorem OnV.sub {f : Face P K} {n : Nat} {v w : P → K} (hv : OnV C f n v) (hw : OnV C f n w) :
    OnV C f n fun x => v x - w x := by
  obtain ⟨a, ha, ha'⟩ := hv
  obtain ⟨b, hb, hb'⟩ := hw
  exact ⟨a - b, Submodule.sub_mem _ ha hb, fun x hx => by dsimp only; rw [ha' x hx, hb' x hx]; rfl⟩

theorem OnV.mono {f : Face P K} {m n : Nat} (h : m ≤ n) {v : P → K} (hv : OnV C f m v) : OnV C f n v := by
  obtain ⟨a, ha, ha'⟩ := hv
  exact ⟨a, C.mono h ha, ha'⟩

theorem OnV.sum {f : Face P K} {n : Nat} {s : Finset Nat} {a : Nat → K} {v : Nat → P → K}
    (h : ∀ j ∈ s, OnV C f n (v j)) : OnV C f n fun x => ∑ j ∈ s, a j * v j x := by
  classical
  choose w hw hw' using h
  refine ⟨fun x => ∑ j ∈ s.attach, a j.1 * w j.1 j.2 x, ?_, fun x hx => ?_⟩
  · have : (fun x => ∑ j ∈ s.attach, a j.1 * w j.1 j.2 x) = ∑ j ∈ s.attach, fun x => a j.1 * w j.1 j.2 x := by
      funext x; rw [Finset.sum_apply]
    rw [this]
    exact Submodule.sum_mem _ fun j _ => smul_mem' C _ (hw j.1 j.2)
  · dsimp only
    rw [← Finset.sum_attach]
    exact sum_congr rfl fun j _ => by rw [hw' j.1 j.2 x hx]

theorem OnV.fb {f : Face P K} (hf : f ∈ faces) {k i : Nat} (hi : i < (f.basis k).size) :
    OnV C f k fun x => (f.basis k).fn x i := C.face_mem f hf k i hi

theorem OnV.evalFb {f : Face P K} (hf : f ∈ faces) (k : Nat) (u : Nat → K) :
    OnV C f k fun x => evalFn (f.basis k) u x :=
  OnV.sum C fun _ hj => OnV.fb C hf (mem_range.1 hj)

/-- Exactness of the rules of a face on functions that are polynomials on the face. -/
theorem face_quad {f : Face P K} (hf : f ∈ faces) {n m : Nat} (hn : n ≤ m) (hm : m ≤ N) {w : P → K}
    (hw : OnV C f n w) : quad (f.integrate m) w = C.IF f w := by
  obtain ⟨v, hv, hv'⟩ := hw
  rw [quad_congr (v := v) fun q hq => hv' q.pt (C.face_pts f hf m q hq), C.face_exact f hf m hm v (C.mono hn hv)]
  exact (C.face_congr f hf _ _ hv').symm

theorem cell_quad {n m : Nat} (hn : n ≤ m) (hm : m ≤ N) {w : P → K} (hw : w ∈ C.V n) :
    quad (cell.integrate m) w = C.IT w := C.cell_exact m hm w (C.mono hn hw)

theorem IT_sum (s : Finset Nat) (a : Nat → K) (v : Nat → P → K) :
    C.IT (fun x => ∑ j ∈ s, a j * v j x) = ∑ j ∈ s, a j * C.IT (v j) := by
  have : (fun x => ∑ j ∈ s, a j * v j x) = ∑ j ∈ s, a j • v j := by
    funext x; rw [Finset.sum_apply]; rfl
  rw [this, map_sum]
  exact sum_congr rfl fun j _ => by rw [map_smul, smul_eq_mul]

theorem IF_sum (f : Face P K) (s : Finset Nat) (a : Nat → K) (v : Nat → P → K) :
    C.IF f (fun x => ∑ j ∈ s, a j * v j x) = ∑ j ∈ s, a j * C.IF f (v j) := by
  have : (fun x => ∑ j ∈ s, a j * v j x) = ∑ j ∈ s, a j • v j := by
    funext x; rw [Finset.sum_apply]; rfl
  rw [this, map_sum]
  exact sum_congr rfl fun j _ => by rw [map_smul, smul_eq_mul]

theorem IF_sub (f : Face P K) (v w : P → K) : C.IF f (fun x => v x - w x) = C.IF f v - C.IF f w := map_sub _ _ _

/-- The interpolate of `p` has the moments of `p` against every cell polynomial of degree `cd`. -/
theorem interp_cell {cd : Nat} {fcs : List (InfoFace P K)} {p : P → K} {u : Nat → K} (h : IsInterp C cd fcs p u)
    {v : P → K} (hv : v ∈ C.V cd) :
    C.IT (fun x => v x * evalFn (cell.basis cd) u x) = C.IT (fun x => v x * p x) := by
  obtain ⟨c, hc⟩ := C.cell_span cd v hv
  have e : ∀ w : P → K, C.IT (fun x => v x * w x) =
      ∑ j ∈ range (cell.basis cd).size, c j * C.IT fun x => (cell.basis cd).fn x j * w x := by
    intro w
    rw [← IT_sum]
    congr 1
    funext x
    rw [hc x, evalFn, sum_mul]
    exact sum_congr rfl fun j _ => by ring
  rw [e, e]
  exact sum_congr rfl fun j hj => by rw [h.1 j (mem_range.1 hj)]

/-- The same on a face. -/
theorem interp_face {f : Face P K} (hf : f ∈ faces) {k off : Nat} {p : P → K} {u : Nat → K}
    (h : ∀ i < (f.basis k).size, C.IF f (fun x => (f.basis k).fn x i * evalFn (f.basis k) (seg off u) x) =
      C.IF f (fun x => (f.basis k).fn x i * p x)) {v : P → K} (hv : v ∈ C.V k) :
    C.IF f (fun x => v x * evalFn (f.basis k) (seg off u) x) = C.IF f (fun x => v x * p x) := by
  obtain ⟨c, hc⟩ := C.face_span f hf k v hv
  have e : ∀ w : P → K, C.IF f (fun x => v x * w x) =
      ∑ j ∈ range (f.basis k).size, c j * C.IF f fun x => (f.basis k).fn x j * w x := by
    intro w
    rw [← IF_sum]
    refine C.face_congr f hf _ _ fun x hx => ?_
    rw [hc x hx, evalFn, sum_mul]
    exact sum_congr rfl fun j _ => by ring
  rw [e, e]
  exact sum_congr rfl fun j hj => by rw [h j (mem_range.1 hj)]

/-- Green's formula for functions given by coefficients. -/
theorem green_eval {rd cd : Nat} (hG : Green C tens rd cd) {i : Nat} (hi : i + 1 < (cell.basis rd).size) :
    ∃ L ∈ C.V (rd - 2), ∀ k, (k = rd ∨ k = cd) → ∀ u : Nat → K,
      C.IT (fun x => dot d (rflux d tens (cell.basis rd) x i) (evalGrad (cell.basis k) u x)) =
        -C.IT (fun x => L x * evalFn (cell.basis k) u x) +
          (faces.map fun f => C.IF f fun x =>
            fluxN d tens (cell.basis rd) f.normal x i * evalFn (cell.basis k) u x).sum := by
  obtain ⟨L, hL, h⟩ := hG i hi
  refine ⟨L, hL, fun k hk u => ?_⟩
  unfold evalGrad
  simp only [dot_sum]
  rw [IT_sum]
  have h1 : C.IT (fun x => L x * evalFn (cell.basis k) u x) =
      ∑ j ∈ range (cell.basis k).size, u j * C.IT fun x => L x * (cell.basis k).fn x j := by
    rw [← IT_sum]
    congr 1
    funext x
    rw [evalFn, mul_sum]
    exact sum_congr rfl fun j _ => by ring
  have h2 : ∀ fs : List (Face P K), (fs.map fun f => C.IF f fun x =>
      fluxN d tens (cell.basis rd) f.normal x i * evalFn (cell.basis k) u x).sum =
      ∑ j ∈ range (cell.basis k).size, u j * (fs.map fun f => C.IF f fun x =>
        fluxN d tens (cell.basis rd) f.normal x i * (cell.basis k).fn x j).sum := by
    intro fs
    induction fs with
    | nil => simp
    | cons f fs ih =>
      simp only [List.map_cons, List.sum_cons, mul_add, sum_add_distrib]
      rw [ih]
      congr 1
      rw [← IF_sum]
      congr 1
      funext x
      rw [evalFn, mul_sum]
      exact sum_congr rfl fun j _ => by ring
  rw [h1, h2, ← sum_neg_distrib, ← sum_add_distrib]
  refine sum_congr rfl fun j hj => ?_
  rw [h k hk j (mem_range.1 hj)]
  ring

theorem mem_uniform {fd : Nat} {fs : List (Face P K)} {f : Face P K} {k : Nat} (h : (f, some k) ∈ uniform fd fs) :
    f ∈ fs ∧ k = fd := by
  unfold uniform at h
  obtain ⟨g, hg, e⟩ := List.mem_map.1 h
  injection e with e1 e2
  injection e2 with e2
  exact ⟨e1 ▸ hg, e2.symm⟩

/-- On every face the sum over the faces with unknowns of a quantity without unknowns is the sum over the faces. -/
theorem faceSum_uniform (g : Face P K → K) (fd : Nat) (fs : List (Face P K)) (off : Nat) :
    faceSum (fun f _ _ => g f) (uniform fd fs) off = (fs.map g).sum := by
  induction fs generalizing off with
  | nil => rfl
  | cons f fs ih => rw [uniform_cons, faceSum, ih]; simp

theorem faceSum_sub (g g' : Face P K → Nat → Nat → K) (fcs : List (InfoFace P K)) (off : Nat) :
    faceSum (fun f k o => g f k o - g' f k o) fcs off = faceSum g fcs off - faceSum g' fcs off := by
  induction fcs generalizing off with
  | nil => simp [faceSum]
  | cons a fs ih =>
    obtain ⟨f, _ | k⟩ := a
    · exact ih off
    · simp only [faceSum]
      rw [ih]
      ring

theorem faceSum_congr_all {g g' : Face P K → Nat → Nat → K} {p : Face P K → Nat → Nat → Prop}
    {fcs : List (InfoFace P K)} (h : ∀ f k o, (f, some k) ∈ fcs → p f k o → g f k o = g' f k o) {off : Nat}
    (ha : faceAll p fcs off) : faceSum g fcs off = faceSum g' fcs off := by
  induction fcs generalizing off with
  | nil => rfl
  | cons a fs ih =>
    have ih := @ih fun f k off hf => h f k off (List.mem_cons_of_mem _ hf)
    obtain ⟨f, _ | k⟩ := a
    · exact ih ha
    · simp only [faceSum]
      rw [ih ha.2, h f k off List.mem_cons_self ha.1]

include C in
/-- The two-sided relation between a function and its coefficients without the constant. -/
theorem evalGradTail_eq (k : Nat) (a : Nat → K) (x : P) :
    evalGradTail (cell.basis k) (fun j => a (j + 1)) x = evalGrad (cell.basis k) a x := by
  funext c
  have hp := C.cell_pos k
  unfold evalGradTail evalGrad
  obtain ⟨m, hm⟩ := Nat.exists_eq_succ_of_ne_zero hp.ne'
  rw [hm, Nat.succ_sub_one, Nat.succ_eq_add_one, sum_range_succ', C.grad_one, mul_zero, add_zero]

include C in
theorem evalTail_eq (k : Nat) (a : Nat → K) (x : P) :
    evalFn (cell.basis k) a x = evalTail (cell.basis k) (fun j => a (j + 1)) x + a 0 := by
  have hp := C.cell_pos k
  unfold evalTail evalFn
  obtain ⟨m, hm⟩ := Nat.exists_eq_succ_of_ne_zero hp.ne'
  rw [hm, Nat.succ_sub_one, Nat.succ_eq_add_one, sum_range_succ', C.cell_one, mul_one]

/-- The consistency argument: for the interpolate of a polynomial, the cell and face terms of the reconstruction
add up to the flux of the polynomial. -/
theorem consistency_rhs {rd cd fd : Nat} (hcd : rd ≤ cd + 2) (hfd : rd ≤ fd + 1)
    (hG : Green C tens rd cd) {a : Nat → K} {u : Nat → K}
    (hu : IsInterp C cd (uniform fd faces) (evalFn (cell.basis rd) a) u) {i : Nat}
    (hi : i + 1 < (cell.basis rd).size) :
    C.IT (fun x => dot d (rflux d tens (cell.basis rd) x i) (evalGrad (cell.basis cd) u x)) +
      faceSum (fun f k o => C.IF f fun x => fluxN d tens (cell.basis rd) f.normal x i *
        (evalFn (f.basis k) (seg o u) x - evalFn (cell.basis cd) u x)) (uniform fd faces) (cell.basis cd).size =
    C.IT (fun x => dot d (rflux d tens (cell.basis rd) x i) (evalGrad (cell.basis rd) a x)) := by
  obtain ⟨L, hL, hg⟩ := green_eval C hG hi
  rw [hg cd (Or.inr rfl) u, hg rd (Or.inl rfl) a, interp_cell C hu (C.mono (by omega) hL)]
  have e : faceSum (fun f k o => C.IF f fun x => fluxN d tens (cell.basis rd) f.normal x i *
        (evalFn (f.basis k) (seg o u) x - evalFn (cell.basis cd) u x)) (uniform fd faces) (cell.basis cd).size =
      faceSum (fun f k o => (C.IF f fun x => fluxN d tens (cell.basis rd) f.normal x i * evalFn (cell.basis rd) a x) -
        C.IF f fun x => fluxN d tens (cell.basis rd) f.normal x i * evalFn (cell.basis cd) u x)
        (uniform fd faces) (cell.basis cd).size := by
    refine faceSum_congr_all (fun f k o hm hp => ?_) hu.2
    obtain ⟨hf, rfl⟩ := mem_uniform hm
    rw [← interp_face C hf hp (C.mono (by omega : rd - 1 ≤ k) (fluxN_mem C rd f.normal hi)), ← IF_sub]
    congr 1
    funext x
    ring
  rw [e, faceSum_sub, faceSum_uniform, faceSum_uniform]
  ring

end
end Verif.Lemmas.Hho
