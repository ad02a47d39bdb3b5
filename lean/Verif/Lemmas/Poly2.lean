import Verif.Lemmas.PlaneIntegral
import Verif.Lemmas.Gauss
/-!
Polynomials of two variables: derivatives, substitution of polynomial coordinates with control of degrees and
coefficients, and quadrature errors from the moments.
-/
namespace Verif.PlaneIntegral
open Verif.Spec Verif.Quad MeasureTheory

theorem eval_nil (x y : ℝ) : Poly2.eval [] x y = 0 := rfl
theorem eval_cons (t : ℝ × ℕ × ℕ) (f : Poly2) (x y : ℝ) :
    Poly2.eval (t :: f) x y = t.1 * (x ^ t.2.1 * y ^ t.2.2) + Poly2.eval f x y := by simp [Poly2.eval]
theorem eval_append (f g : Poly2) (x y : ℝ) :
    Poly2.eval (f ++ g) x y = Poly2.eval f x y + Poly2.eval g x y := by simp [Poly2.eval]

theorem C1.add {F Fx Fy G Gx Gy : ℝ → ℝ → ℝ} (h : C1 F Fx Fy) (k : C1 G Gx Gy) :
    C1 (fun x y => F x y + G x y) (fun x y => Fx x y + Gx x y) (fun x y => Fy x y + Gy x y) where
  der p := by
    refine ((h.der p).add (k.der p)).congr_fderiv ?_
    ext <;> simp
  cx := h.cx.add k.cx
  cy := h.cy.add k.cy

theorem C1.zero : C1 (fun _ _ => 0) (fun _ _ => 0) (fun _ _ => 0) where
  der p := by
    refine (hasFDerivAt_const (0 : ℝ) p).congr_fderiv ?_
    ext <;> simp
  cx := continuous_const
  cy := continuous_const

theorem C1.mono (c a b : ℝ) (i j : ℕ) :
    C1 (fun x y => c * ((x - a) ^ i * (y - b) ^ j))
      (fun x y => c * ((i : ℝ) * (x - a) ^ (i - 1) * (y - b) ^ j))
      (fun x y => c * ((x - a) ^ i * ((j : ℝ) * (y - b) ^ (j - 1)))) where
  der p := by
    have h1 : HasFDerivAt (fun p : ℝ × ℝ => p.1 - a) (ContinuousLinearMap.fst ℝ ℝ ℝ) p :=
      hasFDerivAt_fst.sub_const a
    have h2 : HasFDerivAt (fun p : ℝ × ℝ => p.2 - b) (ContinuousLinearMap.snd ℝ ℝ ℝ) p :=
      hasFDerivAt_snd.sub_const b
    refine (((h1.pow i).mul (h2.pow j)).const_mul c).congr_fderiv ?_
    ext
    · simp; left; ring
    · simp
  cx := by fun_prop
  cy := by fun_prop

/-- The primitive has the polynomial as its derivative in `x`. -/
theorem C1.poly (f : Poly2) (a b : ℝ) : ∃ Fy, C1 (fun x y => f.primX.eval (x - a) (y - b))
    (fun x y => f.eval (x - a) (y - b)) Fy := by
  induction f with
  | nil => exact ⟨_, C1.zero⟩
  | cons t f ih =>
    obtain ⟨Fy, h⟩ := ih
    have k := (C1.mono (t.1 / ((t.2.1 : ℝ) + 1)) a b (t.2.1 + 1) t.2.2).add h
    refine ⟨fun x y => t.1 / ((t.2.1 : ℝ) + 1) * ((x - a) ^ (t.2.1 + 1) *
      ((t.2.2 : ℝ) * (y - b) ^ (t.2.2 - 1))) + Fy x y, ?_⟩
    have e : (fun x y => Poly2.eval (t :: f) (x - a) (y - b)) = fun x y =>
        t.1 / ((t.2.1 : ℝ) + 1) * (((t.2.1 + 1 : ℕ) : ℝ) * (x - a) ^ (t.2.1 + 1 - 1) * (y - b) ^ t.2.2) +
          Poly2.eval f (x - a) (y - b) := by
      funext x y
      rw [eval_cons]
      have h0 : ((t.2.1 : ℝ) + 1) ≠ 0 := by positivity
      push_cast
      congr 1
      field_simp
    rw [e]
    have e2 : (fun x y => (Poly2.primX (t :: f)).eval (x - a) (y - b)) = fun x y =>
        t.1 / ((t.2.1 : ℝ) + 1) * ((x - a) ^ (t.2.1 + 1) * (y - b) ^ t.2.2) +
          (Poly2.primX f).eval (x - a) (y - b) := by
      funext x y
      simp only [Poly2.primX, List.map_cons, eval_cons]
    rw [e2]
    exact k

/-- A function of two variables is a polynomial with exponents in `D` and absolute coefficients adding up to at
most `C`. -/
def Rep (D : ℕ → ℕ → Prop) (C : ℝ) (h : ℝ → ℝ → ℝ) : Prop :=
  ∃ l : Poly2, (∀ t ∈ l, D t.2.1 t.2.2) ∧ (l.map fun t => |t.1|).sum ≤ C ∧ ∀ u v, h u v = l.eval u v

theorem absSum_nonneg (l : Poly2) : 0 ≤ (l.map fun t => |t.1|).sum :=
  List.sum_nonneg (by simp only [List.mem_map]; rintro _ ⟨t, _, rfl⟩; exact abs_nonneg _)

theorem Rep.nonneg {D : ℕ → ℕ → Prop} {C : ℝ} {h : ℝ → ℝ → ℝ} (r : Rep D C h) : 0 ≤ C := by
  obtain ⟨l, _, h, _⟩ := r; exact (absSum_nonneg l).trans h

theorem Rep.mono {D D' : ℕ → ℕ → Prop} {C C' : ℝ} {h : ℝ → ℝ → ℝ} (r : Rep D C h)
    (hD : ∀ i j, D i j → D' i j) (hC : C ≤ C') : Rep D' C' h := by
  obtain ⟨l, h1, h2, h3⟩ := r
  exact ⟨l, fun t ht => hD _ _ (h1 t ht), h2.trans hC, h3⟩

theorem Rep.term {D : ℕ → ℕ → Prop} (c : ℝ) {i j : ℕ} (hD : D i j) :
    Rep D |c| (fun u v => c * (u ^ i * v ^ j)) :=
  ⟨[(c, i, j)], by simpa using hD, by simp, fun u v => by simp [Poly2.eval]⟩

theorem Rep.zero {D : ℕ → ℕ → Prop} : Rep D 0 (fun _ _ => 0) := ⟨[], by simp, by simp, fun u v => rfl⟩

theorem Rep.add {D : ℕ → ℕ → Prop} {C C' : ℝ} {h h' : ℝ → ℝ → ℝ} (r : Rep D C h) (r' : Rep D C' h') :
    Rep D (C + C') (fun u v => h u v + h' u v) := by
  obtain ⟨l, h1, h2, h3⟩ := r
  obtain ⟨l', h1', h2', h3'⟩ := r'
  refine ⟨l ++ l', ?_, ?_, fun u v => by simp only [h3, h3', eval_append]⟩
  · intro t ht
    rcases List.mem_append.mp ht with ht | ht
    · exact h1 t ht
    · exact h1' t ht
  · rw [List.map_append, List.sum_append]; linarith

theorem Rep.smul {D : ℕ → ℕ → Prop} {C : ℝ} {h : ℝ → ℝ → ℝ} (c : ℝ) (r : Rep D C h) :
    Rep D (|c| * C) (fun u v => c * h u v) := by
  obtain ⟨l, h1, h2, h3⟩ := r
  refine ⟨l.map fun t => (c * t.1, t.2), ?_, ?_, ?_⟩
  · intro t ht
    obtain ⟨s, hs, rfl⟩ := List.mem_map.mp ht
    exact h1 s hs
  · rw [List.map_map]
    have : (l.map ((fun t : ℝ × ℕ × ℕ => |t.1|) ∘ fun t => (c * t.1, t.2))).sum =
        |c| * (l.map fun t => |t.1|).sum := by
      rw [← List.sum_map_mul_left]
      congr 1
      exact List.map_congr_left fun t _ => by simp [abs_mul]
    rw [this]
    exact mul_le_mul_of_nonneg_left h2 (abs_nonneg _)
  · intro u v
    simp only [h3]
    clear h1 h2 h3
    induction l with
    | nil => simp [Poly2.eval]
    | cons t l ih => rw [List.map_cons, eval_cons, eval_cons, mul_add, ih]; ring

theorem Rep.shift {D D' : ℕ → ℕ → Prop} {C : ℝ} {h : ℝ → ℝ → ℝ} (c : ℝ) (i j : ℕ)
    (hD : ∀ k l, D k l → D' (i + k) (j + l)) (r : Rep D C h) :
    Rep D' (|c| * C) (fun u v => c * (u ^ i * v ^ j) * h u v) := by
  obtain ⟨l, h1, h2, h3⟩ := r
  refine ⟨l.map fun t => (c * t.1, i + t.2.1, j + t.2.2), ?_, ?_, ?_⟩
  · intro t ht
    obtain ⟨s, hs, rfl⟩ := List.mem_map.mp ht
    exact hD _ _ (h1 s hs)
  · rw [List.map_map]
    have : (l.map ((fun t : ℝ × ℕ × ℕ => |t.1|) ∘ fun t => (c * t.1, i + t.2.1, j + t.2.2))).sum =
        |c| * (l.map fun t => |t.1|).sum := by
      rw [← List.sum_map_mul_left]
      congr 1
      exact List.map_congr_left fun t _ => by simp [abs_mul]
    rw [this]
    exact mul_le_mul_of_nonneg_left h2 (abs_nonneg _)
  · intro u v
    simp only [h3]
    clear h1 h2 h3
    induction l with
    | nil => simp [Poly2.eval]
    | cons t l ih => rw [List.map_cons, eval_cons, eval_cons, mul_add, ih, pow_add, pow_add]; ring

theorem Rep.mul {D D' D'' : ℕ → ℕ → Prop} {C C' : ℝ} {h h' : ℝ → ℝ → ℝ} (r : Rep D C h) (r' : Rep D' C' h')
    (hD : ∀ i j k l, D i j → D' k l → D'' (i + k) (j + l)) :
    Rep D'' (C * C') (fun u v => h u v * h' u v) := by
  obtain ⟨l, h1, h2, h3⟩ := r
  have key : Rep D'' ((l.map fun t => |t.1|).sum * C') (fun u v => l.eval u v * h' u v) := by
    clear h2 h3
    induction l with
    | nil => simpa [eval_nil] using Rep.zero
    | cons t l ih =>
      have a := Rep.shift t.1 t.2.1 t.2.2 (fun k m => hD _ _ k m (h1 t (by simp))) r'
      have b := a.add (ih fun s hs => h1 s (by simp [hs]))
      simp only [List.map_cons, List.sum_cons, eval_cons, add_mul]
      exact b
  obtain ⟨m, k1, k2, k3⟩ := key
  exact ⟨m, k1, k2.trans (mul_le_mul_of_nonneg_right h2 r'.nonneg), fun u v => by simp only [h3, k3]⟩

/-- Powers of a function whose exponents grow with a family of sets. -/
theorem Rep.pow {D : ℕ → ℕ → ℕ → Prop} (h0 : D 0 0 0)
    (hD : ∀ m n i j k l, D m i j → D n k l → D (m + n) (i + k) (j + l)) {C : ℝ} {h : ℝ → ℝ → ℝ}
    (r : Rep (D 1) C h) (n : ℕ) : Rep (D n) (C ^ n) (fun u v => h u v ^ n) := by
  induction n with
  | zero => simpa using Rep.term (D := D 0) 1 h0
  | succ n ih =>
    have := ih.mul r (D'' := D (n + 1)) (hD n 1)
    simpa only [pow_succ] using this

/-- Substitution of polynomial coordinates. -/
theorem Rep.comp {D : ℕ → ℕ → ℕ → Prop} (h0 : D 0 0 0)
    (hD : ∀ m n i j k l, D m i j → D n k l → D (m + n) (i + k) (j + l))
    (hm : ∀ m n i j, m ≤ n → D m i j → D n i j) {ρ : ℝ} {X Y : ℝ → ℝ → ℝ}
    (rX : Rep (D 1) ρ X) (rY : Rep (D 1) ρ Y) (f : Poly2) {d : ℕ} (hf : f.DegLE d) :
    Rep (D d) (f.size ρ) (fun u v => f.eval (X u v) (Y u v)) := by
  induction f with
  | nil => simpa [eval_nil, Poly2.size] using Rep.zero
  | cons t f ih =>
    have a := ((rX.pow h0 hD t.2.1).mul (rY.pow h0 hD t.2.2) (hD _ _)).smul t.1
    rw [← pow_add] at a
    have ht : t.2.1 + t.2.2 ≤ d := hf t (by simp)
    have b := (a.mono (fun i j => hm _ d i j ht) le_rfl).add (ih fun s hs => hf s (by simp [hs]))
    simp only [eval_cons, Poly2.size, List.map_cons, List.sum_cons]
    exact b

/-- Both exponents at most `n`. -/
def Box (n i j : ℕ) : Prop := i ≤ n ∧ j ≤ n
/-- Sum of the exponents at most `n`. -/
def Tot (n i j : ℕ) : Prop := i + j ≤ n

theorem Rep.comp_box {ρ : ℝ} {X Y : ℝ → ℝ → ℝ} (rX : Rep (Box 1) ρ X) (rY : Rep (Box 1) ρ Y) (f : Poly2)
    {d : ℕ} (hf : f.DegLE d) : Rep (Box d) (f.size ρ) (fun u v => f.eval (X u v) (Y u v)) :=
  Rep.comp ⟨le_rfl, le_rfl⟩ (fun _ _ _ _ _ _ h k => ⟨by have := h.1; have := k.1; omega,
    by have := h.2; have := k.2; omega⟩) (fun _ _ _ _ h k => ⟨k.1.trans h, k.2.trans h⟩) rX rY f hf

theorem Rep.comp_tot {ρ : ℝ} {X Y : ℝ → ℝ → ℝ} (rX : Rep (Tot 1) ρ X) (rY : Rep (Tot 1) ρ Y) (f : Poly2)
    {d : ℕ} (hf : f.DegLE d) : Rep (Tot d) (f.size ρ) (fun u v => f.eval (X u v) (Y u v)) :=
  Rep.comp le_rfl (fun _ _ _ _ _ _ h k => by simp only [Tot] at *; omega)
    (fun _ _ _ _ h k => by simp only [Tot] at *; omega) rX rY f hf

/-- A linear functional on functions of two variables, through its values on monomials: the error of a rule is
bounded by the error on monomials. -/
theorem Rep.bound {D : ℕ → ℕ → Prop} {C ε : ℝ} {h : ℝ → ℝ → ℝ} (r : Rep D C h) (Q I : (ℝ → ℝ → ℝ) → ℝ)
    (hQ : ∀ l : Poly2, Q (fun u v => l.eval u v) = (l.map fun t => t.1 * Q (fun u v => u ^ t.2.1 * v ^ t.2.2)).sum)
    (hI : ∀ l : Poly2, I (fun u v => l.eval u v) = (l.map fun t => t.1 * I (fun u v => u ^ t.2.1 * v ^ t.2.2)).sum)
    (he : 0 ≤ ε)
    (hm : ∀ i j, D i j → |Q (fun u v => u ^ i * v ^ j) - I (fun u v => u ^ i * v ^ j)| ≤ ε) :
    |Q h - I h| ≤ ε * C := by
  obtain ⟨l, h1, h2, h3⟩ := r
  have e : h = fun u v => l.eval u v := by funext u v; exact h3 u v
  rw [e, hQ, hI]
  refine le_trans ?_ (mul_le_mul_of_nonneg_left h2 he)
  clear h2 h3 e hQ hI
  induction l with
  | nil => simp
  | cons t l ih =>
    have a := ih fun s hs => h1 s (by simp [hs])
    have b := hm _ _ (h1 t (by simp))
    simp only [List.map_cons, List.sum_cons]
    have e : ∀ x y z w c : ℝ, c * x + y - (c * z + w) = c * (x - z) + (y - w) := by intros; ring
    rw [e]
    refine (abs_add_le _ _).trans ?_
    rw [abs_mul, mul_add]
    have := mul_le_mul_of_nonneg_left b (abs_nonneg t.1)
    linarith

theorem quadSum_poly {X : Type} (q : List (X × ℝ)) (U V : X → ℝ) (l : Poly2) :
    quadSum q (fun x => l.eval (U x) (V x)) =
      (l.map fun t => t.1 * quadSum q (fun x => U x ^ t.2.1 * V x ^ t.2.2)).sum := by
  induction l with
  | nil =>
    have : (fun x => Poly2.eval [] (U x) (V x)) = fun _ => (0 : ℝ) := by funext x; rfl
    rw [this]; simp [quadSum]
  | cons t l ih =>
    simp only [eval_cons, List.map_cons, List.sum_cons, ← ih]
    clear ih
    induction q with
    | nil => simp [quadSum]
    | cons a q ih => simp only [quadSum_cons, ih]; ring

/-- The double integral over the square `[-1, 1]²`. -/
noncomputable def sq (h : ℝ → ℝ → ℝ) : ℝ := ∫ u in (-1 : ℝ)..1, ∫ v in (-1 : ℝ)..1, h u v

theorem sq_mono (i j : ℕ) : sq (fun u v => u ^ i * v ^ j) = mom i * mom j := by
  unfold sq
  simp only [intervalIntegral.integral_const_mul, integral_mom, intervalIntegral.integral_mul_const]

theorem sq_poly (l : Poly2) : sq (fun u v => Poly2.eval l u v) =
    (l.map fun t => t.1 * sq (fun u v => u ^ t.2.1 * v ^ t.2.2)).sum := by
  induction l with
  | nil => simp [sq, eval_nil]
  | cons t l ih =>
    simp only [List.map_cons, List.sum_cons, ← ih, eval_cons]
    have c : Continuous fun p : ℝ × ℝ => Poly2.eval l p.1 p.2 := by
      clear ih
      induction l with
      | nil => simp only [eval_nil]; fun_prop
      | cons t l ih => simp only [eval_cons]; exact (by fun_prop : Continuous fun p : ℝ × ℝ =>
          t.1 * (p.1 ^ t.2.1 * p.2 ^ t.2.2)).add ih
    unfold sq
    have i1 : ∀ u : ℝ, ∫ v in (-1 : ℝ)..1, (t.1 * (u ^ t.2.1 * v ^ t.2.2) + Poly2.eval l u v) =
        (∫ v in (-1 : ℝ)..1, t.1 * (u ^ t.2.1 * v ^ t.2.2)) + ∫ v in (-1 : ℝ)..1, Poly2.eval l u v := by
      intro u
      refine intervalIntegral.integral_add (Continuous.intervalIntegrable (by fun_prop) _ _)
        (Continuous.intervalIntegrable ?_ _ _)
      exact c.comp (by fun_prop : Continuous fun v : ℝ => (u, v))
    simp only [i1]
    rw [intervalIntegral.integral_add]
    · simp only [intervalIntegral.integral_const_mul]
    · refine Continuous.intervalIntegrable ?_ _ _
      simp only [intervalIntegral.integral_const_mul]; fun_prop
    · refine Continuous.intervalIntegrable ?_ _ _
      exact intervalIntegral.continuous_parametric_intervalIntegral_of_continuous' (f := fun u v => Poly2.eval l u v)
        c (-1) 1

/-- Moments of the tensorised rule. -/
theorem square_mono (r : List (ℝ × ℝ)) (i j : ℕ) :
    quadSum (square r) (fun z => z.1 ^ i * z.2 ^ j) =
      quadSum r (fun x => x ^ i) * quadSum r (fun x => x ^ j) := by
  have inner : ∀ (r : List (ℝ × ℝ)) (q : ℝ × ℝ),
      quadSum (r.map fun qx => ((qx.1, q.1), qx.2 * q.2)) (fun z : ℝ × ℝ => z.1 ^ i * z.2 ^ j) =
      quadSum r (fun x => x ^ i) * (q.2 * q.1 ^ j) := by
    intro r q
    induction r with
    | nil => simp [quadSum]
    | cons a r ih => rw [List.map_cons, quadSum_cons, ih, quadSum_cons]; ring
  have outer : ∀ s : List (ℝ × ℝ),
      quadSum (s.flatMap fun qy => r.map fun qx => ((qx.1, qy.1), qx.2 * qy.2))
        (fun z : ℝ × ℝ => z.1 ^ i * z.2 ^ j) =
      quadSum r (fun x => x ^ i) * quadSum s (fun x => x ^ j) := by
    intro s
    induction s with
    | nil => simp [quadSum]
    | cons a s ih => rw [List.flatMap_cons, quadSum_append, ih, inner, quadSum_cons]; ring
  exact outer r

/-- Error of a tensorised rule. -/
theorem square_bound {r : List (ℝ × ℝ)} {n : ℕ}
    (hm : ∀ k ≤ n, |quadSum r (fun x => x ^ k) - mom k| ≤ 2 / 10 ^ 14) {C : ℝ} {h : ℝ → ℝ → ℝ}
    (hr : Rep (Box n) C h) : |quadSum (square r) (fun z => h z.1 z.2) - sq h| ≤ 1 / 10 ^ 13 * C := by
  refine hr.bound (fun h => quadSum (square r) (fun z => h z.1 z.2)) sq
    (fun l => quadSum_poly (square r) Prod.fst Prod.snd l) sq_poly (by norm_num) ?_
  intro i j hij
  simp only [square_mono, sq_mono]
  have a := hm i hij.1
  have b := hm j hij.2
  have c := mom_abs_le i
  have d := mom_abs_le j
  generalize quadSum r (fun x => x ^ i) = A at a ⊢
  generalize quadSum r (fun x => x ^ j) = B at b ⊢
  have e : A * B - mom i * mom j = (A - mom i) * (B - mom j) + (A - mom i) * mom j + mom i * (B - mom j) := by
    ring
  rw [e]
  have h1 := abs_add_le ((A - mom i) * (B - mom j) + (A - mom i) * mom j) (mom i * (B - mom j))
  have h2 := abs_add_le ((A - mom i) * (B - mom j)) ((A - mom i) * mom j)
  rw [abs_mul, abs_mul] at h2
  rw [abs_mul (mom i)] at h1
  have k1 := mul_le_mul a b (abs_nonneg _) (by norm_num)
  have k2 := mul_le_mul a d (abs_nonneg _) (by norm_num)
  have k3 := mul_le_mul c b (abs_nonneg _) (by norm_num)
  have : (2 : ℝ) / 10 ^ 14 * (2 / 10 ^ 14) + 2 / 10 ^ 14 * 2 + 2 * (2 / 10 ^ 14) ≤ 1 / 10 ^ 13 := by norm_num
  linarith

end Verif.PlaneIntegral
