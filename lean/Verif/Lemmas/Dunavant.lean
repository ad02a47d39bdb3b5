import Verif.Lemmas.TriRules
import Verif.Lemmas.DunavantTables
import Verif.Spec.Poly3
/-!
Moments of the Dunavant rules in barycentric coordinates.
-/
namespace Verif.PlaneIntegral
open Verif.Spec Verif.Quad

/-- `∫ (1-u-v)^i u^j v^k` over the reference triangle. -/
noncomputable def dirMom (i j k : ℕ) : ℝ :=
  (i.factorial : ℝ) * j.factorial * k.factorial / (i + j + k + 2).factorial

theorem eval_smul (c : ℝ) (a : Poly2) (u v : ℝ) :
    Poly2.eval (a.map fun t => (c * t.1, t.2)) u v = c * a.eval u v := by
  unfold Poly2.eval
  rw [List.map_map, ← List.sum_map_mul_left]
  congr 2
  funext t
  simp only [Function.comp]
  ring

theorem refTri_append (a b : Poly2) :
    refTri (fun u v => a.eval u v + b.eval u v) = refTri (fun u v => a.eval u v) + refTri (fun u v => b.eval u v) := by
  have h := refTri_poly (a ++ b)
  simp only [eval_append, List.map_append, List.sum_append, ← refTri_poly] at h
  exact h

theorem refTri_smul (c : ℝ) (a : Poly2) :
    refTri (fun u v => c * a.eval u v) = c * refTri (fun u v => a.eval u v) := by
  unfold refTri
  simp only [intervalIntegral.integral_const_mul]

/-- Barycentric monomials are polynomials of `u, v`. -/
theorem bary_poly (i j k : ℕ) : ∃ l : Poly2, ∀ u v, (1 - u - v) ^ i * u ^ j * v ^ k = l.eval u v := by
  have a : Rep (Tot 1) 3 (fun u v => 1 + (-1) * u + (-1) * v) := Rep.affine (by norm_num)
  have b : Rep (Tot 1) 1 (fun u v => 0 + 1 * u + 0 * v) := Rep.affine (by norm_num)
  have c : Rep (Tot 1) 1 (fun u v => 0 + 0 * u + 1 * v) := Rep.affine (by norm_num)
  have t : ∀ n m : ℕ, ∀ x y z w, Tot n x y → Tot m z w → (fun _ _ => True : ℕ → ℕ → Prop) (x + z) (y + w) :=
    fun _ _ _ _ _ _ _ _ => trivial
  obtain ⟨la, ha⟩ := a.poly
  obtain ⟨lb, hb⟩ := b.poly
  obtain ⟨lc, hc⟩ := c.poly
  have tr : ∀ {h : ℝ → ℝ → ℝ} {C : ℝ} {D : ℕ → ℕ → Prop}, Rep D C h → Rep (fun _ _ => True) C h :=
    fun r => r.mono (fun _ _ _ => trivial) le_rfl
  have pw : ∀ {h : ℝ → ℝ → ℝ} {C : ℝ}, Rep (fun _ _ => True) C h → ∀ n, ∃ C', Rep (fun _ _ => True) C' (fun u v => h u v ^ n) := by
    intro h C r n
    induction n with
    | zero =>
      refine ⟨1, ?_⟩
      have := Rep.term (D := fun _ _ => True) (i := 0) (j := 0) 1 trivial
      simpa using this
    | succ n ih =>
      obtain ⟨C', r'⟩ := ih
      refine ⟨C' * C, ?_⟩
      have := r'.mul r (D'' := fun _ _ => True) (fun _ _ _ _ _ _ => trivial)
      simpa [pow_succ] using this
  obtain ⟨_, ra⟩ := pw (tr a) i
  obtain ⟨_, rb⟩ := pw (tr b) j
  obtain ⟨_, rc⟩ := pw (tr c) k
  obtain ⟨l, hl⟩ := ((ra.mul rb (D'' := fun _ _ => True) (fun _ _ _ _ _ _ => trivial)).mul rc
    (D'' := fun _ _ => True) (fun _ _ _ _ _ _ => trivial)).poly
  refine ⟨l, fun u v => ?_⟩
  rw [← hl]
  ring_nf

theorem dirichlet (i j k : ℕ) : refTri (fun u v => (1 - u - v) ^ i * u ^ j * v ^ k) = dirMom i j k := by
  induction i generalizing j k with
  | zero =>
    simp only [pow_zero, one_mul]
    rw [refTri_mono]
    unfold triMom dirMom
    simp
  | succ i ih =>
    obtain ⟨l0, h0⟩ := bary_poly i j k
    obtain ⟨l1, h1⟩ := bary_poly i (j + 1) k
    obtain ⟨l2, h2⟩ := bary_poly i j (k + 1)
    have e : (fun u v : ℝ => (1 - u - v) ^ (i + 1) * u ^ j * v ^ k) = fun u v =>
        l0.eval u v + (Poly2.eval ((l1.map fun t => (-1 * t.1, t.2)) ++ (l2.map fun t => (-1 * t.1, t.2))) u v) := by
      funext u v
      rw [eval_append, eval_smul, eval_smul, ← h0, ← h1, ← h2]
      ring
    rw [e, refTri_append]
    simp only [eval_append]
    rw [refTri_append]
    simp only [eval_smul]
    rw [refTri_smul, refTri_smul]
    simp only [← h0, ← h1, ← h2, ih]
    unfold dirMom
    have f1 : i + (j + 1) + k + 2 = i + j + k + 2 + 1 := by omega
    have f2 : i + j + (k + 1) + 2 = i + j + k + 2 + 1 := by omega
    have f3 : i + 1 + j + k + 2 = i + j + k + 2 + 1 := by omega
    rw [f1, f2, f3, Nat.factorial_succ (i + j + k + 2), Nat.factorial_succ i, Nat.factorial_succ j,
      Nat.factorial_succ k]
    have n1 : ((i + j + k + 2).factorial : ℝ) ≠ 0 := by positivity
    have n2 : (i : ℝ) + j + k + 2 + 1 ≠ 0 := by positivity
    push_cast
    field_simp
    ring

theorem eval3_cons (t : ℝ × ℕ × ℕ × ℕ) (f : Poly3) (x y z : ℝ) : Poly3.eval (t :: f) x y z =
    t.1 * (x ^ t.2.1 * y ^ t.2.2.1 * z ^ t.2.2.2) + Poly3.eval f x y z := by simp [Poly3.eval]

theorem poly3_poly (h : Poly3) : ∃ l : Poly2, ∀ u v, h.eval (1 - u - v) u v = l.eval u v := by
  induction h with
  | nil => exact ⟨[], by simp [Poly3.eval, Poly2.eval]⟩
  | cons t h ih =>
    obtain ⟨l, hl⟩ := ih
    obtain ⟨m, hm⟩ := bary_poly t.2.1 t.2.2.1 t.2.2.2
    refine ⟨(m.map fun s => (t.1 * s.1, s.2)) ++ l, fun u v => ?_⟩
    rw [eval_append, eval_smul, ← hl, ← hm, eval3_cons]

theorem refTri_poly3 (h : Poly3) : refTri (fun u v => h.eval (1 - u - v) u v) =
    (h.map fun t => t.1 * dirMom t.2.1 t.2.2.1 t.2.2.2).sum := by
  induction h with
  | nil => simp [refTri, Poly3.eval]
  | cons t h ih =>
    obtain ⟨l, hl⟩ := poly3_poly h
    obtain ⟨m, hm⟩ := bary_poly t.2.1 t.2.2.1 t.2.2.2
    simp only [eval3_cons, List.map_cons, List.sum_cons, ← ih, hl, hm]
    have e := refTri_append (m.map fun s => (t.1 * s.1, s.2)) l
    simp only [eval_smul, refTri_smul] at e
    rw [e]
    simp only [← hm, dirichlet]

theorem quadSum_poly3 (r : List ((ℝ × ℝ × ℝ) × ℝ)) (h : Poly3) :
    quadSum r (fun q => h.eval q.1 q.2.1 q.2.2) =
      (h.map fun t => t.1 * quadSum r (fun q => q.1 ^ t.2.1 * q.2.1 ^ t.2.2.1 * q.2.2 ^ t.2.2.2)).sum := by
  induction h with
  | nil => simp [quadSum, Poly3.eval]
  | cons t h ih =>
    simp only [eval3_cons, List.map_cons, List.sum_cons, ← ih]
    simp only [quadSum, ← List.sum_map_mul_left]
    rw [← List.sum_map_add]
    congr 2
    funext q
    ring

/-- Error of a barycentric rule with accurate moments. -/
theorem bary_rule_bound {r : List ((ℝ × ℝ × ℝ) × ℝ)} {d : ℕ} {ε : ℝ}
    (hm : ∀ i j k, i + j + k ≤ d →
      |quadSum r (fun q => q.1 ^ i * q.2.1 ^ j * q.2.2 ^ k) - 2 * dirMom i j k| ≤ ε)
    (h : Poly3) (hd : h.DegLE d) :
    |quadSum r (fun q => h.eval q.1 q.2.1 q.2.2) - 2 * refTri (fun u v => h.eval (1 - u - v) u v)| ≤
      ε * h.size 1 := by
  rw [quadSum_poly3, refTri_poly3, ← List.sum_map_mul_left]
  refine (sum_abs_bound h _ _ (fun t => ε * (|t.1| * 1 ^ (t.2.1 + t.2.2.1 + t.2.2.2))) ?_).trans ?_
  · intro t ht
    have e : ∀ c Q D : ℝ, c * Q - 2 * (c * D) = c * (Q - 2 * D) := by intros; ring
    rw [e, abs_mul, one_pow, mul_one, mul_comm ε]
    exact mul_le_mul_of_nonneg_left (hm _ _ _ (hd t ht)) (abs_nonneg _)
  · rw [List.sum_map_mul_left]; rfl

/-! The tables. -/

/-- Barycentric points of an entry. -/
noncomputable def bpts (e : ℕ × (ℝ × ℝ × ℝ) × ℝ) : List ((ℝ × ℝ × ℝ) × ℝ) :=
  dunEntry (fun a b c => (a, b, c)) 1 e

theorem dunEntry_map {X : Type} (comb : ℝ → ℝ → ℝ → X) (A : ℝ) (e : ℕ × (ℝ × ℝ × ℝ) × ℝ) :
    dunEntry comb A e = (bpts e).map fun q => (comb q.1.1 q.1.2.1 q.1.2.2, A * q.2) := by
  unfold bpts dunEntry
  split <;> simp [mul_comm]

theorem dun_flatMap {X : Type} (comb : ℝ → ℝ → ℝ → X) (A : ℝ) (l : DunRule) :
    l.flatMap (dunEntry comb A) = (l.flatMap bpts).map fun q => (comb q.1.1 q.1.2.1 q.1.2.2, A * q.2) := by
  rw [List.map_flatMap]
  congr 1
  funext e
  exact dunEntry_map comb A e

/-- A point of the literal tables. -/
noncomputable def lit15 (q : (Int × Int × Int) × Int) : (ℝ × ℝ × ℝ) × ℝ :=
  (((q.1.1 : ℝ) / 10 ^ 15, (q.1.2.1 : ℝ) / 10 ^ 15, (q.1.2.2 : ℝ) / 10 ^ 15), (q.2 : ℝ) / 10 ^ 15)

theorem literal_bpts (l : List (ℕ × (Int × Int × Int) × Int)) :
    (literalDun l).flatMap bpts = (l.flatMap dunPts).map lit15 := by
  unfold literalDun
  rw [List.flatMap_map, List.map_flatMap]
  congr 1
  funext e
  obtain ⟨n, c, w⟩ := e
  unfold bpts dunEntry dunPts lit15
  dsimp only
  split <;> simp

theorem pow_sub_R {x y δ R : ℝ} (hR : 1 ≤ R) (hx : |x| ≤ R) (hy : |y| ≤ R) (h : |y - x| ≤ δ) (k : ℕ) :
    |y ^ k - x ^ k| ≤ k * δ * R ^ k := by
  have hδ : 0 ≤ δ := (abs_nonneg _).trans h
  induction k with
  | zero => simp
  | succ k ih =>
    have e : y ^ (k + 1) - x ^ (k + 1) = (y ^ k - x ^ k) * y + x ^ k * (y - x) := by ring
    rw [e]
    refine (abs_add_le _ _).trans ?_
    rw [abs_mul, abs_mul, abs_pow]
    have R0 : 0 ≤ R := by linarith
    have a := mul_le_mul ih hy (abs_nonneg _) (by positivity)
    have b := mul_le_mul (pow_le_pow_left₀ (abs_nonneg x) hx k) h (abs_nonneg _) (by positivity)
    have c : R ^ k * δ ≤ R ^ k * δ * R := le_mul_of_one_le_right (by positivity) hR
    push_cast
    calc _ ≤ k * δ * R ^ k * R + R ^ k * δ := add_le_add a b
      _ ≤ k * δ * R ^ k * R + R ^ k * δ * R := by linarith
      _ = _ := by ring

theorem abs_pow_R {x R : ℝ} (hx : |x| ≤ R) (k : ℕ) : |x ^ k| ≤ R ^ k := by
  rw [abs_pow]; exact pow_le_pow_left₀ (abs_nonneg x) hx k

theorem prod3_sub_R {x y z a b c δ R : ℝ} (hR : 1 ≤ R) (hx : |x| ≤ R) (hy : |y| ≤ R) (hz : |z| ≤ R) (ha : |a| ≤ R)
    (hb : |b| ≤ R) (hc : |c| ≤ R) (h1 : |a - x| ≤ δ) (h2 : |b - y| ≤ δ) (h3 : |c - z| ≤ δ) (i j k : ℕ) :
    |a ^ i * b ^ j * c ^ k - x ^ i * y ^ j * z ^ k| ≤ (i + j + k) * δ * R ^ (i + j + k) := by
  have hδ : 0 ≤ δ := (abs_nonneg _).trans h1
  have R0 : 0 ≤ R := by linarith
  have e : a ^ i * b ^ j * c ^ k - x ^ i * y ^ j * z ^ k =
      (a ^ i - x ^ i) * b ^ j * c ^ k + x ^ i * (b ^ j - y ^ j) * c ^ k + x ^ i * y ^ j * (c ^ k - z ^ k) := by ring
  rw [e]
  have m : ∀ {p q r P Q S : ℝ}, |p| ≤ P → |q| ≤ Q → |r| ≤ S → |p * q * r| ≤ P * Q * S := by
    intro p q r P Q S h1 h2 h3
    have P0 := (abs_nonneg _).trans h1
    have Q0 := (abs_nonneg _).trans h2
    rw [abs_mul, abs_mul]
    exact mul_le_mul (mul_le_mul h1 h2 (abs_nonneg _) P0) h3 (abs_nonneg _) (mul_nonneg P0 Q0)
  have k1 := m (pow_sub_R hR hx ha h1 i) (abs_pow_R hb j) (abs_pow_R hc k)
  have k2 := m (abs_pow_R hx i) (pow_sub_R hR hy hb h2 j) (abs_pow_R hc k)
  have k3 := m (abs_pow_R hx i) (abs_pow_R hy j) (pow_sub_R hR hz hc h3 k)
  refine (abs_add_le _ _).trans ((add_le_add_left (abs_add_le _ _) _).trans ?_)
  have f : (i + j + k : ℝ) * δ * R ^ (i + j + k) =
      i * δ * R ^ i * R ^ j * R ^ k + R ^ i * (j * δ * R ^ j) * R ^ k + R ^ i * R ^ j * (k * δ * R ^ k) := by
    rw [pow_add, pow_add]; ring
  rw [f]
  linarith

/-- Points of two rules close to each other. -/
def Near (x y : (ℝ × ℝ × ℝ) × ℝ) : Prop :=
  |y.1.1 - x.1.1| ≤ 2 * halfUlp ∧ |y.1.2.1 - x.1.2.1| ≤ 2 * halfUlp ∧ |y.1.2.2 - x.1.2.2| ≤ 2 * halfUlp ∧
    |y.2 - x.2| ≤ halfUlp * |x.2|

theorem near_bpts {s t : DunRule} (h : StoredDun s t) : List.Forall₂ Near (s.flatMap bpts) (t.flatMap bpts) := by
  unfold StoredDun at h
  induction h with
  | nil => exact List.Forall₂.nil
  | @cons x y s t hxy _ ih =>
    rw [List.flatMap_cons, List.flatMap_cons]
    refine List.rel_append ?_ ih
    obtain ⟨h0, h1, h2, h3, h4⟩ := hxy
    unfold bpts dunEntry
    rw [h0]
    dsimp only
    split <;> simp [Near, h1, h2, h3, h4]

theorem near_moment {s t : List ((ℝ × ℝ × ℝ) × ℝ)} (h : List.Forall₂ Near s t)
    (hn : ∀ e ∈ s, |e.1.1| ≤ 51 / 50 ∧ |e.1.2.1| ≤ 51 / 50 ∧ |e.1.2.2| ≤ 51 / 50) (i j k : ℕ) :
    |quadSum t (fun q => q.1 ^ i * q.2.1 ^ j * q.2.2 ^ k) - quadSum s (fun q => q.1 ^ i * q.2.1 ^ j * q.2.2 ^ k)| ≤
      ((2 * (i + j + k) + 1) * halfUlp * (103 / 100) ^ (i + j + k)) * (s.map fun e => |e.2|).sum := by
  induction h with
  | nil => simp [quadSum]
  | @cons x y s t hxy _ ih =>
    obtain ⟨h1, h2, h3, h4⟩ := hxy
    obtain ⟨n1, n2, n3⟩ := hn x (by simp)
    have ih' := ih (fun e he => hn e (by simp [he]))
    rw [quadSum_cons, quadSum_cons, List.map_cons, List.sum_cons]
    have hu : 2 * halfUlp ≤ 1 / 100 := by unfold halfUlp; norm_num
    have up := halfUlp_pos
    have w : ∀ {a b : ℝ}, |b - a| ≤ 2 * halfUlp → |a| ≤ 51 / 50 → |b| ≤ 103 / 100 := by
      intro a b h1 h2
      have := abs_add_le (b - a) a
      rw [sub_add_cancel] at this
      linarith
    have kk := prod3_sub_R (R := 103 / 100) (by norm_num) (n1.trans (by norm_num)) (n2.trans (by norm_num))
      (n3.trans (by norm_num)) (w h1 n1) (w h2 n2) (w h3 n3) h1 h2 h3 i j k
    have k0 : |y.1.1 ^ i * y.1.2.1 ^ j * y.1.2.2 ^ k| ≤ (103 / 100) ^ (i + j + k) := by
      rw [abs_mul, abs_mul, pow_add, pow_add]
      exact mul_le_mul (mul_le_mul (abs_pow_R (w h1 n1) i) (abs_pow_R (w h2 n2) j) (abs_nonneg _) (by positivity))
        (abs_pow_R (w h3 n3) k) (abs_nonneg _) (by positivity)
    generalize y.1.1 ^ i * y.1.2.1 ^ j * y.1.2.2 ^ k = Y at kk k0 ⊢
    generalize x.1.1 ^ i * x.1.2.1 ^ j * x.1.2.2 ^ k = X at kk ⊢
    have e : ∀ A B : ℝ, y.2 * Y + A - (x.2 * X + B) = (y.2 - x.2) * Y + x.2 * (Y - X) + (A - B) := by
      intro A B; ring
    rw [e]
    have a1 : |(y.2 - x.2) * Y| ≤ halfUlp * |x.2| * (103 / 100) ^ (i + j + k) := by
      rw [abs_mul]
      exact mul_le_mul h4 k0 (abs_nonneg _) (mul_nonneg up.le (abs_nonneg _))
    have a2 : |x.2 * (Y - X)| ≤ |x.2| * ((i + j + k) * (2 * halfUlp) * (103 / 100) ^ (i + j + k)) := by
      rw [abs_mul]
      exact mul_le_mul_of_nonneg_left kk (abs_nonneg _)
    refine (abs_add_le _ _).trans ?_
    have a3 := abs_add_le ((y.2 - x.2) * Y) (x.2 * (Y - X))
    generalize (103 / 100 : ℝ) ^ (i + j + k) = P at *
    nlinarith [a1, a2, a3, ih']

/-- Sign as a number. -/
def sg (b : Bool) : ℝ := bif b then -1 else 1

theorem sg_xor (a b : Bool) : sg (xor a b) = sg a * sg b := by cases a <;> cases b <;> simp [sg]

theorem sg_pow (a : Bool) (i : ℕ) : sg (a && Nat.beq (i % 2) 1) = sg a ^ i := by
  cases a with
  | false => simp [sg]
  | true =>
    rcases Nat.mod_two_eq_zero_or_one i with h | h
    · have : Even i := Nat.even_iff.mpr h
      simp only [sg, h, this.neg_one_pow, Bool.true_and, cond_true]
      rfl
    · have : Odd i := Nat.odd_iff.mpr h
      simp [sg, h, this.neg_one_pow]

theorem int_sg (z : ℤ) : (z : ℝ) = sg (isNeg z) * z.natAbs := by
  cases z with
  | ofNat n => simp [sg, isNeg]
  | negSucc n => rw [Int.natAbs_negSucc, Int.cast_negSucc]; simp [sg, isNeg]

theorem term_eq (e : (Int × Int × Int) × Int) (i j k : ℕ) :
    (e.2 : ℝ) * ((e.1.1 : ℝ) ^ i * (e.1.2.1 : ℝ) ^ j * (e.1.2.2 : ℝ) ^ k) = sg (dunSign e i j k) * dunMag e i j k := by
  unfold dunSign dunMag
  rw [sg_xor, sg_xor, sg_xor, sg_pow, sg_pow, sg_pow, int_sg e.2, int_sg e.1.1, int_sg e.1.2.1, int_sg e.1.2.2]
  push_cast
  rw [mul_pow, mul_pow, mul_pow]
  ring

theorem dunSum_foldl (neg : Bool) (t : List ((Int × Int × Int) × Int)) (i j k : ℕ) (s : ℕ) :
    t.foldl (fun s e => bif xor neg (dunSign e i j k) then s else s + dunMag e i j k) s =
      s + dunSum neg t i j k := by
  unfold dunSum
  induction t generalizing s with
  | nil => simp
  | cons e t ih =>
    rw [List.foldl_cons, List.foldl_cons, ih, ih (bif xor neg (dunSign e i j k) then 0 else 0 + dunMag e i j k)]
    cases xor neg (dunSign e i j k) <;> simp [add_assoc]

theorem dunSum_cons (neg : Bool) (e : (Int × Int × Int) × Int) (t : List ((Int × Int × Int) × Int)) (i j k : ℕ) :
    dunSum neg (e :: t) i j k = (bif xor neg (dunSign e i j k) then 0 else dunMag e i j k) + dunSum neg t i j k := by
  conv_lhs => unfold dunSum
  rw [List.foldl_cons, dunSum_foldl]
  cases xor neg (dunSign e i j k) <;> simp

theorem lit15_moment (t : List ((Int × Int × Int) × Int)) (i j k : ℕ) :
    quadSum (t.map lit15) (fun q => q.1 ^ i * q.2.1 ^ j * q.2.2 ^ k) =
      ((dunSum false t i j k : ℝ) - dunSum true t i j k) / 10 ^ (15 * (i + j + k + 1)) := by
  induction t with
  | nil => simp [quadSum, dunSum]
  | cons e t ih =>
    rw [List.map_cons, quadSum_cons, ih, dunSum_cons, dunSum_cons]
    have h : (10 : ℝ) ^ (15 * (i + j + k + 1)) = 10 ^ 15 * ((10 ^ 15) ^ i * (10 ^ 15) ^ j * (10 ^ 15) ^ k) := by
      rw [pow_mul]; ring
    have a : (lit15 e).2 * ((lit15 e).1.1 ^ i * (lit15 e).1.2.1 ^ j * (lit15 e).1.2.2 ^ k) =
        sg (dunSign e i j k) * dunMag e i j k / 10 ^ (15 * (i + j + k + 1)) := by
      rw [← term_eq, h]
      simp only [lit15, div_pow]
      field_simp
    rw [a, ← add_div]
    congr 1
    cases dunSign e i j k <;> simp [sg] <;> ring

theorem dun_moment_abs {p q a f D : ℕ} (hf : 0 < f) (hD : 0 < D)
    (h : Nat.ble (ndist (p * f) (q * f + 2 * (a * D)) * 100000000000000) (f * D) = true) :
    |((p : ℝ) - q) / D - 2 * ((a : ℝ) / f)| ≤ 1 / 10 ^ 14 := by
  have h' := Nat.le_of_ble_eq_true h
  have h2 := (Nat.cast_le (α := ℝ)).mpr h'
  push_cast [ndist_abs] at h2
  have f0 : (0 : ℝ) < f := by exact_mod_cast hf
  have D0 : (0 : ℝ) < D := by exact_mod_cast hD
  have e : ((p : ℝ) - q) / D - 2 * ((a : ℝ) / f) = (p * f - (q * f + 2 * (a * D))) / (f * D) := by
    field_simp; ring
  rw [e, abs_div, abs_of_pos (mul_pos f0 D0), div_le_div_iff₀ (mul_pos f0 D0) (by norm_num)]
  norm_num at h2 ⊢
  linarith

theorem dun_moment_of_ok {t : List ((Int × Int × Int) × Int)} {i j k : ℕ} (h : dunMomentOK t i j k = true) :
    |quadSum (t.map lit15) (fun q => q.1 ^ i * q.2.1 ^ j * q.2.2 ^ k) - 2 * dirMom i j k| ≤ 1 / 10 ^ 14 := by
  rw [lit15_moment]
  unfold dunMomentOK at h
  unfold dirMom
  simp only [factN_eq] at h
  have hp : 0 < 10 ^ (15 * (i + j + k + 1)) := Nat.pow_pos (by norm_num)
  have e : (10 : ℝ) ^ (15 * (i + j + k + 1)) = ((10 ^ (15 * (i + j + k + 1)) : ℕ) : ℝ) := by
    rw [Nat.cast_pow]; norm_num
  rw [e]
  generalize 10 ^ (15 * (i + j + k + 1)) = D at h hp ⊢
  have := dun_moment_abs (Nat.factorial_pos _) hp h
  push_cast at this ⊢
  exact this

/-- Symmetry of the moments of the literal tables. -/
theorem dun_symm {l : List (ℕ × (Int × Int × Int) × Int)} (h : l.all dunEntryOK = true) (i j k : ℕ) :
    (quadSum ((l.flatMap dunPts).map lit15) (fun q => q.1 ^ i * q.2.1 ^ j * q.2.2 ^ k) =
      quadSum ((l.flatMap dunPts).map lit15) (fun q => q.1 ^ j * q.2.1 ^ i * q.2.2 ^ k)) ∧
    (quadSum ((l.flatMap dunPts).map lit15) (fun q => q.1 ^ i * q.2.1 ^ j * q.2.2 ^ k) =
      quadSum ((l.flatMap dunPts).map lit15) (fun q => q.1 ^ i * q.2.1 ^ k * q.2.2 ^ j)) := by
  induction l with
  | nil => simp [quadSum]
  | cons e l ih =>
    rw [List.all_cons, Bool.and_eq_true] at h
    obtain ⟨h1, h2⟩ := h
    obtain ⟨i1, i2⟩ := ih h2
    simp only [List.flatMap_cons, List.map_append, quadSum_append]
    have key : (quadSum ((dunPts e).map lit15) (fun q => q.1 ^ i * q.2.1 ^ j * q.2.2 ^ k) =
        quadSum ((dunPts e).map lit15) (fun q => q.1 ^ j * q.2.1 ^ i * q.2.2 ^ k)) ∧
        (quadSum ((dunPts e).map lit15) (fun q => q.1 ^ i * q.2.1 ^ j * q.2.2 ^ k) =
        quadSum ((dunPts e).map lit15) (fun q => q.1 ^ i * q.2.1 ^ k * q.2.2 ^ j)) := by
      clear ih i1 i2
      obtain ⟨n, ⟨a, b, c⟩, w⟩ := e
      unfold dunEntryOK at h1
      unfold dunPts
      dsimp only at h1 ⊢
      split at h1
      · simp only [Bool.and_eq_true, beq_iff_eq] at h1
        obtain ⟨rfl, rfl⟩ := h1
        simp only [quadSum, List.map_cons, List.map_nil, List.sum_cons, List.sum_nil, lit15]
        constructor <;> ring
      · simp only [beq_iff_eq] at h1
        subst h1
        simp only [quadSum, List.map_cons, List.map_nil, List.sum_cons, List.sum_nil, lit15]
        constructor <;> ring
      · simp only [quadSum, List.map_cons, List.map_nil, List.sum_cons, List.sum_nil, lit15]
        constructor <;> ring
      · simp at h1
    exact ⟨by rw [key.1, i1], by rw [key.2, i2]⟩

theorem dirMom_symm (i j k : ℕ) : dirMom i j k = dirMom j i k ∧ dirMom i j k = dirMom i k j := by
  unfold dirMom
  constructor
  · rw [show j + i + k + 2 = i + j + k + 2 by omega]; ring
  · rw [show i + k + j + 2 = i + j + k + 2 by omega]; ring

/-- The literal tables have accurate moments. -/
theorem dun_literal {n : ℕ} (hn : n < 20) {i j k : ℕ} (hd : i + j + k ≤ n + 1) :
    |quadSum (((dunavantRules.getD n []).flatMap dunPts).map lit15) (fun q => q.1 ^ i * q.2.1 ^ j * q.2.2 ^ k) -
      2 * dirMom i j k| ≤ 1 / 10 ^ 14 := by
  have hm := dun_moments n hn
  have he := dun_entries n hn
  generalize dunavantRules.getD n [] = l at hm he ⊢
  simp only [dunMomentsOK, List.all_eq_true, List.mem_range] at hm
  have sorted : ∀ i j k, i ≤ j → j ≤ k → i + j + k ≤ n + 1 →
      |quadSum ((l.flatMap dunPts).map lit15) (fun q => q.1 ^ i * q.2.1 ^ j * q.2.2 ^ k) -
        2 * dirMom i j k| ≤ 1 / 10 ^ 14 := by
    intro i j k h1 h2 h3
    have := hm k (by omega) j (by omega) i (by omega)
    have b : Nat.ble (i + j + k) (n + 1) = true := Nat.ble_eq_true_of_le h3
    rw [b, cond_true] at this
    exact dun_moment_of_ok this
  have s12 := fun i j k => (dun_symm he i j k).1
  have s23 := fun i j k => (dun_symm he i j k).2
  have d12 := fun i j k => (dirMom_symm i j k).1
  have d23 := fun i j k => (dirMom_symm i j k).2
  rcases le_total i j with a | a <;> rcases le_total j k with b | b <;> rcases le_total i k with c | c
  · exact sorted i j k a b hd
  · exact sorted i j k a b hd
  · rw [s23, d23]; exact sorted i k j c b (by omega)
  · rw [s23, d23, s12, d12]; exact sorted k i j c a (by omega)
  · rw [s12, d12]; exact sorted j i k a c (by omega)
  · rw [s12, d12, s23, d23]; exact sorted j k i b c (by omega)
  · rw [s12, d12, s23, d23, s12, d12]; exact sorted k j i b a (by omega)
  · rw [s12, d12, s23, d23, s12, d12]; exact sorted k j i b a (by omega)

theorem dun_abs_weights (t : List ((Int × Int × Int) × Int)) (h : dunWeightsOK t = true) :
    ((t.map lit15).map fun e => |e.2|).sum ≤ 9 / 4 := by
  have h' := (Nat.cast_le (α := ℝ)).mpr (Nat.le_of_ble_eq_true h)
  have g : ∀ (t : List ((Int × Int × Int) × Int)) (s : ℕ), ((t.foldl (fun s e => s + e.2.natAbs) s : ℕ) : ℝ) =
      s + 10 ^ 15 * ((t.map lit15).map fun e => |e.2|).sum := by
    intro t
    induction t with
    | nil => intro s; simp
    | cons e t ih =>
      intro s
      rw [List.foldl_cons, ih, List.map_cons, List.map_cons, List.sum_cons]
      have : |(lit15 e).2| = (e.2.natAbs : ℝ) / 10 ^ 15 := by
        simp only [lit15]
        rw [abs_div, abs_of_pos (by positivity : (0 : ℝ) < 10 ^ 15), Nat.cast_natAbs, Int.cast_abs]
      rw [this]
      push_cast
      field_simp
      ring
  push_cast [g] at h'
  generalize ((t.map lit15).map fun e => |e.2|).sum = S at h' ⊢
  norm_num at h'
  linarith

theorem dun_coords {t : List ((Int × Int × Int) × Int)} (h : dunNodesOK t = true) :
    ∀ e ∈ t.map lit15, |e.1.1| ≤ 51 / 50 ∧ |e.1.2.1| ≤ 51 / 50 ∧ |e.1.2.2| ≤ 51 / 50 := by
  simp only [dunNodesOK, List.all_eq_true, Bool.and_eq_true] at h
  intro e he
  obtain ⟨q, hq, rfl⟩ := List.mem_map.mp he
  obtain ⟨h1, h2, h3⟩ := h q hq
  have g : ∀ z : ℤ, Nat.ble (50 * z.natAbs) (51 * 10 ^ 15) = true → |(z : ℝ) / 10 ^ 15| ≤ 51 / 50 := by
    intro z hz
    have h' := (Nat.cast_le (α := ℝ)).mpr (Nat.le_of_ble_eq_true hz)
    push_cast [Nat.cast_natAbs] at h'
    rw [abs_div, abs_of_pos (by positivity : (0 : ℝ) < 10 ^ 15), div_le_div_iff₀ (by positivity) (by norm_num)]
    linarith
  exact ⟨g _ h1, g _ h2, g _ h3⟩

theorem storedDun_getD {lits : List (List (ℕ × (Int × Int × Int) × Int))} {tab : List DunRule}
    (h : List.Forall₂ StoredDun (lits.map literalDun) tab) (n : ℕ) :
    StoredDun (literalDun (lits.getD n [])) (tab.getD n []) := by
  induction lits generalizing tab n with
  | nil => cases h; simp [literalDun, StoredDun]
  | cons l lits ih =>
    cases h with
    | cons h1 h2 =>
      cases n with
      | zero => simpa using h1
      | succ n => simpa using ih h2 n

/-- Moments of the stored rules. -/
theorem dun_bound {tab : List DunRule} (h : List.Forall₂ StoredDun (dunavantRules.map literalDun) tab) {n : ℕ}
    (hn : n < 20) {i j k : ℕ} (hd : i + j + k ≤ n + 1) :
    |quadSum ((tab.getD n []).flatMap bpts) (fun q => q.1 ^ i * q.2.1 ^ j * q.2.2 ^ k) - 2 * dirMom i j k| ≤
      4 / 10 ^ 14 := by
  have st := near_bpts (storedDun_getD h n)
  have lit := dun_literal hn hd
  have hw := dun_weights n hn
  have hc := dun_nodes n hn
  rw [literal_bpts] at st
  generalize (dunavantRules.getD n []).flatMap dunPts = t at st lit hw hc
  have nm := near_moment st (dun_coords hc) i j k
  have w := dun_abs_weights t hw
  have w0 : 0 ≤ ((t.map lit15).map fun e => |e.2|).sum :=
    List.sum_nonneg (by simp only [List.mem_map]; rintro _ ⟨_, _, rfl⟩; exact abs_nonneg _)
  have p : (103 / 100 : ℝ) ^ (i + j + k) ≤ 2 := by
    refine (pow_le_pow_right₀ (by norm_num) (show i + j + k ≤ 20 by omega)).trans ?_
    norm_num
  have p0 : (0 : ℝ) ≤ (103 / 100 : ℝ) ^ (i + j + k) := by positivity
  have dd : (2 * ((i : ℝ) + j + k) + 1) ≤ 41 := by
    have : i + j + k ≤ 20 := by omega
    have : ((i + j + k : ℕ) : ℝ) ≤ 20 := by exact_mod_cast this
    push_cast at this; linarith
  have up := halfUlp_pos
  have b1 : (2 * ((i : ℝ) + j + k) + 1) * halfUlp ≤ 41 * halfUlp := mul_le_mul_of_nonneg_right dd up.le
  have b2 : (2 * ((i : ℝ) + j + k) + 1) * halfUlp * (103 / 100) ^ (i + j + k) ≤ 41 * halfUlp * 2 :=
    mul_le_mul b1 p p0 (by positivity)
  have b3 := mul_le_mul b2 w w0 (by positivity)
  have u : 41 * halfUlp * 2 * (9 / 4) ≤ 21 / 10 ^ 15 := by unfold halfUlp; norm_num
  have e : ∀ A B C : ℝ, A - C = (A - B) + (B - C) := by intros; ring
  rw [e _ (quadSum (t.map lit15) (fun q => q.1 ^ i * q.2.1 ^ j * q.2.2 ^ k))]
  refine (abs_add_le _ _).trans ?_
  have c : (21 : ℝ) / 10 ^ 15 + 1 / 10 ^ 14 ≤ 4 / 10 ^ 14 := by norm_num
  linarith

end Verif.PlaneIntegral
