import Verif.Model.Arbq
import Verif.Lemmas.ArbqTables
import Verif.Lemmas.Dunavant
import Verif.Lemmas.SpaceIntegral
import Verif.Lemmas.Polyhedron
/-!
Moments of the stored tetrahedron rules.
-/
namespace Verif.Lemmas.Arbq
open Verif Verif.Spec Verif.Quad Verif.PlaneIntegral

/-- A point with integer coordinates in units of `10^(-20)`. -/
noncomputable def natPt (e : (ℕ × ℕ × ℕ) × ℕ) : (ℝ × ℝ × ℝ) × ℝ :=
  (((e.1.1 : ℝ) / 10 ^ 20, (e.1.2.1 : ℝ) / 10 ^ 20, (e.1.2.2 : ℝ) / 10 ^ 20), (e.2 : ℝ) / 10 ^ 33)

/-- Points of two rules close to each other. -/
def NearTet (x y : (ℝ × ℝ × ℝ) × ℝ) : Prop :=
  |y.1.1 - x.1.1| ≤ 12 * halfUlp ∧ |y.1.2.1 - x.1.2.1| ≤ 12 * halfUlp ∧ |y.1.2.2 - x.1.2.2| ≤ 12 * halfUlp ∧
    |y.2 - x.2| ≤ halfUlp * |x.2|

theorem mul_near {p q p' q' : ℝ} (hp : |p' - p| ≤ halfUlp) (hq : |q' - q| ≤ 2 * halfUlp) (h1 : |p| ≤ 63 / 100)
    (h2 : |q| ≤ 23 / 10) : |p' * q' - p * q| ≤ 37 / 10 * halfUlp := by
  have hu : halfUlp ≤ 1 / 100 := by unfold halfUlp; norm_num
  have up := halfUlp_pos
  have hq' : |q'| ≤ 24 / 10 := by
    have := abs_add_le (q' - q) q
    rw [sub_add_cancel] at this
    linarith
  have e : p' * q' - p * q = (p' - p) * q' + p * (q' - q) := by ring
  rw [e]
  refine (abs_add_le _ _).trans ?_
  rw [abs_mul, abs_mul]
  have a := mul_le_mul hp hq' (abs_nonneg _) up.le
  have b := mul_le_mul h1 hq (abs_nonneg _) (by norm_num)
  linarith

theorem div_near (n : ℤ) (D : ℕ) (hD : D = 10 ^ 28) : |(n : ℝ) / 10 ^ 48 - ((n / (D : ℤ) : ℤ) : ℝ) / 10 ^ 20| ≤ 1 / 10 ^ 20 := by
  subst hD
  have h1 := Int.mul_ediv_add_emod n (((10 ^ 28 : ℕ) : ℤ))
  have h2 := Int.emod_nonneg n (show (((10 ^ 28 : ℕ) : ℤ)) ≠ 0 by norm_num)
  have h3 := Int.emod_lt_of_pos n (show 0 < (((10 ^ 28 : ℕ) : ℤ)) by norm_num)
  generalize n / ((10 ^ 28 : ℕ) : ℤ) = q at *
  generalize n % ((10 ^ 28 : ℕ) : ℤ) = r at *
  have e : (n : ℝ) = 10 ^ 28 * q + r := by rw [← h1]; push_cast; ring
  have r0 : (0 : ℝ) ≤ r := by exact_mod_cast h2
  have r1 : (r : ℝ) < 10 ^ 28 := by exact_mod_cast h3
  have e2 : (n : ℝ) / 10 ^ 48 - (q : ℝ) / 10 ^ 20 = r / 10 ^ 48 := by rw [e]; field_simp; ring
  rw [e2, abs_of_nonneg (by positivity), div_le_div_iff₀ (by positivity) (by positivity)]
  nlinarith

theorem consts {c : ArbqConsts} (h : StoredNums literalConsts.toList c.toList) :
    |c.a00 - 0.5| ≤ halfUlp ∧ |c.a01 - -0.288675134594813| ≤ halfUlp ∧ |c.a02 - -0.204124145231932| ≤ halfUlp ∧
    |c.a11 - 0.577350269189626| ≤ halfUlp ∧ |c.a12 - -0.204124145231932| ≤ halfUlp ∧
    |c.a22 - 0.612372435695795| ≤ halfUlp ∧ |c.b0 - -1| ≤ halfUlp ∧ |c.b1 - -0.577350269189626| ≤ halfUlp ∧
    |c.b2 - -0.408248290463863| ≤ halfUlp ∧ |c.iv - 1.060660171779821| ≤ halfUlp := by
  unfold StoredNums ArbqConsts.toList literalConsts at h
  simp only [List.forall₂_cons, List.forall₂_nil_left_iff] at h
  obtain ⟨h1, h2, h3, h4, h5, h6, h7, h8, h9, h10, -⟩ := h
  refine ⟨?_, h2, h3, h4, h5, h6, ?_, h8, h9, h10⟩
  · convert h1 using 3; norm_num
  · convert h7 using 3; norm_num

theorem point_near {c : ArbqConsts} (hc : StoredNums literalConsts.toList c.toList)
    {e : (ℤ × ℤ × ℤ) × ℕ} {n : (ℕ × ℕ × ℕ) × ℕ} {y : (ℝ × ℝ × ℝ) × ℝ}
    (hn : arbqPt e = (((n.1.1 : ℤ), (n.1.2.1 : ℤ), (n.1.2.2 : ℤ)), n.2))
    (hb : 10 * e.1.1.natAbs ≤ 13 * 10 ^ 33 ∧ 10 * e.1.2.1.natAbs ≤ 13 * 10 ^ 33 ∧ 10 * e.1.2.2.natAbs ≤ 13 * 10 ^ 33)
    (hy : |y.1.1 - (e.1.1 : ℝ) / 10 ^ 33| ≤ halfUlp ∧ |y.1.2.1 - (e.1.2.1 : ℝ) / 10 ^ 33| ≤ halfUlp ∧
      |y.1.2.2 - (e.1.2.2 : ℝ) / 10 ^ 33| ≤ halfUlp ∧ |y.2 - (e.2 : ℝ) / 10 ^ 33| ≤ halfUlp * |(e.2 : ℝ) / 10 ^ 33|) :
    NearTet (natPt n) (c.toRef y.1, y.2) := by
  obtain ⟨c1, c2, c3, c4, c5, c6, c7, c8, c9, -⟩ := consts hc
  obtain ⟨y1, y2, y3, y4⟩ := hy
  obtain ⟨⟨X, Y, Z⟩, W⟩ := e
  obtain ⟨⟨A, B, C⟩, W'⟩ := n
  simp only [arbqPt, Prod.mk.injEq] at hn
  obtain ⟨⟨n1, n2, n3⟩, n4⟩ := hn
  dsimp only at hb y1 y2 y3 y4
  have up := halfUlp_pos
  have tiny : (1 : ℝ) / 10 ^ 20 ≤ 1 / 10 * halfUlp := by unfold halfUlp; norm_num
  have box : ∀ V : ℤ, 10 * V.natAbs ≤ 13 * 10 ^ 33 → |(V : ℝ) / 10 ^ 33| ≤ 13 / 10 := by
    intro V hV
    have : (10 : ℝ) * |(V : ℝ)| ≤ 13 * 10 ^ 33 := by
      rw [← Int.cast_abs, Int.abs_eq_natAbs]; exact_mod_cast hV
    rw [abs_div, abs_of_pos (show (0 : ℝ) < 10 ^ 33 by positivity), div_le_div_iff₀ (by positivity) (by norm_num)]
    linarith
  have bx := box X hb.1
  have by' := box Y hb.2.1
  have bz := box Z hb.2.2
  have near : ∀ {a b a' b' : ℝ}, |a' - a| ≤ halfUlp → |b' - b| ≤ halfUlp → |(a' - b') - (a - b)| ≤ 2 * halfUlp := by
    intro a b a' b' h1 h2
    rw [show a' - b' - (a - b) = (a' - a) - (b' - b) by ring]
    refine (abs_sub _ _).trans ?_
    linarith
  have qx := near y1 c7
  have qy := near y2 c8
  have qz := near y3 c9
  have sz : ∀ {a b : ℝ}, |a| ≤ 13 / 10 → |b| ≤ 1 → |a - b| ≤ 23 / 10 := by
    intro a b h1 h2; refine (abs_sub _ _).trans ?_; linarith
  have sx := sz bx (b := -1) (by norm_num)
  have sy := sz by' (b := -0.577350269189626) (by norm_num [abs_le])
  have sz' := sz bz (b := -0.408248290463863) (by norm_num [abs_le])
  have t00 := mul_near c1 qx (by norm_num [abs_le]) sx
  have t01 := mul_near c2 qy (by norm_num [abs_le]) sy
  have t02 := mul_near c3 qz (by norm_num [abs_le]) sz'
  have t11 := mul_near c4 qy (by norm_num [abs_le]) sy
  have t12 := mul_near c5 qz (by norm_num [abs_le]) sz'
  have t22 := mul_near c6 qz (by norm_num [abs_le]) sz'
  have d1 := div_near (500000000000000 * (X + 10 ^ 33) - 288675134594813 * (Y + 577350269189626 * 10 ^ 18) -
      204124145231932 * (Z + 408248290463863 * 10 ^ 18)) (10 ^ 28) rfl
  have d2 := div_near (577350269189626 * (Y + 577350269189626 * 10 ^ 18) -
      204124145231932 * (Z + 408248290463863 * 10 ^ 18)) (10 ^ 28) rfl
  have d3 := div_near (612372435695795 * (Z + 408248290463863 * 10 ^ 18)) (10 ^ 28) rfl
  rw [show (((10 ^ 28 : ℕ) : ℤ)) = 10 ^ 28 by norm_num] at d1 d2 d3
  rw [n1] at d1
  rw [n2] at d2
  rw [n3] at d3
  push_cast at d1 d2 d3
  have e1 : (500000000000000 * ((X : ℝ) + 1000000000000000000000000000000000) - 288675134594813 * ((Y : ℝ) + 577350269189626000000000000000000) -
      204124145231932 * ((Z : ℝ) + 408248290463863000000000000000000)) / 10 ^ 48 = 0.5 * ((X : ℝ) / 10 ^ 33 - -1) +
      -0.288675134594813 * ((Y : ℝ) / 10 ^ 33 - -0.577350269189626) + -0.204124145231932 * ((Z : ℝ) / 10 ^ 33 - -0.408248290463863) := by
    ring
  have e2 : (577350269189626 * ((Y : ℝ) + 577350269189626000000000000000000) -
      204124145231932 * ((Z : ℝ) + 408248290463863000000000000000000)) / 10 ^ 48 =
      0.577350269189626 * ((Y : ℝ) / 10 ^ 33 - -0.577350269189626) + -0.204124145231932 * ((Z : ℝ) / 10 ^ 33 - -0.408248290463863) := by
    ring
  have e3 : (612372435695795 * ((Z : ℝ) + 408248290463863000000000000000000)) / 10 ^ 48 =
      0.612372435695795 * ((Z : ℝ) / 10 ^ 33 - -0.408248290463863) := by ring
  rw [e1] at d1
  rw [e2] at d2
  rw [e3] at d3
  refine ⟨?_, ?_, ?_, ?_⟩
  · simp only [natPt, ArbqConsts.toRef]
    rw [abs_le] at *
    constructor <;> linarith [t00.1, t00.2, t01.1, t01.2, t02.1, t02.2, d1.1, d1.2]
  · simp only [natPt, ArbqConsts.toRef]
    rw [abs_le] at *
    constructor <;> linarith [t11.1, t11.2, t12.1, t12.2, d2.1, d2.2]
  · simp only [natPt, ArbqConsts.toRef]
    rw [abs_le] at *
    constructor <;> linarith [t22.1, t22.2, d3.1, d3.2]
  · simp only [natPt]
    rw [← n4]; exact y4

theorem near_list {c : ArbqConsts} (hc : StoredNums literalConsts.toList c.toList)
    {lits : List ((ℤ × ℤ × ℤ) × ℕ)} {nats : List ((ℕ × ℕ × ℕ) × ℕ)} {r : TetRule}
    (hn : lits.map arbqPt = tetCast nats) (hb : tetBoxOK lits = true) (hr : StoredTet (literalTet lits) r) :
    List.Forall₂ NearTet (nats.map natPt) (r.map fun e => (c.toRef e.1, e.2)) := by
  unfold StoredTet literalTet at hr
  induction lits generalizing nats r with
  | nil =>
    cases nats with
    | nil => cases hr; exact List.Forall₂.nil
    | cons => simp [tetCast] at hn
  | cons e lits ih =>
    cases nats with
    | nil => simp [tetCast] at hn
    | cons n nats =>
      cases hr with
      | cons h1 h2 =>
        simp only [tetCast, List.map_cons, List.cons.injEq] at hn
        simp only [tetBoxOK, List.all_cons, Bool.and_eq_true] at hb
        refine List.Forall₂.cons (point_near hc hn.1 ⟨?_, ?_, ?_⟩ h1) (ih hn.2 hb.2 h2)
        · exact Nat.le_of_ble_eq_true hb.1.1
        · exact Nat.le_of_ble_eq_true hb.1.2.1
        · exact Nat.le_of_ble_eq_true hb.1.2.2

theorem near_moment3 {s t : List ((ℝ × ℝ × ℝ) × ℝ)} (h : List.Forall₂ NearTet s t)
    (hn : ∀ e ∈ s, (0 ≤ e.1.1 ∧ e.1.1 ≤ 1) ∧ (0 ≤ e.1.2.1 ∧ e.1.2.1 ≤ 1) ∧ (0 ≤ e.1.2.2 ∧ e.1.2.2 ≤ 1) ∧ 0 ≤ e.2) (i j k : ℕ) :
    |quadSum t (fun q => q.1 ^ i * q.2.1 ^ j * q.2.2 ^ k) - quadSum s (fun q => q.1 ^ i * q.2.1 ^ j * q.2.2 ^ k)| ≤
      ((12 * (i + j + k) + 1) * halfUlp * (1001 / 1000) ^ (i + j + k)) * (s.map fun e => e.2).sum := by
  induction h with
  | nil => simp [quadSum]
  | @cons x y s t hxy _ ih =>
    obtain ⟨h1, h2, h3, h4⟩ := hxy
    obtain ⟨n1, n2, n3, n4⟩ := hn x (by simp)
    have ih' := ih (fun e he => hn e (by simp [he]))
    rw [quadSum_cons, quadSum_cons, List.map_cons, List.sum_cons]
    have hu : 12 * halfUlp ≤ 1 / 1000 := by unfold halfUlp; norm_num
    have up := halfUlp_pos
    have a0 : ∀ {a : ℝ}, 0 ≤ a ∧ a ≤ 1 → |a| ≤ 1 := fun h => by rw [abs_of_nonneg h.1]; exact h.2
    have w : ∀ {a b : ℝ}, |b - a| ≤ 12 * halfUlp → |a| ≤ 1 → |b| ≤ 1001 / 1000 := by
      intro a b h1 h2
      have := abs_add_le (b - a) a
      rw [sub_add_cancel] at this
      linarith
    have kk := prod3_sub_R (R := 1001 / 1000) (by norm_num) ((a0 n1).trans (by norm_num)) ((a0 n2).trans (by norm_num))
      ((a0 n3).trans (by norm_num)) (w h1 (a0 n1)) (w h2 (a0 n2)) (w h3 (a0 n3)) h1 h2 h3 i j k
    have k0 : |y.1.1 ^ i * y.1.2.1 ^ j * y.1.2.2 ^ k| ≤ (1001 / 1000) ^ (i + j + k) := by
      rw [abs_mul, abs_mul, pow_add, pow_add]
      exact mul_le_mul (mul_le_mul (abs_pow_R (w h1 (a0 n1)) i) (abs_pow_R (w h2 (a0 n2)) j) (abs_nonneg _) (by positivity))
        (abs_pow_R (w h3 (a0 n3)) k) (abs_nonneg _) (by positivity)
    generalize y.1.1 ^ i * y.1.2.1 ^ j * y.1.2.2 ^ k = Y at kk k0 ⊢
    generalize x.1.1 ^ i * x.1.2.1 ^ j * x.1.2.2 ^ k = X at kk ⊢
    have e : ∀ A B : ℝ, y.2 * Y + A - (x.2 * X + B) = (y.2 - x.2) * Y + x.2 * (Y - X) + (A - B) := by
      intro A B; ring
    rw [e]
    rw [abs_of_nonneg n4] at h4
    have a1 : |(y.2 - x.2) * Y| ≤ halfUlp * x.2 * (1001 / 1000) ^ (i + j + k) := by
      rw [abs_mul]
      exact mul_le_mul h4 k0 (abs_nonneg _) (mul_nonneg up.le n4)
    have a2 : |x.2 * (Y - X)| ≤ x.2 * ((i + j + k) * (12 * halfUlp) * (1001 / 1000) ^ (i + j + k)) := by
      rw [abs_mul, abs_of_nonneg n4]
      exact mul_le_mul_of_nonneg_left kk n4
    refine (abs_add_le _ _).trans ?_
    have a3 := abs_add_le ((y.2 - x.2) * Y) (x.2 * (Y - X))
    generalize (1001 / 1000 : ℝ) ^ (i + j + k) = P at *
    nlinarith [a1, a2, a3, ih']

theorem tetSum_eq (t : List ((ℕ × ℕ × ℕ) × ℕ)) (i j k : ℕ) :
    tetSum t i j k = (t.map fun e => e.2 * (e.1.1 ^ i * e.1.2.1 ^ j * e.1.2.2 ^ k)).sum := by
  have : ∀ a : ℕ, t.foldl (fun s e => s + e.2 * (e.1.1 ^ i * e.1.2.1 ^ j * e.1.2.2 ^ k)) a =
      a + (t.map fun e => e.2 * (e.1.1 ^ i * e.1.2.1 ^ j * e.1.2.2 ^ k)).sum := by
    induction t with
    | nil => simp
    | cons e t ih => intro a; rw [List.foldl_cons, ih, List.map_cons, List.sum_cons]; omega
  rw [tetSum, this]; omega

theorem natPt_moment (t : List ((ℕ × ℕ × ℕ) × ℕ)) (i j k : ℕ) :
    quadSum (t.map natPt) (fun q => q.1 ^ i * q.2.1 ^ j * q.2.2 ^ k) =
      (tetSum t i j k : ℝ) / (10 ^ 33 * 10 ^ (20 * (i + j + k))) := by
  rw [tetSum_eq]
  induction t with
  | nil => simp [quadSum]
  | cons e t ih =>
    rw [List.map_cons, quadSum_cons, ih, List.map_cons, List.sum_cons]
    push_cast
    simp only [natPt]
    have h : (10 : ℝ) ^ (20 * (i + j + k)) = (10 ^ 20) ^ i * (10 ^ 20) ^ j * (10 ^ 20) ^ k := by
      rw [pow_mul, ← pow_add, ← pow_add]
    rw [h, div_pow, div_pow, div_pow, add_div, div_mul_div_comm, div_mul_div_comm, div_mul_div_comm]

theorem natPt_weights (t : List ((ℕ × ℕ × ℕ) × ℕ)) : ((t.map natPt).map fun e => e.2).sum = (tetSum t 0 0 0 : ℝ) / 10 ^ 33 := by
  have := natPt_moment t 0 0 0
  simpa [quadSum] using this

/-- `i! j! k! / (i + j + k + 3)!`. -/
noncomputable def tetMom (i j k : ℕ) : ℝ := (i.factorial : ℝ) * j.factorial * k.factorial / (i + j + k + 3).factorial

theorem tetMom_le (i j k : ℕ) : |6 * tetMom i j k| ≤ 1 := by
  have h1 := Nat.factorial_mul_factorial_dvd_factorial_add i j
  have h2 := Nat.factorial_mul_factorial_dvd_factorial_add (i + j) k
  have h3 := Nat.factorial_mul_factorial_dvd_factorial_add (i + j + k) 3
  have h4 : (Nat.factorial i * Nat.factorial j * Nat.factorial k) * Nat.factorial 3 ∣ (i + j + k + 3).factorial :=
    (Nat.mul_dvd_mul ((Nat.mul_dvd_mul h1 (dvd_refl _)).trans h2) (dvd_refl _)).trans h3
  have h5 := Nat.le_of_dvd (Nat.factorial_pos _) h4
  have h6 : (i.factorial : ℝ) * j.factorial * k.factorial * 6 ≤ (i + j + k + 3).factorial := by
    have : (Nat.factorial 3) = 6 := rfl
    rw [this] at h5
    exact_mod_cast h5
  have p : (0 : ℝ) < (i + j + k + 3).factorial := by exact_mod_cast Nat.factorial_pos _
  unfold tetMom
  rw [abs_of_nonneg (by positivity), ← mul_div_assoc, div_le_one p]
  linarith

theorem nat_moment {t : List ((ℕ × ℕ × ℕ) × ℕ)} {W i j k : ℕ} (hW : tetSum t 0 0 0 = W) (hW0 : 0 < W)
    (h : tetMomentOK t W i j k = true) :
    |quadSum (t.map natPt) (fun q => q.1 ^ i * q.2.1 ^ j * q.2.2 ^ k) / ((t.map natPt).map fun e => e.2).sum -
      6 * tetMom i j k| ≤ 1 / 500000000000000 := by
  rw [natPt_moment, natPt_weights, hW]
  unfold tetMomentOK at h
  have hp : 0 < W * 10 ^ (20 * (i + j + k)) := Nat.mul_pos hW0 (Nat.pow_pos (by norm_num))
  have hf : 0 < factN (i + j + k + 3) := by rw [factN_eq]; exact Nat.factorial_pos _
  have m : 6 * tetMom i j k = ((6 * (factN i * factN j * factN k) : ℕ) : ℝ) / (factN (i + j + k + 3) : ℕ) := by
    unfold tetMom; simp only [factN_eq]; push_cast; ring
  have e : (tetSum t i j k : ℝ) / (10 ^ 33 * 10 ^ (20 * (i + j + k))) / ((W : ℝ) / 10 ^ 33) =
      (tetSum t i j k : ℝ) / ((W * 10 ^ (20 * (i + j + k)) : ℕ) : ℝ) := by
    have w : (W : ℝ) ≠ 0 := by exact_mod_cast hW0.ne'
    push_cast; field_simp
  rw [m, e]
  have h1 := (Nat.cast_le (α := ℝ)).mpr (Nat.le_of_ble_eq_true h)
  rw [Nat.cast_mul, ndist_abs] at h1
  generalize W * 10 ^ (20 * (i + j + k)) = D at *
  generalize factN (i + j + k + 3) = f at *
  generalize 6 * (factN i * factN j * factN k) = a at *
  generalize tetSum t i j k = s at *
  push_cast at h1
  have hf' : (0 : ℝ) < f := by exact_mod_cast hf
  have hD' : (0 : ℝ) < D := by exact_mod_cast hp
  have e : (s : ℝ) / D - (a : ℝ) / f = (s * f - a * D) / (f * D) := by field_simp
  rw [e, abs_div, abs_of_pos (mul_pos hf' hD'), div_le_div_iff₀ (mul_pos hf' hD') (by norm_num), one_mul]
  exact h1

theorem nat_nodes {t : List ((ℕ × ℕ × ℕ) × ℕ)} (h : tetNodesOK t = true) : ∀ e ∈ t.map natPt,
    (1 / 10 ^ 6 ≤ e.1.1 ∧ 1 / 10 ^ 6 ≤ e.1.2.1 ∧ 1 / 10 ^ 6 ≤ e.1.2.2 ∧ e.1.1 + e.1.2.1 + e.1.2.2 ≤ 1 - 1 / 10 ^ 6) ∧ 0 < e.2 := by
  simp only [tetNodesOK, List.all_eq_true, Bool.and_eq_true] at h
  intro e he
  obtain ⟨z, hz, rfl⟩ := List.mem_map.1 he
  obtain ⟨h1, h2, h3, h4, h5⟩ := h z hz
  have c1 := (Nat.cast_le (α := ℝ)).mpr (Nat.le_of_ble_eq_true h1)
  have c2 := (Nat.cast_le (α := ℝ)).mpr (Nat.le_of_ble_eq_true h2)
  have c3 := (Nat.cast_le (α := ℝ)).mpr (Nat.le_of_ble_eq_true h3)
  have c4 := (Nat.cast_le (α := ℝ)).mpr (Nat.le_of_ble_eq_true h4)
  have c5 := (Nat.cast_le (α := ℝ)).mpr (Nat.le_of_ble_eq_true h5)
  push_cast at c1 c2 c3 c4 c5
  simp only [natPt]
  have key : ∀ {x : ℝ}, (100000000000000 : ℝ) ≤ x → 1 / 10 ^ 6 ≤ x / 10 ^ 20 := by
    intro x hx; rw [div_le_div_iff₀ (by positivity) (by positivity)]; linarith
  refine ⟨⟨key c1, key c2, key c3, ?_⟩, by positivity⟩
  rw [← add_div, ← add_div, div_le_iff₀ (by positivity)]
  norm_num at c4 ⊢
  linarith

/-- Quotients of nearby moments. -/
theorem div_sub {M M' W W' E η : ℝ} (hW : 0 < W) (hM : |M| ≤ W) (h1 : |M' - M| ≤ E * W) (h2 : |W' - W| ≤ η * W)
    (hη : η ≤ 1 / 1000) (hE : 0 ≤ E) (h0 : 0 ≤ η) : |M' / W' - M / W| ≤ (E + η) * (1001 / 1000 + 1 / 100000) := by
  have hW' : 999 / 1000 * W ≤ W' := by have := (abs_le.1 h2).1; nlinarith
  have hW0 : 0 < W' := by nlinarith
  have e : M' / W' - M / W = ((M' - M) * W + M * (W - W')) / (W' * W) := by field_simp; ring
  rw [e, abs_div, abs_of_pos (mul_pos hW0 hW), div_le_iff₀ (mul_pos hW0 hW)]
  refine (abs_add_le _ _).trans ?_
  rw [abs_mul, abs_mul, abs_of_pos hW, abs_sub_comm W W']
  have a := mul_le_mul_of_nonneg_right h1 hW.le
  have b := mul_le_mul hM h2 (abs_nonneg _) hW.le
  have c : (E + η) * W * W ≤ (E + η) * (1001 / 1000 + 1 / 100000) * (W' * W) := by
    have : W * W ≤ (1001 / 1000 + 1 / 100000) * (W' * W) := by nlinarith [mul_le_mul_of_nonneg_right hW' hW.le]
    have := mul_le_mul_of_nonneg_left this (add_nonneg hE h0)
    nlinarith
  nlinarith

theorem storedTet_getD {lits : List (List ((ℤ × ℤ × ℤ) × ℕ))} {tab : List TetRule}
    (h : List.Forall₂ StoredTet (lits.map literalTet) tab) (n : ℕ) :
    StoredTet (literalTet (lits.getD n [])) (tab.getD n []) := by
  induction lits generalizing tab n with
  | nil => cases h; simp [literalTet, StoredTet]
  | cons l lits ih =>
    cases h with
    | cons h1 h2 =>
      cases n with
      | zero => simpa using h1
      | succ n => simpa using ih h2 n

theorem arbq_moments : ∀ n < 15, tetMomentsOK (arbqNat.getD n []) (arbqW.getD n 0) (n + 1) = true := by
  intro n hn
  interval_cases n
  · exact arbq_moments1
  · exact arbq_moments2
  · exact arbq_moments3
  · exact arbq_moments4
  · exact arbq_moments5
  · exact arbq_moments6
  · exact arbq_moments7
  · exact arbq_moments8
  · exact arbq_moments9
  · exact arbq_moments10
  · exact arbq_moments11
  · exact arbq_moments12
  · exact arbq_moments13
  · exact arbq_moments14
  · exact arbq_moments15

theorem arbqW_pos : ∀ n < 15, 0 < arbqW.getD n 0 := by decide +kernel

section tables
variable {tab : List TetRule} (h : List.Forall₂ StoredTet (arbqRules.map literalTet) tab) {c : ArbqConsts}
  (hc : StoredNums literalConsts.toList c.toList) {n : ℕ} (hn : n < 15)
include h hc hn

theorem near_table : List.Forall₂ NearTet ((arbqNat.getD n []).map natPt)
    ((tab.getD n []).map fun e => (c.toRef e.1, e.2)) :=
  near_list hc (arbq_nat n hn) (arbq_box n hn) (storedTet_getD h n)

/-- The moments of the stored rule. -/
theorem table_moment {i j k : ℕ} (hijk : i + j + k ≤ n + 1) :
    |quadSum ((tab.getD n []).map fun e => (c.toRef e.1, e.2)) (fun q => q.1 ^ i * q.2.1 ^ j * q.2.2 ^ k) /
      ((tab.getD n []).map Prod.snd).sum - 6 * tetMom i j k| ≤ 3 / 10 ^ 14 := by
  have near := near_table h hc hn
  have nodes := nat_nodes (arbq_nodes n hn)
  have hW := arbq_weights n hn
  have hm := arbq_moments n hn
  simp only [tetMomentsOK, List.all_eq_true, List.mem_range] at hm
  have lit := nat_moment hW (arbqW_pos n hn) (hm i (by omega) j (by omega) k (by omega))
  have W0 := arbqW_pos n hn
  have ws := natPt_weights (arbqNat.getD n [])
  rw [hW] at ws
  generalize arbqNat.getD n [] = t at *
  generalize arbqW.getD n 0 = W at *
  generalize tab.getD n [] = r at *
  have n01 : ∀ e ∈ t.map natPt, (0 ≤ e.1.1 ∧ e.1.1 ≤ 1) ∧ (0 ≤ e.1.2.1 ∧ e.1.2.1 ≤ 1) ∧ (0 ≤ e.1.2.2 ∧ e.1.2.2 ≤ 1) ∧
      0 ≤ e.2 := by
    intro e he
    obtain ⟨⟨h1, h2, h3, h4⟩, h5⟩ := nodes e he
    have p : (0 : ℝ) < 1 / 10 ^ 6 := by positivity
    exact ⟨⟨by linarith, by linarith⟩, ⟨by linarith, by linarith⟩, ⟨by linarith, by linarith⟩, h5.le⟩
  have mm := near_moment3 near n01 i j k
  have m0 := near_moment3 near n01 0 0 0
  have S0 : 0 < ((t.map natPt).map fun e => e.2).sum := by
    rw [ws]; have : (0 : ℝ) < W := by exact_mod_cast W0
    positivity
  have q0 : ∀ l : List ((ℝ × ℝ × ℝ) × ℝ), quadSum l (fun q => q.1 ^ 0 * q.2.1 ^ 0 * q.2.2 ^ 0) = (l.map fun e => e.2).sum := by
    intro l; simp [quadSum]
  rw [q0, q0] at m0
  have er : ((r.map fun e => (c.toRef e.1, e.2)).map fun e => e.2).sum = (r.map Prod.snd).sum := by
    rw [List.map_map]; rfl
  rw [er] at m0
  have hM : |quadSum (t.map natPt) (fun q => q.1 ^ i * q.2.1 ^ j * q.2.2 ^ k)| ≤ ((t.map natPt).map fun e => e.2).sum := by
    clear mm m0 near lit S0 ws nodes hW hm
    induction t with
    | nil => simp [quadSum]
    | cons e t ih =>
      rw [List.map_cons, quadSum_cons, List.map_cons, List.sum_cons]
      refine (abs_add_le _ _).trans (add_le_add ?_ (ih fun e he => n01 e (by rw [List.map_cons]; exact List.mem_cons_of_mem _ he)))
      obtain ⟨h1, h2, h3, h4⟩ := n01 (natPt e) (by simp)
      have pw : ∀ {x : ℝ} (m : ℕ), 0 ≤ x ∧ x ≤ 1 → |x ^ m| ≤ 1 := fun m h => by
        rw [abs_of_nonneg (pow_nonneg h.1 m)]; exact pow_le_one₀ h.1 h.2
      rw [abs_mul, abs_of_nonneg h4, abs_mul, abs_mul]
      have := mul_le_one₀ (mul_le_one₀ (pw i h1) (abs_nonneg _) (pw j h2)) (abs_nonneg _) (pw k h3)
      nlinarith
  have up := halfUlp_pos
  have hd : (i : ℝ) + j + k ≤ 15 := by
    have : i + j + k ≤ 15 := by omega
    exact_mod_cast this
  have hP : (1001 / 1000 : ℝ) ^ (i + j + k) ≤ 102 / 100 := by
    calc (1001 / 1000 : ℝ) ^ (i + j + k) ≤ (1001 / 1000) ^ 15 := pow_le_pow_right₀ (by norm_num) (by omega)
      _ ≤ _ := by norm_num
  have hE : (12 * ((i : ℝ) + j + k) + 1) * halfUlp * (1001 / 1000) ^ (i + j + k) ≤ 185 * halfUlp := by
    have a : (12 * ((i : ℝ) + j + k) + 1) * halfUlp ≤ 181 * halfUlp := mul_le_mul_of_nonneg_right (by linarith) up.le
    calc _ ≤ 181 * halfUlp * (102 / 100) := mul_le_mul a hP (by positivity) (by positivity)
      _ ≤ _ := by nlinarith
  have mm' := mm.trans (mul_le_mul_of_nonneg_right hE S0.le)
  have m0' : |(r.map Prod.snd).sum - ((t.map natPt).map fun e => e.2).sum| ≤ halfUlp * ((t.map natPt).map fun e => e.2).sum := by
    simpa using m0
  have dd := div_sub S0 hM mm' m0' (by unfold halfUlp; norm_num) (by positivity) up.le
  have fin : (185 * halfUlp + halfUlp) * (1001 / 1000 + 1 / 100000) + 1 / 500000000000000 ≤ 3 / 10 ^ 14 := by
    unfold halfUlp; norm_num
  have e : ∀ A B C : ℝ, A - C = (A - B) + (B - C) := by intros; ring
  rw [e _ (quadSum (t.map natPt) (fun q => q.1 ^ i * q.2.1 ^ j * q.2.2 ^ k) / ((t.map natPt).map fun e => e.2).sum)]
  exact (abs_add_le _ _).trans (by linarith)

/-- Points inside, weights positive. -/
theorem table_inside : ∀ e ∈ tab.getD n [], (0 < (c.toRef e.1).1 ∧ 0 < (c.toRef e.1).2.1 ∧ 0 < (c.toRef e.1).2.2 ∧
    (c.toRef e.1).1 + (c.toRef e.1).2.1 + (c.toRef e.1).2.2 < 1) ∧ 0 < e.2 := by
  have near := near_table h hc hn
  have nodes := nat_nodes (arbq_nodes n hn)
  generalize (arbqNat.getD n []).map natPt = s at *
  generalize tab.getD n [] = r at *
  induction r generalizing s with
  | nil => simp
  | cons e r ih =>
    rw [List.map_cons] at near
    cases near with
    | @cons x y s' r' h1 h2 =>
      intro e' he'
      rcases List.mem_cons.1 he' with rfl | he'
      · obtain ⟨⟨b1, b2, b3, b4⟩, b5⟩ := nodes x (by simp)
        obtain ⟨a1, a2, a3, a4⟩ := h1
        have hu : 36 * halfUlp < 1 / 10 ^ 6 := by unfold halfUlp; norm_num
        have up := halfUlp_pos
        rw [abs_of_pos b5] at a4
        have hu2 : halfUlp < 1 := by unfold halfUlp; norm_num
        dsimp only at a1 a2 a3 a4
        rw [abs_le] at a1 a2 a3 a4
        refine ⟨⟨by linarith [a1.1], by linarith [a2.1], by linarith [a3.1], by linarith [a1.2, a2.2, a3.2]⟩, ?_⟩
        nlinarith [a4.1]
      · exact ih s' (fun e he => nodes e (by simp [he])) h2 e' he'

omit hc in
theorem table_length : (tab.getD n []).length = arbqSizes.getD n 0 := by
  have := (storedTet_getD h n).length_eq
  rw [literalTet, List.length_map] at this
  rw [← this, arbq_size n hn]

end tables

theorem toInt32_small {d : ℕ} (h : d ≤ 15) : toInt32 d = d := by
  unfold toInt32; rw [Nat.mod_eq_of_lt (by omega), if_pos (by omega)]

/-- The points of the rule with index `n`. -/
noncomputable def out (r : TetRule) (c : ArbqConsts) (p0 p1 p2 p3 : P3 ℝ) : List (P3 ℝ × ℝ) :=
  r.map fun e => (inTet p0 p1 p2 p3 (c.toRef e.1).1 (c.toRef e.1).2.1 (c.toRef e.1).2.2,
    e.2 * (Real.sqrt 8 / 3) / (r.map Prod.snd).sum * c.iv * Simplex.volume p0 p1 p2 p3)

theorem kappa {c : ArbqConsts} (hc : StoredNums literalConsts.toList c.toList) :
    |Real.sqrt 8 / 3 * c.iv - 1| ≤ 1 / 10 ^ 15 ∧ 0 < c.iv := by
  have h := (consts hc)
  have hi : |c.iv - 1.060660171779821| ≤ halfUlp := by
    unfold StoredNums literalConsts ArbqConsts.toList at hc
    simp only [List.forall₂_cons] at hc
    tauto
  have l : (2.8284271247461898 : ℝ) ≤ Real.sqrt 8 := Real.le_sqrt_of_sq_le (by norm_num)
  have u : Real.sqrt 8 ≤ (2.8284271247461904 : ℝ) := (Real.sqrt_le_sqrt (by norm_num : (8 : ℝ) ≤ 2.8284271247461904 ^ 2)).trans (Real.sqrt_sq (by norm_num)).le
  have hu : halfUlp = 1 / 2 ^ 53 := rfl
  rw [hu, abs_le] at hi
  obtain ⟨h1, h2⟩ := hi
  norm_num at h1 h2
  have p : (0 : ℝ) < c.iv := by linarith
  refine ⟨?_, p⟩
  rw [abs_le]
  constructor <;> nlinarith

section arbq
variable {tab : List TetRule} (ht : List.Forall₂ StoredTet (arbqRules.map literalTet) tab) {c : ArbqConsts}
  (hc : StoredNums literalConsts.toList c.toList) {d : ℕ} (h : d ≤ 15)
include ht hc h

omit hc in
theorem arbq_ok (p0 p1 p2 p3 : P3 ℝ) :
    arbq tab c d p0 p1 p2 p3 = .ok (out (tab.getD (max d 1 - 1) []) c p0 p1 p2 p3) := by
  have hr : (if toInt32 d = 0 then 1 else toInt32 d) = ((max d 1 : ℕ) : ℤ) := by
    rw [toInt32_small h]; split_ifs <;> omega
  have hn : max d 1 - 1 < 15 := by omega
  have hl := table_length ht hn
  have ei : (((max d 1 : ℕ) : ℤ) - 1).toNat = max d 1 - 1 := by omega
  unfold arbq arbqSize tetrahedronArbq
  dsimp only
  rw [hr, if_neg (by omega), Outcome.bind_ok, if_neg (by omega), ei, if_neg (by omega), Outcome.bind_ok, ← hl,
    List.take_length, List.map_map]
  rfl

omit hc in
theorem arbq_length (p0 p1 p2 p3 : P3 ℝ) : ∃ l, arbq tab c d p0 p1 p2 p3 = .ok l ∧
    l.length = [1, 1, 4, 6, 11, 14, 23, 31, 44, 57, 74, 95, 122, 146, 177, 214].getD d 0 := by
  refine ⟨_, arbq_ok ht h p0 p1 p2 p3, ?_⟩
  rw [out, List.length_map, table_length ht (by omega)]
  interval_cases d <;> rfl

theorem weight_sum_pos : 0 < ((tab.getD (max d 1 - 1) []).map Prod.snd).sum := by
  have hl := table_length ht (n := max d 1 - 1) (by omega)
  have hi := table_inside ht hc (n := max d 1 - 1) (by omega)
  have : tab.getD (max d 1 - 1) [] ≠ [] := by
    intro h0; rw [h0] at hl; revert hl
    interval_cases d <;> decide
  generalize tab.getD (max d 1 - 1) [] = r at *
  clear hl
  induction r with
  | nil => exact absurd rfl this
  | cons e r ih =>
    rw [List.map_cons, List.sum_cons]
    have h1 := (hi e (by simp)).2
    by_cases hr : r = []
    · subst hr; simpa using h1
    · exact add_pos h1 (ih (fun e he => hi e (by simp [he])) hr)

theorem arbq_mem {p0 p1 p2 p3 : P3 ℝ} {q : P3 ℝ × ℝ} (hq : q ∈ out (tab.getD (max d 1 - 1) []) c p0 p1 p2 p3) :
    (∃ u v w, 0 < u ∧ 0 < v ∧ 0 < w ∧ u + v + w < 1 ∧ q.1 = inTet p0 p1 p2 p3 u v w) ∧
      (vol6 p0 p1 p2 p3 ≠ 0 → 0 < q.2) := by
  obtain ⟨e, he, rfl⟩ := List.mem_map.1 hq
  obtain ⟨⟨a1, a2, a3, a4⟩, a5⟩ := table_inside ht hc (n := max d 1 - 1) (by omega) e he
  refine ⟨⟨_, _, _, a1, a2, a3, a4, rfl⟩, fun hv => ?_⟩
  have w := weight_sum_pos ht hc h
  have k := (kappa hc).2
  dsimp only
  rw [Polyhedron.volume_vol6]
  have := abs_pos.2 hv
  positivity

theorem arbq_sum (p0 p1 p2 p3 : P3 ℝ) :
    |((out (tab.getD (max d 1 - 1) []) c p0 p1 p2 p3).map Prod.snd).sum - |vol6 p0 p1 p2 p3| / 6| ≤
      1 / 10 ^ 15 * (|vol6 p0 p1 p2 p3| / 6) := by
  have w := weight_sum_pos ht hc h
  generalize tab.getD (max d 1 - 1) [] = r at *
  have e : ((out r c p0 p1 p2 p3).map Prod.snd).sum =
      (r.map Prod.snd).sum * ((Real.sqrt 8 / 3) / (r.map Prod.snd).sum * c.iv * Simplex.volume p0 p1 p2 p3) := by
    rw [← List.sum_map_mul_right, out, List.map_map]
    congr 1
    refine List.map_congr_left fun x _ => ?_
    simp only [Function.comp]; ring
  have e2 : ((out r c p0 p1 p2 p3).map Prod.snd).sum = Real.sqrt 8 / 3 * c.iv * (|vol6 p0 p1 p2 p3| / 6) := by
    rw [e, Polyhedron.volume_vol6]; field_simp
  have e3 : ∀ k V : ℝ, k * V - V = (k - 1) * V := by intros; ring
  have v0 : 0 ≤ |vol6 p0 p1 p2 p3| / 6 := by positivity
  rw [e2, e3, abs_mul, abs_of_nonneg v0]
  exact mul_le_mul_of_nonneg_right (kappa hc).1 v0

theorem arbq_exact (p0 p1 p2 p3 : P3 ℝ) (f : P3 ℝ → ℝ) (g : Poly3) (hd : g.DegLE (max d 1))
    (hg : ∀ u v w, f (inTet p0 p1 p2 p3 u v w) = g.eval u v w) :
    |quadSum (out (tab.getD (max d 1 - 1) []) c p0 p1 p2 p3) f - tetInt f p0 p1 p2 p3| ≤
      |vol6 p0 p1 p2 p3| / 6 * (4 / 10 ^ 14 * g.size 1) := by
  have w := weight_sum_pos ht hc h
  have mom := fun i j k hijk => table_moment ht hc (n := max d 1 - 1) (by omega) (i := i) (j := j) (k := k) hijk
  have hm : max d 1 - 1 + 1 = max d 1 := by omega
  rw [hm] at mom
  generalize tab.getD (max d 1 - 1) [] = r at *
  generalize max d 1 = D at *
  obtain ⟨k1, _⟩ := kappa hc
  have v0 : 0 ≤ |vol6 p0 p1 p2 p3| / 6 := by positivity
  have e : quadSum (out r c p0 p1 p2 p3) f = |vol6 p0 p1 p2 p3| / 6 * (Real.sqrt 8 / 3 * c.iv *
      (quadSum (r.map fun e => (c.toRef e.1, e.2)) (fun q => g.eval q.1 q.2.1 q.2.2) / (r.map Prod.snd).sum)) := by
    unfold quadSum out
    rw [List.map_map, List.map_map, div_eq_inv_mul (List.sum _), ← List.sum_map_mul_left, ← List.sum_map_mul_left,
      ← List.sum_map_mul_left]
    congr 1
    refine List.map_congr_left fun x _ => ?_
    simp only [Function.comp]
    rw [hg, Polyhedron.volume_vol6]; ring
  have e2 : tetInt f p0 p1 p2 p3 = |vol6 p0 p1 p2 p3| / 6 * (g.map fun t => t.1 * (6 * tetMom t.2.1 t.2.2.1 t.2.2.2)).sum := by
    unfold tetInt
    simp only [hg]
    rw [SpaceIntegral.refTet_poly, ← List.sum_map_mul_left, ← List.sum_map_mul_left]
    congr 1
    refine List.map_congr_left fun x _ => ?_
    unfold tetMom; ring
  rw [e, e2, ← mul_sub, abs_mul, abs_of_nonneg v0]
  refine mul_le_mul_of_nonneg_left ?_ v0
  rw [quadSum_poly3, div_eq_inv_mul (List.sum _), ← List.sum_map_mul_left, ← List.sum_map_mul_left]
  refine (sum_abs_bound g _ _ (fun t => 4 / 10 ^ 14 * (|t.1| * 1 ^ (t.2.1 + t.2.2.1 + t.2.2.2))) ?_).trans ?_
  · intro t htm
    have hM := mom _ _ _ (hd t htm)
    generalize quadSum (r.map fun e => (c.toRef e.1, e.2)) _ = M at hM ⊢
    have e : ∀ κ S x m : ℝ, κ * (S⁻¹ * (x * M)) - x * m = x * (κ * (M / S - m) + (κ - 1) * m) := by intros; ring
    rw [e, abs_mul, one_pow, mul_one, mul_comm (4 / 10 ^ 14)]
    refine mul_le_mul_of_nonneg_left ((abs_add_le _ _).trans ?_) (abs_nonneg _)
    rw [abs_mul _ (M / _ - _), abs_mul (_ - 1)]
    have m1 : |6 * tetMom t.2.1 t.2.2.1 t.2.2.2| ≤ 1 := tetMom_le _ _ _
    have kk : |Real.sqrt 8 / 3 * c.iv| ≤ 11 / 10 := by
      have := abs_add_le (Real.sqrt 8 / 3 * c.iv - 1) 1
      rw [sub_add_cancel, abs_one] at this
      refine this.trans ?_
      have : (1 : ℝ) / 10 ^ 15 ≤ 1 / 10 := by norm_num
      linarith
    have a := mul_le_mul kk hM (abs_nonneg _) (by norm_num)
    have b := mul_le_mul k1 m1 (abs_nonneg _) (by positivity)
    refine (add_le_add a b).trans ?_
    norm_num
  · rw [List.sum_map_mul_left]; rfl

end arbq

end Verif.Lemmas.Arbq
