import Verif.Lemmas.Compositions
import Verif.Lemmas.OddPowers
import Mathlib.Data.Nat.Choose.Cast
import Mathlib.Tactic.FieldSimp
import Mathlib.Algebra.BigOperators.Field
/-!
Weights and exactness of the Grundmann-Möller rules.
-/
namespace Verif.Lemmas.GrundMoeller
open Verif Verif.GrundMoeller Verif.Lemmas.Compositions Verif.Lemmas.OddPowers

section weights
variable {K : Type} [Field K]

/-- Factor of step `j`. -/
def fac (s n i j : ℕ) : K :=
  (if j ≤ n then (j : K) else 1) * (if j ≤ 2 * s + 1 then ((2 * s + 1 + n - 2 * i : ℕ) : K) else 1) *
    (if j ≤ 2 * s then 2⁻¹ else 1) * (if j ≤ i then (j : K)⁻¹ else 1) *
    (if j ≤ 2 * s + 1 + n - i then (j : K)⁻¹ else 1)

theorem weightStep_eq (s n i : ℕ) (w : K) (j : ℕ) : weightStep s n i w j = w * fac s n i j := by
  unfold weightStep fac
  dsimp only
  split_ifs <;> simp only [div_eq_mul_inv, mul_one, one_mul] <;> ring

theorem foldl_fac (s n i : ℕ) (w : K) (a m : ℕ) :
    (List.range' a m).foldl (weightStep s n i) w = w * ∏ j ∈ Finset.range m, fac s n i (a + j) := by
  induction m generalizing w a with
  | zero => simp
  | succ m ih =>
    rw [List.range'_succ, List.foldl_cons, ih, weightStep_eq, Finset.prod_range_succ']
    simp only [add_zero, Nat.add_assoc, Nat.add_comm 1]
    ring

theorem prod_if (g : ℕ → K) (m M : ℕ) (h : m ≤ M) :
    ∏ j ∈ Finset.range M, (if 1 + j ≤ m then g (1 + j) else 1) = ∏ j ∈ Finset.range m, g (1 + j) := by
  rw [← Finset.prod_filter]
  refine Finset.prod_congr ?_ fun _ _ => rfl
  ext j; simp only [Finset.mem_filter, Finset.mem_range]; omega

theorem prod_fact (m : ℕ) : ∏ j ∈ Finset.range m, ((1 + j : ℕ) : K) = (m.factorial : K) := by
  rw [← Finset.prod_range_add_one_eq_factorial]
  push_cast
  exact Finset.prod_congr rfl fun j _ => add_comm _ _

theorem weight_eq (s n i : ℕ) (hi : i ≤ s) (w : K) : weight s n i w =
    w * (n.factorial * ((2 * s + 1 + n - 2 * i : ℕ) : K) ^ (2 * s + 1) /
      (2 ^ (2 * s) * i.factorial * (2 * s + 1 + n - i).factorial)) := by
  unfold weight
  dsimp only
  rw [foldl_fac]
  congr 1
  unfold fac
  simp only [Finset.prod_mul_distrib]
  rw [prod_if (fun j => (j : K)) n _ (by omega), prod_if (fun _ => _) (2 * s + 1) _ (by omega),
    prod_if (fun _ => _) (2 * s) _ (by omega), prod_if (fun j => (j : K)⁻¹) i _ (by omega),
    prod_if (fun j => (j : K)⁻¹) (2 * s + 1 + n - i) _ (by omega)]
  simp only [Finset.prod_inv_distrib, prod_fact, Finset.prod_const, Finset.card_range]
  rw [div_eq_mul_inv, mul_inv, mul_inv]
  ring

end weights

/-- Sum of the products of powers of odd numbers over the compositions. -/
def numSum (k n : ℕ) (α : List ℕ) : ℕ :=
  ((comps k n).map fun β => (List.zipWith (fun a b => (2 * b + 1) ^ a) α β).prod).sum

theorem sum_map_flatMap {A B : Type} (l : List A) (f : A → List B) (g : B → ℕ) :
    ((l.flatMap f).map g).sum = (l.map fun a => ((f a).map g).sum).sum := by
  induction l with
  | nil => rfl
  | cons a l ih => simp [ih]

theorem numSum_coeff (k n : ℕ) (α : List ℕ) (h : α.length = k + 1) :
    (numSum k n α : ℚ) = PowerSeries.coeff n (SS α) := by
  induction k generalizing n α with
  | zero =>
    obtain ⟨a, rfl⟩ := List.length_eq_one_iff.1 h
    simp [numSum, comps, SS, S]
  | succ k ih =>
    obtain ⟨α', a, rfl⟩ : ∃ α' a, α = α' ++ [a] := by
      have hne : α ≠ [] := by rintro rfl; simp at h
      exact ⟨α.dropLast, α.getLast hne, (List.dropLast_append_getLast hne).symm⟩
    have h' : α'.length = k + 1 := by simpa using h
    have e1 : SS (α' ++ [a]) = S a * SS α' := by simp [SS, mul_comm]
    rw [e1, PowerSeries.coeff_mul, Finset.Nat.sum_antidiagonal_eq_sum_range_succ_mk]
    unfold numSum
    rw [comps, sum_map_flatMap, ← List.range_eq_range']
    have e2 : ((List.range (n + 1)).map fun c => (((comps k (n - c)).map (· ++ [c])).map fun β =>
        (List.zipWith (fun a b => (2 * b + 1) ^ a) (α' ++ [a]) β).prod).sum).sum =
        ∑ c ∈ Finset.range (n + 1), (2 * c + 1) ^ a * numSum k (n - c) α' := by
      change ∑ c ∈ Finset.range (n + 1), _ = _
      refine Finset.sum_congr rfl fun c _ => ?_
      rw [List.map_map, numSum, ← List.sum_map_mul_left]
      congr 1
      refine List.map_congr_left fun β hβ => ?_
      have hl := ((mem_comps k (n - c) β).1 hβ).1
      simp only [Function.comp_apply]
      rw [List.zipWith_append (by rw [h', hl])]
      simp [mul_comm]
    rw [e2]
    push_cast
    refine Finset.sum_congr rfl fun c _ => ?_
    rw [ih (n - c) α' h']
    simp [S]

theorem numSum_alt (s m : ℕ) (α : List ℕ) (h : α.sum = 2 * s + 1) (hl : α.length = m + 1) :
    ∑ i ∈ Finset.range (s + 1), (-1 : ℤ) ^ i * ((2 * s + 1 + m).choose i : ℤ) * (numSum m (s - i) α : ℤ) =
      2 ^ (2 * s) * ((α.map Nat.factorial).prod : ℕ) := by
  have e := alternating α s m h hl
  rw [h] at e
  simp only [← numSum_coeff m _ α hl] at e
  generalize (α.map Nat.factorial).prod = F at *
  have : ((∑ i ∈ Finset.range (s + 1), (-1 : ℤ) ^ i * ((2 * s + 1 + m).choose i : ℤ) * (numSum m (s - i) α : ℤ) : ℤ)
      : ℚ) = ((2 ^ (2 * s) * (F : ℤ) : ℤ) : ℚ) := by
    push_cast; exact e
  exact_mod_cast this

section exact
variable {K : Type} [Field K] [CharZero K]

/-- A monomial. -/
def mono (α : List ℕ) (x : List K) : K := (List.zipWith (fun a t => t ^ a) α x).prod

/-- The value of the rule on a monomial in the barycentric coordinates. -/
def Q (s n : ℕ) (α : List ℕ) : K :=
  ∑ i ∈ Finset.range (s + 1), weight s n i ((-1 : K) ^ i) *
    ((comps n (s - i)).map fun β => mono α (β.map fun b => ((2 * b + 1 : ℕ) : K) / ((2 * s + 1 + n - 2 * i : ℕ) : K))).sum

theorem mono_div (α β : List ℕ) (D : K) (h : α.length = β.length) :
    mono α (β.map fun b => ((2 * b + 1 : ℕ) : K) / D) =
      ((List.zipWith (fun a b => (2 * b + 1) ^ a) α β).prod : ℕ) / D ^ α.sum := by
  induction α generalizing β with
  | nil => simp [mono]
  | cons a α ih =>
    cases β with
    | nil => simp at h
    | cons b β =>
      have := ih β (by simpa using h)
      simp only [mono, List.map_cons, List.zipWith_cons_cons, List.prod_cons, List.sum_cons] at this ⊢
      rw [this, div_pow, pow_add, div_mul_div_comm]
      push_cast
      rfl

theorem sum_cast_div {A : Type} (l : List A) (f : A → ℕ) (D : K) :
    (l.map fun a => (f a : K) / D).sum = ((l.map f).sum : ℕ) / D := by
  induction l with
  | nil => simp
  | cons a l ih => simp only [List.map_cons, List.sum_cons, ih]; push_cast; ring

theorem Q_top (s n : ℕ) (α : List ℕ) (hl : α.length = n + 1) (h : α.sum = 2 * s + 1) :
    (Q s n α : K) = n.factorial * (α.map Nat.factorial).prod / (2 * s + 1 + n).factorial := by
  generalize hF : (α.map Nat.factorial).prod = F
  have key := congrArg (fun z : ℤ => (z : K)) (numSum_alt s n α h hl)
  rw [hF] at key
  push_cast at key
  have e : ∀ i ∈ Finset.range (s + 1), weight s n i ((-1 : K) ^ i) *
      ((comps n (s - i)).map fun β => mono α (β.map fun b => ((2 * b + 1 : ℕ) : K) /
        ((2 * s + 1 + n - 2 * i : ℕ) : K))).sum = n.factorial / (2 ^ (2 * s) * (2 * s + 1 + n).factorial) *
        ((-1) ^ i * ((2 * s + 1 + n).choose i : K) * (numSum n (s - i) α : K)) := by
    intro i hi
    have hi : i ≤ s := by have := Finset.mem_range.1 hi; omega
    have hD : ((2 * s + 1 + n - 2 * i : ℕ) : K) ≠ 0 := by
      rw [Nat.cast_ne_zero]; omega
    have e1 : ((comps n (s - i)).map fun β => mono α (β.map fun b => ((2 * b + 1 : ℕ) : K) /
        ((2 * s + 1 + n - 2 * i : ℕ) : K))).sum =
        (numSum n (s - i) α : K) / ((2 * s + 1 + n - 2 * i : ℕ) : K) ^ (2 * s + 1) := by
      rw [numSum, ← sum_cast_div, ← h]
      congr 1
      refine List.map_congr_left fun β hβ => ?_
      exact mono_div α β _ (by rw [hl, ((mem_comps _ _ β).1 hβ).1])
    rw [e1, weight_eq s n i hi]
    have hch : ((2 * s + 1 + n).choose i : K) = (2 * s + 1 + n).factorial /
        (i.factorial * (2 * s + 1 + n - i).factorial) :=
      Nat.cast_choose K (by omega)
    rw [hch]
    have f1 : ((i.factorial : ℕ) : K) ≠ 0 := Nat.cast_ne_zero.2 (Nat.factorial_ne_zero _)
    have f2 : (((2 * s + 1 + n - i).factorial : ℕ) : K) ≠ 0 := Nat.cast_ne_zero.2 (Nat.factorial_ne_zero _)
    have f3 : (((2 * s + 1 + n).factorial : ℕ) : K) ≠ 0 := Nat.cast_ne_zero.2 (Nat.factorial_ne_zero _)
    have f4 : (2 : K) ≠ 0 := two_ne_zero
    generalize ((2 * s + 1 + n - 2 * i : ℕ) : K) = D at *
    generalize ((i.factorial : ℕ) : K) = A at *
    generalize (((2 * s + 1 + n - i).factorial : ℕ) : K) = B at *
    generalize (((2 * s + 1 + n).factorial : ℕ) : K) = C at *
    generalize (numSum n (s - i) α : K) = N at *
    field_simp
  unfold Q
  rw [Finset.sum_congr rfl e, ← Finset.mul_sum, key]
  have f3 : (((2 * s + 1 + n).factorial : ℕ) : K) ≠ 0 := Nat.cast_ne_zero.2 (Nat.factorial_ne_zero _)
  have f4 : (2 : K) ≠ 0 := two_ne_zero
  generalize (((2 * s + 1 + n).factorial : ℕ) : K) = C at *
  field_simp

/-- One more in place `j`. -/
def bump (j : ℕ) (α : List ℕ) : List ℕ := α.modify j (· + 1)

theorem bump_length (j : ℕ) (α : List ℕ) : (bump j α).length = α.length := by simp [bump]

theorem bump_sum (j : ℕ) (α : List ℕ) (h : j < α.length) : (bump j α).sum = α.sum + 1 := by
  induction α generalizing j with
  | nil => simp at h
  | cons a α ih =>
    cases j with
    | zero => simp [bump]; omega
    | succ j =>
      have := ih j (by simpa using h)
      simp only [bump, List.modify_succ_cons, List.sum_cons] at this ⊢
      omega

omit [CharZero K] in
theorem bump_mono (α : List ℕ) (x : List K) (h : α.length = x.length) :
    ∑ j ∈ Finset.range α.length, mono (bump j α) x = mono α x * x.sum := by
  induction α generalizing x with
  | nil =>
    cases x with
    | nil => simp [mono]
    | cons => simp at h
  | cons a α ih =>
    cases x with
    | nil => simp at h
    | cons t x =>
      have := ih x (by simpa using h)
      rw [List.length_cons, Finset.sum_range_succ']
      simp only [mono, bump, List.modify_succ_cons, List.modify_zero_cons, List.zipWith_cons_cons, List.prod_cons,
        List.sum_cons, ← Finset.mul_sum] at this ⊢
      rw [this]; ring

theorem bump_fact (α : List ℕ) : ∑ j ∈ Finset.range α.length, ((bump j α).map Nat.factorial).prod =
    (α.map Nat.factorial).prod * (α.sum + α.length) := by
  induction α with
  | nil => simp
  | cons a α ih =>
    rw [List.length_cons, Finset.sum_range_succ']
    simp only [bump, List.modify_succ_cons, List.modify_zero_cons, List.map_cons, List.prod_cons,
      List.sum_cons, ← Finset.mul_sum] at ih ⊢
    rw [ih, Nat.factorial_succ]; ring

omit [CharZero K] in
theorem list_sum_comm {A : Type} (l : List A) (m : ℕ) (f : ℕ → A → K) :
    ∑ j ∈ Finset.range m, (l.map (f j)).sum = (l.map fun a => ∑ j ∈ Finset.range m, f j a).sum := by
  induction l with
  | nil => simp
  | cons a l ih => simp only [List.map_cons, List.sum_cons, Finset.sum_add_distrib, ih]

theorem bary_sum (β : List ℕ) (D : K) : (β.map fun b => ((2 * b + 1 : ℕ) : K) / D).sum =
    ((2 * β.sum + β.length : ℕ) : K) / D := by
  induction β with
  | nil => simp
  | cons b β ih =>
    simp only [List.map_cons, List.sum_cons, ih, List.length_cons]
    push_cast; ring

theorem Q_bump (s n : ℕ) (α : List ℕ) (hl : α.length = n + 1) :
    (Q s n α : K) = ∑ j ∈ Finset.range (n + 1), Q s n (bump j α) := by
  unfold Q
  rw [Finset.sum_comm]
  refine Finset.sum_congr rfl fun i hi => ?_
  have hi : i ≤ s := by have := Finset.mem_range.1 hi; omega
  rw [← Finset.mul_sum, list_sum_comm]
  congr 2
  refine List.map_congr_left fun β hβ => ?_
  obtain ⟨h1, h2⟩ := (mem_comps _ _ β).1 hβ
  have hD : ((2 * s + 1 + n - 2 * i : ℕ) : K) ≠ 0 := by
    rw [Nat.cast_ne_zero]; omega
  have := bump_mono α (β.map fun b => ((2 * b + 1 : ℕ) : K) / ((2 * s + 1 + n - 2 * i : ℕ) : K))
    (by rw [hl, List.length_map, h1])
  rw [hl] at this
  rw [this, bary_sum, h1, h2, show 2 * (s - i) + (n + 1) = 2 * s + 1 + n - 2 * i by omega, div_self hD, mul_one]

/-- The rule is exact on monomials of degree up to `2 s + 1`. -/
theorem Q_le (s n k : ℕ) (α : List ℕ) (hl : α.length = n + 1) (h : α.sum + k = 2 * s + 1) :
    (Q s n α : K) = n.factorial * (α.map Nat.factorial).prod / (α.sum + n).factorial := by
  induction k generalizing α with
  | zero => rw [Q_top s n α hl (by omega), ← h, add_zero]
  | succ k ih =>
    rw [Q_bump s n α hl]
    have e : ∀ j ∈ Finset.range (n + 1), (Q s n (bump j α) : K) =
        n.factorial / (α.sum + 1 + n).factorial * (((bump j α).map Nat.factorial).prod : ℕ) := by
      intro j hj
      have hj := Finset.mem_range.1 hj
      have hs := bump_sum j α (by omega)
      rw [ih (bump j α) (by rw [bump_length, hl]) (by omega), hs]
      ring
    rw [Finset.sum_congr rfl e, ← Finset.mul_sum, ← Nat.cast_sum]
    have hb := bump_fact α
    rw [hl] at hb
    rw [hb, show α.sum + 1 + n = (α.sum + n) + 1 by omega, Nat.factorial_succ]
    have f3 : (((α.sum + n).factorial : ℕ) : K) ≠ 0 := Nat.cast_ne_zero.2 (Nat.factorial_ne_zero _)
    have f4 : ((α.sum + n + 1 : ℕ) : K) ≠ 0 := Nat.cast_ne_zero.2 (by omega)
    rw [Nat.cast_mul, Nat.cast_mul, show α.sum + (n + 1) = α.sum + n + 1 by omega]
    field_simp

/-- The points and weights of the rule. -/
def pts (s n : ℕ) : List (List K × K) :=
  (List.range (s + 1)).flatMap fun i => (comps n (s - i)).map fun b => (absc s n i b, weight s n i ((-1) ^ i))

omit [CharZero K] in
theorem ruleLoop_ok (s n m i0 room : ℕ)
    (hr : ((List.range' i0 m).map fun i => (comps n (s - i)).length).sum ≤ room) :
    ruleLoop s n (List.range' i0 m) room ((-1 : K) ^ i0) = .ok ((List.range' i0 m).flatMap fun i =>
      (comps n (s - i)).map fun b => (absc s n i b, weight s n i ((-1) ^ i))) := by
  induction m generalizing i0 room with
  | zero => rfl
  | succ m ih =>
    rw [List.range'_succ] at hr ⊢
    simp only [List.map_cons, List.sum_cons] at hr
    have hs : -(-1 : K) ^ i0 = (-1) ^ (i0 + 1) := by rw [pow_succ]; ring
    rw [ruleLoop, betaLoop_ok _ _ _ (by omega), Outcome.bind_ok, hs, ih _ _ (by omega), Outcome.bind_ok,
      List.flatMap_cons]

theorem total (s n : ℕ) : ((List.range (s + 1)).map fun i => (comps n (s - i)).length).sum =
    (n + s + 1).choose s := by
  have e : ((List.range (s + 1)).map fun i => (comps n (s - i)).length).sum =
      ∑ i ∈ Finset.range (s + 1), (s - i + n).choose n := by
    simp only [length_comps]; rfl
  rw [e, ← Nat.choose_symm_of_eq_add (show n + s + 1 = (n + 1) + s by omega),
    show n + s + 1 = s + (n + 1) by omega, ← hockey, ← Finset.sum_range_reflect]
  exact Finset.sum_congr rfl fun a ha => by
    have := Finset.mem_range.1 ha
    rw [show s - (s + 1 - 1 - a) = a by omega]

omit [CharZero K] in
theorem pts_length (s n : ℕ) : (pts s n : List (List K × K)).length = (n + s + 1).choose s := by
  rw [← total, pts, List.length_flatMap]
  simp

omit [CharZero K] in
theorem ruleSet_ok (s n room : ℕ) (h : (n + s + 1).choose s ≤ room) :
    ruleSet s n room = .ok (pts s n : List (List K × K)) := by
  have := ruleLoop_ok (K := K) s n (s + 1) 0 room (by rw [← List.range_eq_range', total]; exact h)
  rw [← List.range_eq_range', pow_zero] at this
  exact this

omit [CharZero K] in
theorem sum_flatMap {A B : Type} (l : List A) (f : A → List B) (g : B → K) :
    ((l.flatMap f).map g).sum = (l.map fun a => ((f a).map g).sum).sum := by
  induction l with
  | nil => rfl
  | cons a l ih => simp [ih]

/-- Value of the rule on a monomial. -/
theorem pts_mono (s n : ℕ) (α : List ℕ) (hl : α.length = n) (h : α.sum ≤ 2 * s + 1) :
    ((pts s n : List (List K × K)).map fun q => q.2 * mono α q.1).sum =
      n.factorial * (α.map Nat.factorial).prod / (α.sum + n).factorial := by
  have := Q_le (K := K) s n (2 * s + 1 - α.sum) (0 :: α) (by simp [hl]) (by simp; omega)
  simp only [List.map_cons, List.prod_cons, Nat.factorial_zero, one_mul, List.sum_cons, zero_add] at this
  rw [← this, pts, sum_flatMap]
  change ∑ i ∈ Finset.range (s + 1), _ = _
  unfold Q
  refine Finset.sum_congr rfl fun i _ => ?_
  rw [List.map_map, ← List.sum_map_mul_left]
  congr 1
  refine List.map_congr_left fun β hβ => ?_
  obtain ⟨h1, -⟩ := (mem_comps _ _ β).1 hβ
  cases β with
  | nil => simp at h1
  | cons b β => simp [mono, absc]

end exact

theorem step_choose (mx j : ℕ) : (mx + j).choose j * (mx + (j + 1)) = (j + 1) * (mx + (j + 1)).choose (j + 1) := by
  have := Nat.add_one_mul_choose_eq (mx + j) j
  rw [show mx + (j + 1) = mx + j + 1 by omega, mul_comm, this, mul_comm]

theorem choose_mono' (mx : ℕ) {i j : ℕ} (h : i ≤ j) : (mx + i).choose i ≤ (mx + j).choose j := by
  rw [Nat.choose_symm_of_eq_add (show mx + i = i + mx by omega), Nat.choose_symm_of_eq_add (show mx + j = j + mx by omega)]
  exact Nat.choose_le_choose mx (by omega)

theorem chooseLoop_ok (mx j m : ℕ) (h : (j + m) * (mx + (j + m)).choose (j + m) < 2 ^ 31) :
    chooseLoop mx (List.range' (j + 1) m) ((mx + j).choose j : ℕ) = .ok (((mx + (j + m)).choose (j + m) : ℕ) : ℤ) := by
  induction m generalizing j with
  | zero => simp [chooseLoop]
  | succ m ih =>
    have hp : (((mx + j).choose j : ℕ) : ℤ) * ((mx : ℤ) + ((j + 1 : ℕ) : ℤ)) =
        (((j + 1) * (mx + (j + 1)).choose (j + 1) : ℕ) : ℤ) := by
      rw [← step_choose]; push_cast; ring
    have hlt : (j + 1) * (mx + (j + 1)).choose (j + 1) < 2 ^ 31 :=
      lt_of_le_of_lt (Nat.mul_le_mul (by omega) (choose_mono' mx (by omega))) h
    rw [List.range'_succ, chooseLoop, hp, ck, if_pos (by exact_mod_cast hlt), Outcome.bind_ok]
    have hd : (((j + 1) * (mx + (j + 1)).choose (j + 1) : ℕ) : ℤ) / ((j + 1 : ℕ) : ℤ) =
        ((mx + (j + 1)).choose (j + 1) : ℕ) := by
      rw [Nat.cast_mul, Int.mul_ediv_cancel_left _ (by exact_mod_cast Nat.succ_ne_zero j)]
    rw [hd, ih (j + 1) (by rw [show j + 1 + m = j + (m + 1) by omega]; exact h),
      show j + 1 + m = j + (m + 1) by omega]

theorem chooseLoop_ub (mx j m : ℕ) (hm : 0 < m) (h : 2 ^ 31 ≤ (j + m) * (mx + (j + m)).choose (j + m)) :
    chooseLoop mx (List.range' (j + 1) m) ((mx + j).choose j : ℕ) = .ub "int overflow" := by
  induction m generalizing j with
  | zero => omega
  | succ m ih =>
    have hp : (((mx + j).choose j : ℕ) : ℤ) * ((mx : ℤ) + ((j + 1 : ℕ) : ℤ)) =
        (((j + 1) * (mx + (j + 1)).choose (j + 1) : ℕ) : ℤ) := by
      rw [← step_choose]; push_cast; ring
    rw [List.range'_succ, chooseLoop, hp, ck]
    refine (Nat.lt_or_ge ((j + 1) * (mx + (j + 1)).choose (j + 1)) (2 ^ 31)).elim (fun hlt => ?_) (fun hge => ?_)
    · rw [if_pos (by exact_mod_cast hlt), Outcome.bind_ok]
      have hd : (((j + 1) * (mx + (j + 1)).choose (j + 1) : ℕ) : ℤ) / ((j + 1 : ℕ) : ℤ) =
          ((mx + (j + 1)).choose (j + 1) : ℕ) := by
        rw [Nat.cast_mul, Int.mul_ediv_cancel_left _ (by exact_mod_cast Nat.succ_ne_zero j)]
      rw [hd]
      rcases Nat.eq_zero_or_pos m with rfl | hm'
      · exact absurd h (not_le.2 hlt)
      · exact ih (j + 1) hm' (by rw [show j + 1 + m = j + (m + 1) by omega]; exact h)
    · rw [if_neg (by exact_mod_cast not_lt.2 hge), Outcome.bind_ub]

theorem ruleSize_ok (s n : ℕ) (h : min s (n + 1) * (n + s + 1).choose s < 2 ^ 31) :
    ruleSize s n = .ok (((n + s + 1).choose s : ℕ) : ℤ) := by
  have hmn : min (s : ℤ) ((n : ℤ) + s + 1 - s) = ((min s (n + 1) : ℕ) : ℤ) := by
    rw [show (n : ℤ) + s + 1 - s = ((n + 1 : ℕ) : ℤ) by push_cast; ring]; exact_mod_cast rfl
  have hmx : max (s : ℤ) ((n : ℤ) + s + 1 - s) = ((max s (n + 1) : ℕ) : ℤ) := by
    rw [show (n : ℤ) + s + 1 - s = ((n + 1 : ℕ) : ℤ) by push_cast; ring]; exact_mod_cast rfl
  unfold ruleSize i4Choose
  dsimp only
  rw [hmn, hmx, if_neg (by omega)]
  rcases Nat.eq_zero_or_pos s with rfl | hs
  · simp
  · have hpos : 0 < min s (n + 1) := by omega
    rw [if_neg (by exact_mod_cast hpos.ne')]
    have hc : (n + s + 1).choose s = (max s (n + 1) + min s (n + 1)).choose (min s (n + 1)) := by
      rcases le_total s (n + 1) with hle | hle
      · rw [min_eq_left hle, max_eq_right hle]; congr 1; omega
      · rw [min_eq_right hle, max_eq_left hle, show s + (n + 1) = n + s + 1 by omega]
        exact (Nat.choose_symm_of_eq_add (by omega))
    rw [hc] at h ⊢
    generalize max s (n + 1) = mx at *
    generalize min s (n + 1) = mn at *
    have h1 : mx + 1 < 2 ^ 31 := by
      refine lt_of_le_of_lt ?_ h
      calc mx + 1 = 1 * (mx + 1).choose 1 := by simp
        _ ≤ _ := Nat.mul_le_mul hpos (choose_mono' mx hpos)
    rw [ck, if_pos (by exact_mod_cast h1), Outcome.bind_ok]
    have := chooseLoop_ok mx 1 (mn - 1) (by rw [show 1 + (mn - 1) = mn by omega]; exact h)
    rw [show 1 + (mn - 1) = mn by omega, Nat.choose_one_right] at this
    rw [← this]; simp

theorem ruleSize_ub (s n : ℕ) (h : 2 ^ 31 ≤ min s (n + 1) * (n + s + 1).choose s) :
    ruleSize s n = .ub "int overflow" := by
  have hmn : min (s : ℤ) ((n : ℤ) + s + 1 - s) = ((min s (n + 1) : ℕ) : ℤ) := by
    rw [show (n : ℤ) + s + 1 - s = ((n + 1 : ℕ) : ℤ) by push_cast; ring]; exact_mod_cast rfl
  have hmx : max (s : ℤ) ((n : ℤ) + s + 1 - s) = ((max s (n + 1) : ℕ) : ℤ) := by
    rw [show (n : ℤ) + s + 1 - s = ((n + 1 : ℕ) : ℤ) by push_cast; ring]; exact_mod_cast rfl
  unfold ruleSize i4Choose
  dsimp only
  rw [hmn, hmx, if_neg (by omega)]
  have hpos : 0 < min s (n + 1) := by
    rcases Nat.eq_zero_or_pos (min s (n + 1)) with h0 | h0
    · rw [h0] at h; omega
    · exact h0
  rw [if_neg (by exact_mod_cast hpos.ne')]
  have hc : (n + s + 1).choose s = (max s (n + 1) + min s (n + 1)).choose (min s (n + 1)) := by
    rcases le_total s (n + 1) with hle | hle
    · rw [min_eq_left hle, max_eq_right hle]; congr 1; omega
    · rw [min_eq_right hle, max_eq_left hle, show s + (n + 1) = n + s + 1 by omega]
      exact (Nat.choose_symm_of_eq_add (by omega))
  rw [hc] at h
  generalize max s (n + 1) = mx at *
  generalize min s (n + 1) = mn at *
  rw [ck]
  refine (Nat.lt_or_ge (mx + 1) (2 ^ 31)).elim (fun hlt => ?_) (fun hge => ?_)
  · rw [if_pos (by exact_mod_cast hlt), Outcome.bind_ok]
    have hm1 : 0 < mn - 1 := by
      rcases Nat.eq_zero_or_pos (mn - 1) with h0 | h0
      · exfalso
        have : mn = 1 := by omega
        subst this
        rw [Nat.choose_one_right] at h; omega
      · exact h0
    have := chooseLoop_ub mx 1 (mn - 1) hm1 (by rw [show 1 + (mn - 1) = mn by omega]; exact h)
    rw [Nat.choose_one_right] at this
    simpa using this
  · rw [if_neg (by exact_mod_cast not_lt.2 hge), Outcome.bind_ub]

end Verif.Lemmas.GrundMoeller
