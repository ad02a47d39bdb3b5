import Verif.Model.TimeSteps
import Verif.Spec.TimeSteps
import Verif.Spec.Double
import Mathlib.Tactic.Linarith
import Mathlib.Tactic.FieldSimp
import Mathlib.Tactic.Ring
import Mathlib.Tactic.NormNum
import Mathlib.Data.Rat.Floor
import Mathlib.Algebra.Order.Round
import Mathlib.Data.Int.Log
/-!
Invariants of the list of time steps and facts on doubles.
-/
namespace Verif.TimeSteps
open Verif.Spec
variable {K : Type} [Field K] [LinearOrder K] [IsStrictOrderedRing K]

/-- The interval of a step. -/
def ivl (s : Step K) : K × K := (s.start, s.fin)

theorem covers_append {a b c : K} {l m : List (K × K)} (h1 : Covers a b l) (h2 : Covers b c m) :
    Covers a c (l ++ m) := by
  induction l generalizing a with
  | nil => simp only [Covers] at h1; subst h1; simpa using h2
  | cons s l ih => exact ⟨h1.1, h1.2.1, ih h1.2.2⟩

theorem covers_split {a c : K} {l m : List (K × K)} (h : Covers a c (l ++ m)) :
    ∃ b, Covers a b l ∧ Covers b c m := by
  induction l generalizing a with
  | nil => exact ⟨a, rfl, h⟩
  | cons s l ih =>
    obtain ⟨b, h1, h2⟩ := ih h.2.2
    exact ⟨b, ⟨h.1, h.2.1, h1⟩, h2⟩

theorem covers_le {a b : K} {l : List (K × K)} (h : Covers a b l) : a ≤ b := by
  induction l generalizing a with
  | nil => exact le_of_eq h
  | cons s l ih => have := ih h.2.2; have := h.2.1; have := h.1; linarith

theorem covers_last {a b : K} {l : List (Step K)} (h : Covers a b (l.map ivl)) :
    (l = [] ∧ a = b) ∨ ∃ s, l.getLast? = some s ∧ s.fin = b := by
  induction l generalizing a with
  | nil => exact Or.inl ⟨rfl, h⟩
  | cons s l ih =>
    right
    rcases ih h.2.2 with ⟨rfl, e⟩ | ⟨t, ht, e⟩
    · exact ⟨s, rfl, e⟩
    · refine ⟨t, ?_, e⟩
      cases l with
      | nil => simp at ht
      | cons x l => simpa using ht

/-- The steps added by `addTimeStepping` in exact arithmetic. -/
def newSteps (a dt : K) (n : Nat) : List (Step K) :=
  (List.range n).map fun i : Nat => ⟨a + (i : K) * dt, a + ((i : K) + 1) * dt, 0⟩

theorem addStepping_exact {user endT : K} {n : Nat} {l : List (Step K)} (hn : 0 < n)
    (hT : startTime l ≤ endT) (hu : endT ≤ user) :
    addStepping id user endT n l = l ++ newSteps (startTime l) ((endT - startTime l) / n) n := by
  unfold addStepping newSteps
  dsimp only [id]
  generalize startTime l = a at hT
  have n0 : (0 : K) < n := by exact_mod_cast hn
  have key : ∀ m ≤ n, (List.range m).foldl (fun l (i : Nat) =>
      if a + ((i + 1 : Nat) : K) * ((endT - a) / n) ≤ user then
        l ++ [(⟨a + (i : K) * ((endT - a) / n), a + ((i + 1 : Nat) : K) * ((endT - a) / n), 0⟩ : Step K)]
      else l) l = l ++ (List.range m).map fun i : Nat =>
        (⟨a + (i : K) * ((endT - a) / n), a + ((i : K) + 1) * ((endT - a) / n), 0⟩ : Step K) := by
    intro m
    induction m with
    | zero => simp
    | succ m ih =>
      intro hm
      rw [List.range_succ, List.foldl_append, ih (by omega)]
      have c : a + ((m + 1 : Nat) : K) * ((endT - a) / n) ≤ user := by
        have h1 : ((m + 1 : Nat) : K) ≤ n := by exact_mod_cast hm
        have h2 : ((m + 1 : Nat) : K) * ((endT - a) / n) ≤ n * ((endT - a) / n) :=
          mul_le_mul_of_nonneg_right h1 (div_nonneg (by linarith) n0.le)
        rw [mul_div_cancel₀ _ n0.ne'] at h2
        linarith
      simp only [List.foldl_cons, List.foldl_nil, if_pos c, List.map_append, List.map_cons, List.map_nil]
      push_cast
      simp
  exact key n le_rfl

theorem newSteps_covers {a dt : K} (hdt : 0 < dt) (n : Nat) :
    Covers a (a + n * dt) ((newSteps a dt n).map ivl) := by
  unfold newSteps
  induction n with
  | zero => simp [Covers]
  | succ n ih =>
    rw [List.range_succ, List.map_append, List.map_append]
    refine covers_append ih ?_
    simp only [List.map_cons, List.map_nil, ivl, Covers, true_and]
    push_cast
    refine ⟨?_, rfl⟩
    linarith

theorem startTime_covers {b : K} {l : List (Step K)} (h : Covers 0 b (l.map ivl)) : startTime l = b := by
  unfold startTime
  rcases covers_last h with ⟨rfl, e⟩ | ⟨s, hs, e⟩
  · simpa using e
  · rw [hs]; exact e

theorem increasing_le_last {a : K} {st : List (K × Nat)} (h : Increasing a st) {e : K × Nat}
    (he : st.getLast? = some e) : ∀ s ∈ st, s.1 ≤ e.1 := by
  induction st generalizing a with
  | nil => intro s hs; cases hs
  | cons x l ih =>
    intro s hs
    cases l with
    | nil =>
      simp only [List.getLast?_singleton, Option.some.injEq] at he
      simp only [List.mem_singleton] at hs
      rw [hs, he]
    | cons y l =>
      have he' : (y :: l).getLast? = some e := by simpa using he
      have := ih h.2.2 he'
      rcases List.mem_cons.mp hs with rfl | hs
      · exact (h.2.2.1.le).trans (this y (by simp))
      · exact this s hs

theorem stages_covers {user : K} (st : List (K × Nat)) {b : K} {l : List (Step K)} (h : Increasing b st)
    (hl : Covers 0 b (l.map ivl)) (hu : ∀ s ∈ st, s.1 ≤ user) :
    Covers 0 ((st.map Prod.fst).getLastD b)
      ((st.foldl (fun l s => addStepping id user s.1 s.2 l) l).map ivl) := by
  induction st generalizing b l with
  | nil => simpa using hl
  | cons x st ih =>
    have hs := startTime_covers hl
    have n0 : (0 : K) < x.2 := by exact_mod_cast h.2.1
    have c : Covers 0 x.1 ((addStepping id user x.1 x.2 l).map ivl) := by
      rw [addStepping_exact h.2.1 (by rw [hs]; exact h.1.le) (hu x (by simp)), hs, List.map_append]
      refine covers_append hl ?_
      have := newSteps_covers (a := b) (div_pos (sub_pos.mpr h.1) n0) x.2
      rwa [mul_div_cancel₀ _ n0.ne', add_sub_cancel] at this
    have := ih h.2.2 c (fun s hs => hu s (by simp [hs]))
    simp only [List.foldl_cons, List.map_cons, List.getLastD_cons]
    exact this

/-- With an arbitrary final time, `addTimeStepping` keeps a prefix of the steps of the stage. -/
theorem addStepping_prefix {user endT : K} {n : Nat} {l : List (Step K)} (hn : 0 < n)
    (hT : startTime l < endT) :
    ∃ k ≤ n, addStepping id user endT n l = l ++ newSteps (startTime l) ((endT - startTime l) / n) k ∧
      (0 < k → startTime l + k * ((endT - startTime l) / n) ≤ user) ∧
      (k < n → user < startTime l + (k + 1) * ((endT - startTime l) / n)) := by
  unfold addStepping newSteps
  dsimp only [id]
  generalize startTime l = a at hT
  have n0 : (0 : K) < n := by exact_mod_cast hn
  have hdt : 0 < (endT - a) / n := div_pos (by linarith) n0
  generalize (endT - a) / n = dt at hdt
  have key : ∀ m, ∃ k ≤ m, (List.range m).foldl (fun l (i : Nat) =>
      if a + ((i + 1 : Nat) : K) * dt ≤ user then
        l ++ [(⟨a + (i : K) * dt, a + ((i + 1 : Nat) : K) * dt, 0⟩ : Step K)]
      else l) l = l ++ ((List.range k).map fun i : Nat =>
        (⟨a + (i : K) * dt, a + ((i : K) + 1) * dt, 0⟩ : Step K)) ∧
        (0 < k → a + k * dt ≤ user) ∧ (k < m → user < a + (k + 1) * dt) := by
    intro m
    induction m with
    | zero => exact ⟨0, le_rfl, by simp, by simp, by simp⟩
    | succ m ih =>
      obtain ⟨k, hk, e, h1, h2⟩ := ih
      rw [List.range_succ, List.foldl_append, e]
      simp only [List.foldl_cons, List.foldl_nil]
      by_cases c : a + ((m + 1 : Nat) : K) * dt ≤ user
      · have hkm : k = m := by
          by_contra hne
          have lt : k < m := by omega
          have g := h2 lt
          have : ((k : K) + 1) * dt ≤ ((m + 1 : Nat) : K) * dt := by
            refine mul_le_mul_of_nonneg_right ?_ hdt.le
            exact_mod_cast (by omega : k + 1 ≤ m + 1)
          linarith
        subst hkm
        refine ⟨k + 1, le_rfl, ?_, fun _ => c, fun h => by omega⟩
        rw [if_pos c, List.range_succ, List.map_append]
        push_cast
        simp
      · refine ⟨k, by omega, by rw [if_neg c], h1, fun _ => ?_⟩
        by_cases lt : k < m
        · exact h2 lt
        · have : k = m := by omega
          subst this
          push Not at c
          push_cast at c
          exact c
  exact key n

theorem until_covers {final : K} (st : List (K × Nat)) {b e : K} {l : List (Step K)} (h : Increasing b st)
    (hl : Covers 0 e (l.map ivl)) (heb : e ≤ b) (hef : e ≤ final) :
    ∃ e', e' ≤ final ∧ Covers 0 e' ((st.foldl (fun l s => addStepping id final s.1 s.2 l) l).map ivl) := by
  induction st generalizing b e l with
  | nil => exact ⟨e, hef, hl⟩
  | cons x st ih =>
    have hs := startTime_covers hl
    have n0 : (0 : K) < x.2 := by exact_mod_cast h.2.1
    have hx : e < x.1 := lt_of_le_of_lt heb h.1
    obtain ⟨k, hk, q, h1, _⟩ := addStepping_prefix (user := final) (l := l) h.2.1 (by rw [hs]; exact hx)
    rw [hs] at q h1
    have hdt : 0 < (x.1 - e) / x.2 := div_pos (by linarith) n0
    have c : Covers 0 (e + k * ((x.1 - e) / x.2)) ((addStepping id final x.1 x.2 l).map ivl) := by
      rw [q, List.map_append]
      exact covers_append hl (newSteps_covers hdt k)
    refine ih h.2.2 c ?_ ?_
    · have : (k : K) * ((x.1 - e) / x.2) ≤ x.2 * ((x.1 - e) / x.2) :=
        mul_le_mul_of_nonneg_right (by exact_mod_cast hk) hdt.le
      rw [mul_div_cancel₀ _ n0.ne'] at this
      linarith
    · rcases Nat.eq_zero_or_pos k with rfl | hk0
      · simpa using hef
      · exact h1 hk0

/-- Invariant of a run. -/
structure Inv (T : K) (n : Nat) (splits : Nat) (s : Steps K) (acc : List (Step K)) : Prop where
  cov : Covers 0 T ((acc ++ s.list).map ivl)
  comp : s.comp = acc.length
  num : (acc ++ s.list).length = n + splits
  len : ∀ t ∈ acc ++ s.list, t.fin - t.start = T / n / 2 ^ t.level

theorem inv_init {T : K} (hT : 0 < T) {n : Nat} (hn : 0 < n) : Inv T n 0 (init id T n) [] := by
  have n0 : (0 : K) < n := by exact_mod_cast hn
  have e : (init id T n).list = newSteps 0 (T / n) n := by
    unfold init
    have h0 : startTime ([] : List (Step K)) = 0 := rfl
    rw [addStepping_exact hn (by rw [h0]; exact hT.le) le_rfl, h0, sub_zero]; rfl
  constructor
  · rw [List.nil_append, e]
    have := newSteps_covers (a := 0) (div_pos hT n0) n
    rwa [zero_add, mul_div_cancel₀ _ n0.ne'] at this
  · rfl
  · rw [List.nil_append, e]; simp [newSteps]
  · rw [List.nil_append, e]
    intro t ht
    obtain ⟨i, _, rfl⟩ := List.mem_map.mp ht
    simp only [pow_zero, div_one]; ring

theorem inv_accept {T : K} {n k : Nat} {s : Steps K} {acc : List (Step K)} {c : Step K} {l : List (Step K)}
    (h : Inv T n k s acc) (hl : s.list = c :: l) : Inv T n k ⟨l, s.comp + 1⟩ (acc ++ [c]) := by
  have e : acc ++ [c] ++ l = acc ++ s.list := by rw [hl]; simp
  exact ⟨by rw [e]; exact h.cov, by simp [h.comp], by rw [e]; exact h.num, by rw [e]; exact h.len⟩

theorem inv_split {T : K} {n k : Nat} {s : Steps K} {acc : List (Step K)} {c : Step K} {l : List (Step K)}
    (h : Inv T n k s acc) (hl : s.list = c :: l) {mid : K} (hm : mid = c.start + (c.fin - c.start) / 2) :
    Inv T n (k + 1) ⟨⟨c.start, mid, c.level + 1⟩ :: ⟨mid, c.fin, c.level + 1⟩ :: l, s.comp⟩ acc := by
  obtain ⟨cov, comp, num, len⟩ := h
  rw [hl] at cov num len
  constructor
  · rw [List.map_append] at cov ⊢
    obtain ⟨b, h1, h2⟩ := covers_split cov
    refine covers_append h1 ?_
    simp only [List.map_cons, ivl, Covers] at h2 ⊢
    obtain ⟨a1, a2, a3⟩ := h2
    exact ⟨a1, by rw [hm]; linarith, trivial, by rw [hm]; linarith, a3⟩
  · exact comp
  · simp only [List.length_append, List.length_cons] at num ⊢; omega
  · intro t ht
    have hc := len c (by simp)
    have e : T / n / 2 ^ (c.level + 1) = (c.fin - c.start) / 2 := by rw [hc, pow_succ]; field_simp
    simp only [List.mem_append, List.mem_cons] at ht
    rcases ht with ht | rfl | rfl | ht
    · exact len t (by simp [ht])
    · show mid - c.start = _
      rw [e, hm]; ring
    · show c.fin - mid = _
      rw [e, hm]; ring
    · exact len t (by simp [ht])

theorem inv_run {T : K} {n k : Nat} {s s' : Steps K} {acc acc' : List (Step K)} (h : Inv T n k s acc)
    (ops : List Op) (hr : run id s acc ops = .ok (s', acc')) : Inv T n (k + ops.count .split) s' acc' := by
  induction ops generalizing s acc k with
  | nil =>
    simp only [run] at hr
    cases hr
    simpa using h
  | cons op ops ih =>
    rcases hl : s.list with _ | ⟨c, l⟩
    · cases op <;> simp [run, current, hl, split, Outcome.bind] at hr
    · cases op with
      | accept =>
        simp only [run, current, remove, hl, Outcome.bind_ok] at hr
        have := ih (inv_accept h hl) hr
        simpa using this
      | split =>
        simp only [run, split, current, hl, Outcome.bind_ok, List.tail_cons, id] at hr
        have := ih (inv_split h hl rfl) hr
        rw [List.count_cons_self]
        rw [show k + (ops.count Op.split + 1) = k + 1 + ops.count Op.split by omega]
        exact this

/-! Doubles. -/

theorem isDouble_int {m : ℤ} (h : |m| ≤ 2 ^ 53) : IsDouble (m : ℚ) := ⟨m, 0, h, by simp⟩

/-- Rounding does not step over a double. -/
theorem rd_le {rd : ℚ → ℚ} (h : Nearest rd) {q d : ℚ} (hd : IsDouble d) (hq : q ≤ d) : rd q ≤ d := by
  by_contra hc
  push Not at hc
  have := (h q).2 d hd
  rw [abs_of_nonneg (by linarith), abs_of_nonneg (by linarith)] at this
  linarith

theorem le_rd {rd : ℚ → ℚ} (h : Nearest rd) {q d : ℚ} (hd : IsDouble d) (hq : d ≤ q) : d ≤ rd q := by
  by_contra hc
  push Not at hc
  have := (h q).2 d hd
  rw [abs_of_nonpos (by linarith), abs_of_nonpos (by linarith)] at this
  linarith

theorem rd_double {rd : ℚ → ℚ} (h : Nearest rd) {d : ℚ} (hd : IsDouble d) : rd d = d :=
  le_antisymm (rd_le h hd le_rfl) (le_rd h hd le_rfl)

/-- A double of size at least `2^(52+e)` is a multiple of `2^e`. -/
theorem double_multiple {d : ℚ} (hd : IsDouble d) {e : ℤ} (h : (2 : ℚ) ^ (52 + e) ≤ |d|) :
    ∃ k : ℤ, d = k * (2 : ℚ) ^ e := by
  obtain ⟨m, f, hm, rfl⟩ := hd
  by_cases hf : e ≤ f
  · refine ⟨m * 2 ^ (f - e).toNat, ?_⟩
    push_cast
    rw [← zpow_natCast, Int.toNat_of_nonneg (by omega), mul_assoc, ← zpow_add₀ (by norm_num)]
    congr 2; omega
  · -- then `f + 1 = e` and the significand is `2^53`
    rw [abs_mul, abs_of_pos (by positivity : (0 : ℚ) < 2 ^ f)] at h
    have hm' : |(m : ℚ)| ≤ 2 ^ (53 : ℤ) := by
      have : ((|m| : ℤ) : ℚ) ≤ ((2 ^ 53 : ℤ) : ℚ) := by exact_mod_cast hm
      rw [Int.cast_abs] at this
      exact this.trans (by norm_num)
    have h1 : (2 : ℚ) ^ (52 + e) ≤ 2 ^ (53 + f) := by
      rw [zpow_add₀ (by norm_num : (2 : ℚ) ≠ 0) 53 f]
      exact h.trans (mul_le_mul_of_nonneg_right hm' (by positivity))
    have h2 : 52 + e ≤ 53 + f := (zpow_le_zpow_iff_right₀ (by norm_num : (1 : ℚ) < 2)).mp h1
    have h3 : e = f + 1 := by omega
    subst h3
    have h4 : (2 : ℚ) ^ (53 : ℤ) ≤ |(m : ℚ)| := by
      rw [show (52 : ℤ) + (f + 1) = 53 + f by omega, zpow_add₀ (by norm_num)] at h
      exact le_of_mul_le_mul_right h (by positivity)
    have h5 : |m| = 2 ^ 53 := by
      have : (2 : ℚ) ^ (53 : ℤ) = ((2 ^ 53 : ℤ) : ℚ) := by norm_num
      rw [this, ← Int.cast_abs] at h4
      have : (2 ^ 53 : ℤ) ≤ |m| := by exact_mod_cast h4
      omega
    have e1 : (2 : ℚ) ^ (f + 1) = 2 * 2 ^ f := by rw [zpow_add₀ (by norm_num), zpow_one]; ring
    rcases abs_eq (by norm_num : (0 : ℤ) ≤ 2 ^ 53) |>.mp h5 with hm1 | hm1
    · refine ⟨2 ^ 52, ?_⟩
      rw [hm1, e1]; push_cast; ring
    · refine ⟨-2 ^ 52, ?_⟩
      rw [hm1, e1]; push_cast; ring

/-- The nearest double when the candidate is less than half a spacing away. -/
theorem rd_eq {rd : ℚ → ℚ} (h : Nearest rd) {q : ℚ} {m e : ℤ} (hm1 : 2 ^ 52 ≤ m) (hm2 : m ≤ 2 ^ 53)
    (hq1 : (2 : ℚ) ^ (52 + e) ≤ q) (hq : |m * (2 : ℚ) ^ e - q| < 2 ^ e / 2) : rd q = m * (2 : ℚ) ^ e := by
  have hx : IsDouble (m * (2 : ℚ) ^ e) := ⟨m, e, by rw [abs_of_nonneg (by linarith)]; exact hm2, rfl⟩
  have h52 : IsDouble ((2 : ℚ) ^ (52 + e)) := ⟨1, 52 + e, by norm_num, by simp⟩
  have g := le_rd h h52 hq1
  obtain ⟨k, hk⟩ := double_multiple (h q).1 (e := e) (g.trans (le_abs_self _))
  have n := (h q).2 _ hx
  have p : (0 : ℚ) < 2 ^ e := by positivity
  have t : |rd q - m * (2 : ℚ) ^ e| < 2 ^ e := by
    have := abs_sub_le (rd q) q (m * (2 : ℚ) ^ e)
    have s := abs_sub_comm q (m * (2 : ℚ) ^ e)
    linarith
  rw [hk, ← sub_mul, abs_mul, abs_of_pos p] at t
  have t2 : |(k : ℚ) - m| < 1 := by
    by_contra hc
    push Not at hc
    have := mul_le_mul_of_nonneg_right hc p.le
    linarith
  have t3 : |k - m| < 1 := by
    have : ((|k - m| : ℤ) : ℚ) < 1 := by push_cast; exact t2
    exact_mod_cast this
  have : k = m := by
    have := Int.abs_lt_one_iff.mp t3
    omega
  rw [hk, this]

/-- Every number has a nearest double. -/
theorem exists_nearest : ∃ rd, Nearest rd := by
  have key : ∀ q : ℚ, ∃ x, IsDouble x ∧ ∀ d, IsDouble d → |x - q| ≤ |d - q| := by
    intro q
    by_cases hq : q = 0
    · exact ⟨0, ⟨0, 0, by norm_num, by simp⟩, fun d _ => by subst hq; simp⟩
    have hq' : 0 < |q| := abs_pos.mpr hq
    obtain ⟨e, he⟩ : ∃ e, Int.log 2 |q| = 52 + e := ⟨Int.log 2 |q| - 52, by omega⟩
    have l1 : (2 : ℚ) ^ (52 + e) ≤ |q| := by
      have := Int.zpow_log_le_self (b := 2) (by norm_num) hq'
      rw [he] at this; exact_mod_cast this
    have l2 : |q| < (2 : ℚ) ^ (53 + e) := by
      have := Int.lt_zpow_succ_log_self (b := 2) (by norm_num) |q|
      rw [he, show 52 + e + 1 = 53 + e by omega] at this; exact_mod_cast this
    have p : (0 : ℚ) < 2 ^ e := by positivity
    have near : ∀ k : ℤ, |round (q / 2 ^ e) * (2 : ℚ) ^ e - q| ≤ |k * (2 : ℚ) ^ e - q| := by
      intro k
      have r := round_le (q / 2 ^ e) k
      have a1 : ∀ j : ℤ, |j * (2 : ℚ) ^ e - q| = |q / 2 ^ e - j| * 2 ^ e := by
        intro j
        rw [abs_sub_comm, ← abs_of_pos p, ← abs_mul, abs_of_pos p, sub_mul, div_mul_cancel₀ _ p.ne']
      rw [a1, a1]
      exact mul_le_mul_of_nonneg_right r p.le
    refine ⟨round (q / 2 ^ e) * (2 : ℚ) ^ e, ⟨_, e, ?_, rfl⟩, ?_⟩
    · have b : |q / 2 ^ e| < 2 ^ 53 := by
        rw [abs_div, abs_of_pos p, div_lt_iff₀ p]
        rw [zpow_add₀ (by norm_num)] at l2
        exact_mod_cast l2
      rw [abs_lt] at b
      rw [abs_le]
      have r := abs_le.mp (abs_sub_round (q / 2 ^ e))
      constructor
      · have : (-(2 ^ 53 : ℤ) - 1 : ℚ) < (round (q / 2 ^ e) : ℤ) := by push_cast; linarith
        have : (-(2 ^ 53 : ℤ) - 1 : ℤ) < round (q / 2 ^ e) := by exact_mod_cast this
        omega
      · have : ((round (q / 2 ^ e) : ℤ) : ℚ) < ((2 ^ 53 + 1 : ℤ) : ℚ) := by push_cast; linarith
        have : round (q / 2 ^ e) < (2 ^ 53 + 1 : ℤ) := by exact_mod_cast this
        omega
    · intro d hd
      by_cases hl : (2 : ℚ) ^ (52 + e) ≤ |d|
      · obtain ⟨k, rfl⟩ := double_multiple hd hl
        exact near k
      · push Not at hl
        have e52 : (2 : ℚ) ^ (52 + e) = ((2 ^ 52 : ℤ) : ℚ) * 2 ^ e := by
          rw [zpow_add₀ (by norm_num)]; norm_num
        have hd' := abs_lt.mp hl
        rcases le_total 0 q with h0 | h0
        · rw [abs_of_nonneg h0] at l1
          refine (near (2 ^ 52)).trans ?_
          rw [← e52, abs_of_nonpos (by linarith), abs_of_nonpos (by linarith)]
          linarith
        · rw [abs_of_nonpos h0] at l1
          refine (near (-2 ^ 52)).trans ?_
          have : ((-2 ^ 52 : ℤ) : ℚ) * 2 ^ e = -2 ^ (52 + e) := by rw [e52]; push_cast; ring
          rw [this, abs_of_nonneg (by linarith), abs_of_nonneg (by linarith)]
          linarith
  choose f hf using key
  exact ⟨f, hf⟩

/-- Eleven steps of `100 / 11` in doubles pass 100. -/
theorem overshoot {rd : ℚ → ℚ} (h : Nearest rd) :
    rd (rd (100 - 0) / 11) = 5117726849284655 * (2 : ℚ) ^ (-49 : ℤ) ∧
      rd (0 + rd (11 * (5117726849284655 * (2 : ℚ) ^ (-49 : ℤ)))) = 7036874417766401 * (2 : ℚ) ^ (-46 : ℤ) := by
  have h100 : rd (100 - 0) = 100 := by
    rw [sub_zero]; exact rd_double h (by simpa using isDouble_int (m := 100) (by norm_num))
  have e2 : rd (11 * (5117726849284655 * (2 : ℚ) ^ (-49 : ℤ))) = 7036874417766401 * (2 : ℚ) ^ (-46 : ℤ) := by
    have := rd_eq h (q := 11 * (5117726849284655 * (2 : ℚ) ^ (-49 : ℤ))) (m := 7036874417766401) (e := -46)
      (by norm_num) (by norm_num) (by norm_num [zpow_neg]) (by rw [abs_lt]; constructor <;> norm_num [zpow_neg])
    exact_mod_cast this
  refine ⟨?_, ?_⟩
  · rw [h100]
    have := rd_eq h (q := 100 / 11) (m := 5117726849284655) (e := -49)
      (by norm_num) (by norm_num) (by norm_num [zpow_neg]) (by rw [abs_lt]; constructor <;> norm_num [zpow_neg])
    exact_mod_cast this
  · rw [zero_add, e2]
    exact rd_double h ⟨7036874417766401, -46, by norm_num, by norm_num⟩

end Verif.TimeSteps
