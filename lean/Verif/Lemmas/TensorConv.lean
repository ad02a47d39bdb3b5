import Verif.Model.TensorConv
import Verif.Lemmas.Tensor
import Mathlib.Tactic.LinearCombination
import Mathlib.Tactic.FieldSimp
import Mathlib.Tactic.NormNum
/-!
Symbolic execution of the assignment tables of the tensor conversions.
-/
namespace Verif.TensorConv
open Verif.Tensor Finset

/-- Where the final value of every coefficient comes from. -/
def symb (w : List (Idx 3 × Src)) : Idx 3 → Option (Nat × Fac) :=
  w.foldl (fun A e t => if t = e.1 then (match e.2 with
    | .vec n f => some (n, f)
    | .copy u => A u) else A t) (fun _ => none)

noncomputable def valOf (v : Vec) : Option (Nat × Fac) → ℝ
  | none => 0
  | some (n, f) => v.at' n / f.val

theorem get_exec (w : List (Idx 3 × Src)) (v : Vec) (t : Idx 3) : get (exec w v) t = valOf v (symb w t) := by
  have key : ∀ (w : List (Idx 3 × Src)) (A : Tens ℝ 3) (B : Idx 3 → Option (Nat × Fac)),
      (∀ t, get A t = valOf v (B t)) → ∀ t, get (w.foldl (fun A e => set A e.1 (e.2.val v A)) A) t =
        valOf v (w.foldl (fun A e t => if t = e.1 then (match e.2 with
          | .vec n f => some (n, f)
          | .copy u => A u) else A t) B t) := by
    intro w
    induction w with
    | nil => intro A B h t; exact h t
    | cons e w ih =>
      intro A B h t
      rw [List.foldl_cons, List.foldl_cons]
      apply ih
      intro u
      rw [get_set]
      by_cases hu : u = e.1
      · rw [if_pos hu, if_pos hu]
        rcases e with ⟨t', n | c⟩
        · rfl
        · exact h c
      · rw [if_neg hu, if_neg hu]; exact h u
  exact key w zero _ (fun _ => rfl) t

/-- Product of factors. -/
def Fac.mul : Fac → Fac → Option Fac
  | .one, f => some f
  | f, .one => some f
  | .sqrt2, .sqrt2 => some .two
  | _, _ => none

/-- Position and factor of the entry `(i, j)` of a matrix in a vector of size 4, 5, 6 or 9. -/
def place : Nat → Fin 3 → Fin 3 → Option (Nat × Fac)
  | 4, i, j => if i = j then some (i.val, .one) else if i.val + j.val = 1 then some (3, .sqrt2) else none
  | 5, i, j => if i = j then some (i.val, .one) else if i.val + j.val = 1 then some (3 + i.val, .one) else none
  | 6, i, j => if i = j then some (i.val, .one) else some (2 + i.val + j.val, .sqrt2)
  | 9, i, j => if i = j then some (i.val, .one) else
      some (2 * (i.val + j.val) + 1 + (if i.val < j.val then 0 else 1), .one)
  | _, _, _ => none

/-- The entry of the tangent for `(i, j)` and `(k, l)`. -/
def place4 (n : Nat) (t : Idx 3) : Option (Nat × Fac) :=
  (place n t.i t.j).bind fun a => (place n t.k t.l).bind fun b => (a.2.mul b.2).map fun f => (n * a.1 + b.1, f)

/-- All indices, for evaluation. -/
def AllIdx (p : Idx 3 → Bool) : Bool := (quads 3).all p

theorem of_allIdx {p : Idx 3 → Bool} (h : AllIdx p = true) (t : Idx 3) : p t = true :=
  List.all_eq_true.mp h t (mem_quads t)

theorem symb16 (t : Idx 3) : symb writes16 t = place4 4 t := by
  have h : AllIdx (fun t => symb writes16 t == place4 4 t) = true := by decide +kernel
  simpa using of_allIdx h t

theorem symb25 (t : Idx 3) : symb writes25 t = place4 5 t := by
  have h : AllIdx (fun t => symb writes25 t == place4 5 t) = true := by decide +kernel
  simpa using of_allIdx h t

theorem symb81 (t : Idx 3) : symb writes81 t = place4 9 t := by
  have h : AllIdx (fun t => symb writes81 t == place4 9 t) = true := by decide +kernel
  simpa using of_allIdx h t

/-- The vector position of a pair of indices in the order 11, 22, 33, 23, 31, 12. -/
def placeRot (i j : Fin 3) : Nat × Fac := if i = j then (i.val, .one) else (6 - i.val - j.val, .sqrt2)

/-- The entries of `case 36`: the order is 11, 22, 33, 23, 31, 12 and the factors of entries 32 and 34 are off. -/
def place36 (t : Idx 3) : Option (Nat × Fac) :=
  let a := placeRot t.i t.j
  let b := placeRot t.k t.l
  let n := 6 * a.1 + b.1
  if n = 32 then some (32, .two) else if n = 34 then some (34, .sqrt2) else (a.2.mul b.2).map fun f => (n, f)

theorem symb36 (t : Idx 3) : symb writes36 t = place36 t := by
  have h : AllIdx (fun t => symb writes36 t == place36 t) = true := by decide +kernel
  simpa using of_allIdx h t

/-- Where the entries of the Mandel matrix come from. -/
def msymb (w : List (Fin 6 × Fin 6 × Idx 3 × Fac)) : Fin 6 → Fin 6 → Option (Idx 3 × Fac) :=
  w.foldl (fun R e r c => if r = e.1 ∧ c = e.2.1 then some (e.2.2.1, e.2.2.2) else R r c) (fun _ _ => none)

noncomputable def mvalOf (A : Tens ℝ 3) : Option (Idx 3 × Fac) → ℝ
  | none => 0
  | some (t, f) => get A t * f.val

theorem mandel_eq (A : Tens ℝ 3) (r c : Fin 6) : mandel A r c = mvalOf A (msymb (mandel2 ++ mandel3) r c) := by
  have key : ∀ (w : List (Fin 6 × Fin 6 × Idx 3 × Fac)) (R : Mat ℝ 6) (S : Fin 6 → Fin 6 → Option (Idx 3 × Fac)),
      (∀ r c, R r c = mvalOf A (S r c)) → ∀ r c,
        (w.foldl (fun R e => setM R e.1 e.2.1 (get A e.2.2.1 * e.2.2.2.val)) R) r c =
        mvalOf A (w.foldl (fun R e r c => if r = e.1 ∧ c = e.2.1 then some (e.2.2.1, e.2.2.2) else R r c) S r c) := by
    intro w
    induction w with
    | nil => intro R S h r c; exact h r c
    | cons e w ih =>
      intro R S h r c
      rw [List.foldl_cons, List.foldl_cons]
      apply ih
      intro r c
      unfold setM
      by_cases hu : r = e.1 ∧ c = e.2.1
      · rw [if_pos hu, if_pos hu]; rfl
      · rw [if_neg hu, if_neg hu]; exact h r c
  exact key (mandel2 ++ mandel3) (fun _ _ => 0) (fun _ _ => none) (fun _ _ => rfl) r c

/-- The pair of indices of a Mandel component. -/
def pair : Fin 6 → Fin 3 × Fin 3
  | 0 => (0, 0)
  | 1 => (1, 1)
  | 2 => (2, 2)
  | 3 => (0, 1)
  | 4 => (0, 2)
  | 5 => (1, 2)

/-- The factor of a Mandel entry. -/
def pairFac (r c : Fin 6) : Fac := if r.val < 3 then (if c.val < 3 then .one else .sqrt2) else
  if c.val < 3 then .sqrt2 else .two

theorem mandel_entry (A : Tens ℝ 3) (r c : Fin 6) :
    mandel A r c = get A ⟨(pair r).1, (pair r).2, (pair c).1, (pair c).2⟩ * (pairFac r c).val := by
  have h : ∀ r c : Fin 6, msymb (mandel2 ++ mandel3) r c =
      some (⟨(pair r).1, (pair r).2, (pair c).1, (pair c).2⟩, pairFac r c) := by decide +kernel
  rw [mandel_eq, h]; rfl

/-! The loop of `convertCtoA`. -/

/-- Exchange of the pairs of indices. -/
def Idx.swap (t : Idx 3) : Idx 3 := ⟨t.k, t.l, t.i, t.j⟩

theorem swap_swap (t : Idx 3) : Idx.swap (Idx.swap t) = t := rfl

theorem ctoa_fold (f : Idx 3 → ℝ) (L : List (Idx 3)) (A : Tens ℝ 3) (hA : ∀ t, get A t = get A (Idx.swap t)) :
    (∀ t, get (L.foldl (fun A t => set (set A t (f t)) (Idx.swap t) (f t)) A) t =
      get (L.foldl (fun A t => set (set A t (f t)) (Idx.swap t) (f t)) A) (Idx.swap t)) ∧
    ∀ t, (t ∈ L ∨ (get A t = f t ∨ get A t = f (Idx.swap t))) →
      (get (L.foldl (fun A t => set (set A t (f t)) (Idx.swap t) (f t)) A) t = f t ∨
      get (L.foldl (fun A t => set (set A t (f t)) (Idx.swap t) (f t)) A) t = f (Idx.swap t)) := by
  induction L generalizing A with
  | nil => exact ⟨hA, fun t ht => by simpa using ht⟩
  | cons u L ih =>
    have hB : ∀ t, get (set (set A u (f u)) (Idx.swap u) (f u)) t =
        if t = u ∨ t = Idx.swap u then f u else get A t := by
      intro t
      rw [get_set, get_set]
      by_cases h1 : t = Idx.swap u <;> by_cases h2 : t = u <;> simp [h1, h2]
    have sw : ∀ t u : Idx 3, Idx.swap t = u ↔ t = Idx.swap u := fun t u =>
      ⟨fun h => by rw [← h]; rfl, fun h => by rw [h]; rfl⟩
    obtain ⟨i1, i2⟩ := ih (set (set A u (f u)) (Idx.swap u) (f u)) (fun t => by
      have e : (Idx.swap t = u ∨ Idx.swap t = Idx.swap u) ↔ (t = u ∨ t = Idx.swap u) := by
        rw [sw, sw, swap_swap]; exact or_comm
      rw [hB, hB, ← hA t]
      simp only [e])
    refine ⟨i1, fun t ht => i2 t ?_⟩
    rw [hB]
    by_cases h2 : t = u
    · right; left; rw [if_pos (Or.inl h2), h2]
    · by_cases h1 : t = Idx.swap u
      · right; right; rw [if_pos (Or.inr h1), h1]; rfl
      · rw [if_neg (by tauto)]
        rcases ht with ht | ht
        · rcases List.mem_cons.mp ht with ht | ht
          · exact absurd ht h2
          · exact Or.inl ht
        · exact Or.inr ht

theorem sqrt2_sq : Real.sqrt 2 * Real.sqrt 2 = 2 := Real.mul_self_sqrt (by norm_num)

theorem sqrt2_ne : Real.sqrt 2 ≠ 0 := by positivity

theorem div_sqrt2 (x : ℝ) : x / Real.sqrt 2 = x * Real.sqrt 2 / 2 := by
  have h := sqrt2_sq
  have := sqrt2_ne
  field_simp
  linear_combination -x * h

theorem sqrt2_mul_div (x : ℝ) : Real.sqrt 2 * x / Real.sqrt 2 = x := mul_div_cancel_left₀ x sqrt2_ne

/-- The product with the tensor of a 6 × 6 tangent. -/
theorem tmProd36 (v : Vec) (E : Mat ℝ 3) (i j : Fin 3) :
    tmProd (exec writes36 v) E i j = ∑ k, ∑ l, valOf v (place36 ⟨i, j, k, l⟩) * E k l := by
  show ∑ k, ∑ l, get (exec writes36 v) ⟨i, j, k, l⟩ * E k l = _
  simp only [get_exec, symb36]

end Verif.TensorConv
