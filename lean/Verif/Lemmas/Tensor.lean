import Verif.Model.Tensor
import Verif.Spec.Tensor
import Mathlib.Tactic.Ring
import Mathlib.Tactic.FinCases
import Mathlib.Algebra.BigOperators.Ring.Finset
/-!
Reading and writing coefficients of stored tensors.
-/
namespace Verif.Tensor
open Finset
variable {K : Type} [Field K] {D : Nat}

/-- The coefficients `A_ijkl` of a stored tensor. -/
def coeffs (A : Tens K D) : Verif.Spec.Tensor4 K D := fun i j k l => get A ⟨i, j, k, l⟩

theorem pos_inj {i k i' k' : Fin D} : pos i k = pos i' k' ↔ i = i' ∧ k = k' := by
  constructor
  · intro h
    have h' : i.val * D + k.val = i'.val * D + k'.val := congrArg Fin.val h
    have hD : 0 < D := Nat.lt_of_le_of_lt (Nat.zero_le _) i.isLt
    have e1 := congrArg (· / D) h'
    have e2 := congrArg (· % D) h'
    simp only [Nat.mul_add_mod_of_lt k.isLt, Nat.mul_add_mod_of_lt k'.isLt] at e2
    simp only [Nat.add_comm (_ * D), Nat.add_mul_div_right _ _ hD, Nat.div_eq_of_lt k.isLt,
      Nat.div_eq_of_lt k'.isLt, Nat.zero_add] at e1
    exact ⟨Fin.ext e1, Fin.ext e2⟩
  · rintro ⟨rfl, rfl⟩; rfl

theorem pos_surj (r : Fin (D * D)) : ∃ i k, r = pos i k := by
  have hD : 0 < D := Nat.pos_of_mul_pos_left (Nat.lt_of_le_of_lt (Nat.zero_le _) r.isLt)
  refine ⟨⟨r / D, Nat.div_lt_of_lt_mul r.isLt⟩, ⟨r % D, Nat.mod_lt _ hD⟩, Fin.ext ?_⟩
  exact (Nat.div_add_mod' _ _).symm

theorem get_set (A : Tens K D) (t u : Idx D) (v : K) : get (set A t v) u = if u = t then v else get A u := by
  unfold get set setM
  by_cases h : u = t
  · subst h; simp
  · rw [if_neg h, if_neg]
    rw [pos_inj, pos_inj]
    rintro ⟨⟨a, b⟩, c, d⟩
    apply h
    cases u; cases t; simp_all

theorem ext_get {A B : Tens K D} (h : ∀ t, get A t = get B t) : A = B := by
  funext r c
  obtain ⟨i, k, rfl⟩ := pos_surj r
  obtain ⟨j, l, rfl⟩ := pos_surj c
  exact h ⟨i, j, k, l⟩

theorem mem_quads (t : Idx D) : t ∈ quads D := by
  unfold quads
  simp only [List.mem_flatMap, List.mem_map, List.mem_finRange, true_and]
  exact ⟨t.i, t.j, t.k, t.l, rfl⟩

/-- A loop writing a value at every index. -/
theorem get_fold_set (f : Idx D → K) (L : List (Idx D)) (A : Tens K D) (u : Idx D) :
    get (L.foldl (fun R t => set R t (f t)) A) u = if u ∈ L then f u else get A u := by
  induction L generalizing A with
  | nil => simp
  | cons t L ih =>
    rw [List.foldl_cons, ih, get_set]
    by_cases h1 : u ∈ L
    · simp [h1]
    · by_cases h2 : u = t
      · subst h2; simp [h1]
      · simp [h1, h2]

theorem get_fill (f : Idx D → K) (A : Tens K D) (u : Idx D) :
    get ((quads D).foldl (fun R t => set R t (f t)) A) u = f u := by
  rw [get_fold_set, if_pos (mem_quads u)]

/-- A loop adding values at one index. -/
theorem fold_add_one {ι : Type} (t : Idx D) (f : ι → K) (L : List ι) (A : Tens K D) (u : Idx D) :
    get (L.foldl (fun R p => set R t (get R t + f p)) A) u = if u = t then get A t + (L.map f).sum else get A u := by
  induction L generalizing A with
  | nil => by_cases h : u = t <;> simp [h]
  | cons p L ih =>
    rw [List.foldl_cons, ih, get_set, get_set]
    by_cases h : u = t
    · simp [h, add_assoc]
    · simp [h]

theorem fold_add_two (t : Idx D) (f : Fin D → Fin D → K) (L M : List (Fin D)) (A : Tens K D) (u : Idx D) :
    get (L.foldl (fun R p => M.foldl (fun R q => set R t (get R t + f p q)) R) A) u =
      if u = t then get A t + (L.map fun p => (M.map (f p)).sum).sum else get A u := by
  induction L generalizing A with
  | nil => by_cases h : u = t <;> simp [h]
  | cons p L ih =>
    rw [List.foldl_cons, ih, fold_add_one, fold_add_one]
    by_cases h : u = t
    · simp [h, add_assoc]
    · simp [h]

theorem nodup_quads : (quads D).Nodup := by
  have inj4 : ∀ i j k : Fin D, ((List.finRange D).map fun l => (⟨i, j, k, l⟩ : Idx D)).Nodup := fun i j k =>
    (List.nodup_finRange D).map (fun a b h => by injection h)
  unfold quads
  simp only [List.nodup_flatMap]
  refine ⟨fun i _ => ⟨fun j _ => ⟨fun k _ => inj4 i j k, ?_⟩, ?_⟩, ?_⟩
  all_goals
    refine (List.nodup_finRange D).imp ?_
    intro a b hab x h1 h2
    simp only [List.mem_map, List.mem_flatMap, List.mem_finRange, true_and] at h1 h2
    aesop

theorem get_fold_add (f : Idx D → Fin D → Fin D → K) (M : List (Fin D)) (L : List (Idx D)) (hL : L.Nodup)
    (A : Tens K D) (u : Idx D) :
    get (L.foldl (fun R t => M.foldl (fun R p => M.foldl (fun R q => set R t (get R t + f t p q)) R) R) A) u =
      if u ∈ L then get A u + (M.map fun p => (M.map (f u p)).sum).sum else get A u := by
  induction L generalizing A with
  | nil => simp
  | cons t L ih =>
    rw [List.nodup_cons] at hL
    rw [List.foldl_cons, ih hL.2, fold_add_two]
    by_cases h : u = t
    · subst h; simp [hL.1]
    · by_cases h1 : u ∈ L <;> simp [h, h1]

theorem get_contracted (A B : Tens K D) (t : Idx D) :
    get (contracted A B) t = ∑ p, ∑ q, get A ⟨t.i, t.j, p, q⟩ * get B ⟨p, q, t.k, t.l⟩ := by
  unfold contracted
  rw [get_fold_add (fun t p q => get A ⟨t.i, t.j, p, q⟩ * get B ⟨p, q, t.k, t.l⟩) _ _ nodup_quads,
    if_pos (mem_quads t)]
  have z : get (zero : Tens K D) t = 0 := rfl
  rw [z, zero_add]
  simp only [← List.ofFn_eq_map, List.sum_ofFn]

theorem get_kronecker (A B : Mat K D) (t : Idx D) : get (kronecker A B) t = A t.i t.j * B t.k t.l := by
  unfold get kronecker pos
  have hD : 0 < D := Nat.lt_of_le_of_lt (Nat.zero_le _) t.i.isLt
  congr 2 <;>
  · apply Fin.ext
    first
    | (simp only []; rw [Nat.add_comm, Nat.add_mul_div_right _ _ hD, Nat.div_eq_of_lt (Fin.isLt _), Nat.zero_add])
    | (simp only []; rw [Nat.mul_add_mod_of_lt (Fin.isLt _)])

theorem get_ixi (t : Idx D) : get (ixi K D) t = if t.i = t.j ∧ t.k = t.l then 1 else 0 := by
  unfold get ixi
  simp only [pos_inj]

/-- The last value assigned to a position. -/
def lookup (w : List (Nat × Nat × Const)) (r c : Nat) : Option Const :=
  w.foldl (fun o e => if r = e.1 ∧ c = e.2.1 then some e.2.2 else o) none

theorem assign_eq (w : List (Nat × Nat × Const)) (r c : Fin (D * D)) :
    (assign w : Tens K D) r c = ((lookup w r c).map (Const.val K)).getD 0 := by
  have key : ∀ (w : List (Nat × Nat × Const)) (A : Tens K D) (o : Option Const),
      A r c = (o.map (Const.val K)).getD 0 →
      (w.foldl (fun A e r c => if r.val = e.1 ∧ c.val = e.2.1 then e.2.2.val K else A r c) A) r c =
        ((w.foldl (fun o e => if r.val = e.1 ∧ c.val = e.2.1 then some e.2.2 else o) o).map (Const.val K)).getD 0 := by
    intro w
    induction w with
    | nil => intro A o h; exact h
    | cons e w ih =>
      intro A o h
      rw [List.foldl_cons, List.foldl_cons]
      apply ih
      by_cases hc : r.val = e.1 ∧ c.val = e.2.1
      · simp [hc]
      · simp only [if_neg hc]; exact h
  exact key w zero none rfl

theorem lookup_identity (hD : D = 1 ∨ D = 2 ∨ D = 3) (i j k l : Fin D) :
    lookup (identityWrites D) (pos i k) (pos j l) = if i = k ∧ j = l then some .one else none := by
  revert i j k l
  rcases hD with rfl | rfl | rfl <;> decide +kernel

theorem lookup_identitySym (hD : D = 1 ∨ D = 2 ∨ D = 3) (i j k l : Fin D) :
    lookup (identitySymWrites D) (pos i k) (pos j l) =
      if i = k ∧ j = l then (if i = l ∧ j = k then some .one else some .half)
      else (if i = l ∧ j = k then some .half else none) := by
  revert i j k l
  rcases hD with rfl | rfl | rfl <;> decide +kernel

theorem get_identity (hD : D = 1 ∨ D = 2 ∨ D = 3) (t : Idx D) :
    get (identity K D) t = if t.i = t.k ∧ t.j = t.l then 1 else 0 := by
  unfold get identity
  rw [assign_eq, lookup_identity hD]
  split_ifs <;> rfl

theorem get_identitySym (h2 : (2 : K) ≠ 0) (hD : D = 1 ∨ D = 2 ∨ D = 3) (t : Idx D) :
    get (identitySym K D) t =
      ((if t.i = t.k ∧ t.j = t.l then 1 else 0) + (if t.i = t.l ∧ t.j = t.k then 1 else 0)) / 2 := by
  unfold get identitySym
  rw [assign_eq, lookup_identitySym hD]
  have e : ((1 : K) + 1) / 2 = 1 := by rw [one_add_one_eq_two]; exact div_self h2
  split_ifs <;> simp [Const.val, e]

theorem index_some {i : Int} {x : Fin D} : index D i = some x ↔ i = x.val := by
  unfold index
  split_ifs with h
  · simp only [Option.some.injEq, Fin.ext_iff]; omega
  · simp only [reduceCtorEq, false_iff]
    intro e; apply h; have := x.isLt; omega

theorem index_none {i : Int} : index D i = none ↔ i < 0 ∨ (D : Int) ≤ i := by
  unfold index
  split_ifs with h
  · simp only [reduceCtorEq, false_iff]; omega
  · simp only [true_iff]; omega

theorem indices_ok (t : Idx D) : indices D t.i.val t.j.val t.k.val t.l.val = .ok t := by
  unfold indices
  rw [index_some.mpr rfl, index_some.mpr rfl, index_some.mpr rfl, index_some.mpr rfl]

theorem indices_throws {i j k l : Int} : (indices D i j k l).Throws ↔
    ¬ (0 ≤ i ∧ i < D ∧ 0 ≤ j ∧ j < D ∧ 0 ≤ k ∧ k < D ∧ 0 ≤ l ∧ l < D) := by
  unfold indices
  rcases hi : index D i with _ | i' <;> rcases hj : index D j with _ | j' <;> rcases hk : index D k with _ | k' <;>
    rcases hl : index D l with _ | l' <;>
    simp only [index_none, index_some] at hi hj hk hl <;>
    simp only [Outcome.Throws, true_iff, false_iff, not_not] <;>
    omega

end Verif.Tensor
