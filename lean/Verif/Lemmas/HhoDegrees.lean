import Mathlib.Algebra.BigOperators.Intervals
import Mathlib.Data.Nat.Choose.Basic
import Verif.Spec.HhoDegrees
import Verif.Lemmas.HhoLocal
import Verif.Lemmas.Util
/-!
Lemmas on degrees and on the expansion of scalar operators to vectors.
-/
namespace Verif.Lemmas.HhoDegrees
open Finset Verif.Hho Verif.HhoDegrees Verif.Spec.Hho Verif.Spec.HhoDegrees Verif.Util

variable {K : Type} [Field K]

theorem expandK_eq {dim : Nat} (A : Mat K) (i j n : Nat) (M : Mat K) (r c : Nat) :
    (List.range n).foldl (fun (M : Mat K) k => fun r c => if r = i * dim + k ∧ c = j * dim + k then A i j else M r c) M r c =
      if ∃ k < n, r = i * dim + k ∧ c = j * dim + k then A i j else M r c := by
  induction n with
  | zero => simp
  | succ n ih =>
    rw [List.range_succ, List.foldl_append]
    simp only [List.foldl_cons, List.foldl_nil]
    by_cases h : r = i * dim + n ∧ c = j * dim + n
    · rw [if_pos h, if_pos ⟨n, by omega, h⟩]
    · rw [if_neg h, ih]
      by_cases h' : ∃ k < n, r = i * dim + k ∧ c = j * dim + k
      · obtain ⟨k, hk, e⟩ := h'
        rw [if_pos ⟨k, hk, e⟩, if_pos ⟨k, by omega, e⟩]
      · rw [if_neg h', if_neg]
        rintro ⟨k, hk, e⟩
        rcases Nat.lt_or_ge k n with h1 | h1
        · exact h' ⟨k, h1, e⟩
        · obtain rfl : k = n := by omega
          exact h e

theorem exists_iff {dim : Nat} (hd : 0 < dim) (i j r c : Nat) :
    (∃ k < dim, r = i * dim + k ∧ c = j * dim + k) ↔ r / dim = i ∧ c / dim = j ∧ r % dim = c % dim := by
  constructor
  · rintro ⟨k, hk, rfl, rfl⟩
    have h1 : ∀ a, (a * dim + k) / dim = a := fun a => by
      rw [Nat.mul_comm, Nat.mul_add_div hd, Nat.div_eq_of_lt hk, Nat.add_zero]
    have h2 : ∀ a, (a * dim + k) % dim = k := fun a => by
      rw [Nat.mul_comm, Nat.mul_add_mod, Nat.mod_eq_of_lt hk]
    exact ⟨h1 i, h1 j, by rw [h2, h2]⟩
  · rintro ⟨rfl, rfl, h⟩
    refine ⟨r % dim, Nat.mod_lt _ hd, ?_, ?_⟩
    · rw [Nat.mul_comm]; exact (Nat.div_add_mod r dim).symm
    · rw [h, Nat.mul_comm]; exact (Nat.div_add_mod c dim).symm

theorem expandJ_eq {dim : Nat} (hd : 0 < dim) (nc : Nat) (A : Mat K) (i : Nat) (M : Mat K) (r c : Nat) :
    expandJ dim nc A i M r c =
      if r / dim = i ∧ c / dim < nc ∧ r % dim = c % dim then A i (c / dim) else M r c := by
  unfold expandJ
  induction nc with
  | zero => simp
  | succ n ih =>
    rw [List.range_succ, List.foldl_append]
    simp only [List.foldl_cons, List.foldl_nil]
    unfold expandK at *
    rw [expandK_eq, ih]
    by_cases h : ∃ k < dim, r = i * dim + k ∧ c = n * dim + k
    · rw [if_pos h]
      obtain ⟨h1, h2, h3⟩ := (exists_iff hd i n r c).1 h
      rw [if_pos ⟨h1, by omega, h3⟩, h2]
    · rw [if_neg h]
      rw [exists_iff hd] at h
      by_cases h' : r / dim = i ∧ c / dim < n ∧ r % dim = c % dim
      · rw [if_pos h', if_pos ⟨h'.1, by omega, h'.2.2⟩]
      · rw [if_neg h', if_neg]
        rintro ⟨h1, h2, h3⟩
        rcases Nat.lt_or_ge (c / dim) n with h4 | h4
        · exact h' ⟨h1, h4, h3⟩
        · exact h ⟨h1, by omega, h3⟩

/-- The entries of the expanded matrix. -/
theorem expand_eq {dim : Nat} (hd : 0 < dim) (nr nc : Nat) (A : Mat K) (r c : Nat) :
    expand dim nr nc A r c =
      if r / dim < nr ∧ c / dim < nc ∧ r % dim = c % dim then A (r / dim) (c / dim) else 0 := by
  unfold expand
  induction nr with
  | zero => simp [zero]
  | succ n ih =>
    rw [List.range_succ, List.foldl_append]
    simp only [List.foldl_cons, List.foldl_nil]
    rw [expandJ_eq hd, ih]
    by_cases h : r / dim = n ∧ c / dim < nc ∧ r % dim = c % dim
    · rw [if_pos h, if_pos ⟨by omega, h.2⟩, h.1]
    · rw [if_neg h]
      by_cases h' : r / dim < n ∧ c / dim < nc ∧ r % dim = c % dim
      · rw [if_pos h', if_pos ⟨by omega, h'.2⟩]
      · rw [if_neg h', if_neg]
        rintro ⟨h1, h2⟩
        rcases Nat.lt_or_ge (r / dim) n with h4 | h4
        · exact h' ⟨h4, h2⟩
        · exact h ⟨by omega, h2⟩

theorem sum_range_blocks (n dim : Nat) (f : Nat → K) :
    ∑ r ∈ range (n * dim), f r = ∑ i ∈ range n, ∑ k ∈ range dim, f (i * dim + k) := by
  induction n with
  | zero => simp
  | succ n ih => rw [Nat.succ_mul, sum_range_add, ih, sum_range_succ]

theorem app_expand {dim : Nat} (hd : 0 < dim) {nr nc : Nat} (A : Mat K) (u : Nat → K) {i k : Nat} (hi : i < nr) (hk : k < dim) :
    app (nc * dim) (expand dim nr nc A) u (i * dim + k) = app nc A (comp dim k u) i := by
  have h1 : ∀ a b, b < dim → (a * dim + b) / dim = a := fun a b hb => by
    rw [Nat.mul_comm, Nat.mul_add_div hd, Nat.div_eq_of_lt hb, Nat.add_zero]
  have h2 : ∀ a b, b < dim → (a * dim + b) % dim = b := fun a b hb => by
    rw [Nat.mul_comm, Nat.mul_add_mod, Nat.mod_eq_of_lt hb]
  unfold app
  rw [sum_range_blocks]
  refine sum_congr rfl fun j hj => ?_
  rw [sum_eq_single k]
  · rw [expand_eq hd, h1 i k hk, h1 j k hk, h2 i k hk, h2 j k hk, if_pos ⟨hi, mem_range.1 hj, rfl⟩]
    rfl
  · intro l hl hlk
    have hl := mem_range.1 hl
    rw [expand_eq hd, h1 i k hk, h1 j l hl, h2 i k hk, h2 j l hl, if_neg (by rintro ⟨_, _, h⟩; exact hlk h.symm), zero_mul]
  · intro h
    exact absurd (mem_range.2 hk) h

theorem form_expand {dim : Nat} (hd : 0 < dim) (n : Nat) (A : Mat K) (v u : Nat → K) :
    form (n * dim) (expand dim n n A) v u = ∑ k ∈ range dim, form n A (comp dim k v) (comp dim k u) := by
  unfold form
  rw [sum_range_blocks, sum_comm]
  refine sum_congr rfl fun k hk => sum_congr rfl fun i hi => ?_
  rw [app_expand hd A u (mem_range.1 hi) (mem_range.1 hk)]
  rfl

theorem vectorFacesDofs_eq (dim : Nat) (ds : List DegreeInfo) : vectorFacesDofs dim ds = dim * scalarFacesDofs dim ds := by
  induction ds with
  | nil => rfl
  | cons d ds ih =>
    rw [vectorFacesDofs, scalarFacesDofs, ih, Nat.mul_add]
    unfold vectorFaceDofs scalarFaceDofs
    split <;> rfl

theorem total_eq (dim : Nat) (ci : CellInfo) :
    vectorBasisSize ci.cell.degree dim dim + vectorFacesDofs dim ci.faces = scalarDofs dim ci * dim := by
  rw [vectorFacesDofs_eq, scalarDofs, Nat.add_mul, Nat.mul_comm (scalarBasisSize _ _), Nat.mul_comm (scalarFacesDofs _ _)]
  rfl

theorem scalarFacesDofs_replicate (dim nf k : Nat) :
    scalarFacesDofs dim (List.replicate nf (.mk' k)) = nf * scalarBasisSize k (dim - 1) := by
  induction nf with
  | zero => simp [scalarFacesDofs]
  | succ n ih =>
    rw [List.replicate_succ, scalarFacesDofs, ih, Nat.succ_mul, Nat.add_comm]
    rfl

theorem scalarBasisSize_eq (k d : Nat) : scalarBasisSize k d = (k + d).choose d := (basisLoop_div k d).2

theorem scalarBasisSize_pos (k d : Nat) : 0 < scalarBasisSize k d := by
  rw [scalarBasisSize_eq]
  exact Nat.choose_pos (by omega)

theorem scalarBasisSize_succ (k d : Nat) : scalarBasisSize k (d + 1) < scalarBasisSize (k + 1) (d + 1) := by
  rw [scalarBasisSize_eq, scalarBasisSize_eq]
  have e : k + 1 + (d + 1) = (k + (d + 1)) + 1 := by omega
  rw [e, Nat.choose_succ_succ']
  have : 0 < (k + (d + 1)).choose d := Nat.choose_pos (by omega)
  omega

theorem scalarBasisSize_lt {dim : Nat} (hd : 0 < dim) {k m : Nat} (h : k < m) :
    scalarBasisSize k dim < scalarBasisSize m dim := by
  obtain ⟨d, rfl⟩ : ∃ d, dim = d + 1 := ⟨dim - 1, by omega⟩
  exact strictMono_nat_of_lt_succ (fun n => scalarBasisSize_succ n d) h

theorem cellOk_iff (cd fd : Nat) : cellOk cd fd = true ↔ cd ≤ fd + 1 ∧ fd ≤ cd + 1 := by
  unfold cellOk
  simp only [Bool.or_eq_true, Bool.and_eq_true, decide_eq_true_eq, beq_iff_eq]
  omega

end Verif.Lemmas.HhoDegrees
