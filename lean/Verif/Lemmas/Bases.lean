import Verif.Model.Bases
import Verif.Spec.Calculus
import Verif.Lemmas.Util
import Verif.Props.Util
import Mathlib.Analysis.Calculus.FDeriv.Mul
import Mathlib.Analysis.Calculus.FDeriv.Pow
import Mathlib.Analysis.Calculus.FDeriv.Pi
import Mathlib.Analysis.Calculus.FDeriv.Add
import Mathlib.Data.List.Nodup
/-! Lemmas for the monomial bases. -/
namespace Verif.Bases
open Verif.Util Verif.Spec Matrix

theorem writeAll_eq {α : Type} (vals : List α) : ∀ (ret : List α) (pos : Nat),
    pos + vals.length ≤ ret.length →
    writeAll ret pos vals = .ok (ret.take pos ++ vals ++ ret.drop (pos + vals.length), pos + vals.length) := by
  induction vals with
  | nil => intro ret pos h; simp [writeAll]
  | cons v vs ih =>
    intro ret pos h
    simp only [List.length_cons] at h
    rw [writeAll, if_pos (by omega), ih _ _ (by simp; omega)]
    congr 2
    · have h1 : (ret.set pos v).take (pos + 1) = ret.take pos ++ [v] := by
        rw [List.take_add_one, List.getElem?_set_self (by omega), List.take_set_of_le (by omega)]
        rfl
      rw [h1, List.drop_set_of_lt (by omega)]
      simp only [List.length_cons, List.append_assoc, List.cons_append, List.nil_append]
      rw [show pos + 1 + vs.length = pos + (vs.length + 1) by omega]
    · simp only [List.length_cons]; omega

theorem fillVec_eq {α : Type} (size : Nat) (z : α) (vals : List α) (h : vals.length = size) :
    fillVec size z vals = .ok vals := by
  unfold fillVec
  rw [writeAll_eq _ _ _ (by simp [h])]
  simp [h]

theorem exps2_length (K : Nat) : (exps2 K).length = (K + 2).choose 2 := by
  induction K with
  | zero => decide
  | succ K ih =>
    unfold exps2 at *
    rw [List.range_succ, List.flatMap_append, List.length_append, ih]
    simp only [List.flatMap_cons, List.flatMap_nil, List.append_nil, List.length_map, List.length_range]
    rw [show K + 1 + 2 = (K + 2) + 1 by omega, Nat.choose_succ_succ' (K + 2) 1, Nat.choose_one_right]
    simp only [Nat.reduceAdd]
    omega

theorem inner3_length (k : Nat) :
    ((List.range (k + 1)).flatMap fun px =>
      (List.range (k - px + 1)).map fun py => (px, py, k - px - py)).length = (k + 2).choose 2 := by
  rw [List.length_flatMap]
  simp only [List.length_map, List.length_range]
  have : ∀ n, ((List.range n).map fun px => n - 1 - px + 1).sum = (n + 1).choose 2 := by
    intro n
    induction n with
    | zero => decide
    | succ n ih =>
      rw [List.range_succ_eq_map, List.map_cons, List.sum_cons, List.map_map]
      have : ((fun px => n + 1 - 1 - px + 1) ∘ Nat.succ) = fun px => n - (px + 1) + 1 := by
        funext x; simp
      rw [this]
      have : (List.range n).map (fun px => n - (px + 1) + 1) = (List.range n).map (fun px => n - 1 - px + 1) := by
        apply List.map_congr_left; intro a _; omega
      rw [this, ih, Nat.choose_succ_succ' (n + 1) 1, Nat.choose_one_right]
      simp only [Nat.reduceAdd]
      omega
  exact this (k + 1)

theorem exps3_length (K : Nat) : (exps3 K).length = (K + 3).choose 3 := by
  induction K with
  | zero => decide
  | succ K ih =>
    unfold exps3 at *
    rw [List.range_succ, List.flatMap_append, List.length_append, ih]
    simp only [List.flatMap_cons, List.flatMap_nil, List.append_nil]
    rw [inner3_length, show K + 1 + 3 = (K + 3) + 1 by omega, Nat.choose_succ_succ' (K + 3) 2]
    rw [show K + 1 + 2 = K + 3 by omega]
    simp only [Nat.reduceAdd]
    omega

theorem powTable_spec {R : Type} [CommRing R] (size : Nat) (x : R) (k : Nat) (h : k < size) :
    ∃ t, powTable size x k = .ok t ∧ t.length = size ∧ ∀ i ≤ k, t[i]? = some (x ^ i) := by
  induction k with
  | zero =>
    refine ⟨_, if_pos h, by simp, ?_⟩
    intro i hi
    have : i = 0 := by omega
    subst this
    simp [h]
  | succ k ih =>
    obtain ⟨t, h1, h2, h3⟩ := ih (by omega)
    refine ⟨t.set (k + 1) (x ^ k * x), ?_, by simpa using h2, ?_⟩
    · simp [powTable, h1, h3 k le_rfl, h2, h]
    · intro i hi
      by_cases hik : i = k + 1
      · subst hik; rw [List.getElem?_set_self (by omega), pow_succ]
      · rw [List.getElem?_set_ne (by omega)]; exact h3 i (by omega)

theorem seqAll_map {α β : Type} (l : List β) (f : β → Outcome α) (g : β → α)
    (h : ∀ b ∈ l, f b = .ok (g b)) : seqAll (l.map f) = .ok (l.map g) := by
  induction l with
  | nil => rfl
  | cons b l ih =>
    simp only [List.map_cons, seqAll]
    rw [h b (by simp), ih fun c hc => h c (by simp [hc])]
    rfl

theorem rd_eq {R : Type} {t : List R} {i : Nat} {v : R} (h : t[i]? = some v) : rd t i = .ok v := by
  simp [rd, h]

theorem mem_exps2 (K a b : Nat) : (a, b) ∈ exps2 K ↔ a + b ≤ K := by
  simp only [exps2, List.mem_flatMap, List.mem_range, List.mem_map, Prod.mk.injEq]
  constructor
  · rintro ⟨k, hk, i, hi, h1, h2⟩; omega
  · intro h; exact ⟨a + b, by omega, b, by omega, by omega, rfl⟩

theorem mem_exps3 (K a b c : Nat) : (a, b, c) ∈ exps3 K ↔ a + b + c ≤ K := by
  simp only [exps3, List.mem_flatMap, List.mem_range, List.mem_map, Prod.mk.injEq]
  constructor
  · rintro ⟨k, hk, i, hi, j, hj, h1, h2, h3⟩; omega
  · intro h; exact ⟨a + b + c, by omega, a, by omega, b, by omega, rfl, rfl, by omega⟩

theorem exps2_sorted (K : Nat) : (exps2 K).Pairwise fun a b => a.1 + a.2 < b.1 + b.2 ∨
    (a.1 + a.2 = b.1 + b.2 ∧ a.2 < b.2) := by
  unfold exps2
  rw [List.pairwise_flatMap]
  constructor
  · intro k _
    rw [List.pairwise_map]
    refine List.pairwise_lt_range.imp_of_mem ?_
    intro a b ha hb hab
    simp only [List.mem_range] at ha hb
    right; constructor
    · simp only; omega
    · exact hab
  · refine List.pairwise_lt_range.imp ?_
    intro a b hab x hx y hy
    simp only [List.mem_map, List.mem_range] at hx hy
    obtain ⟨i, hi, rfl⟩ := hx
    obtain ⟨j, hj, rfl⟩ := hy
    left; simp only; omega

theorem exps3_sorted (K : Nat) : (exps3 K).Pairwise fun a b =>
    a.1 + a.2.1 + a.2.2 < b.1 + b.2.1 + b.2.2 ∨
    (a.1 + a.2.1 + a.2.2 = b.1 + b.2.1 + b.2.2 ∧ (a.1 < b.1 ∨ (a.1 = b.1 ∧ a.2.1 < b.2.1))) := by
  unfold exps3
  rw [List.pairwise_flatMap]
  constructor
  · intro k _
    rw [List.pairwise_flatMap]
    constructor
    · intro px hpx
      rw [List.pairwise_map]
      simp only [List.mem_range] at hpx
      refine List.pairwise_lt_range.imp_of_mem ?_
      intro a b ha hb hab
      simp only [List.mem_range] at ha hb
      right
      exact ⟨by simp only; omega, Or.inr ⟨rfl, hab⟩⟩
    · refine List.pairwise_lt_range.imp_of_mem ?_
      intro a b ha hb hab x hx y hy
      simp only [List.mem_map, List.mem_range] at hx hy ha hb
      obtain ⟨i, hi, rfl⟩ := hx
      obtain ⟨j, hj, rfl⟩ := hy
      right; simp only; omega
  · refine List.pairwise_lt_range.imp ?_
    intro a b hab x hx y hy
    simp only [List.mem_flatMap, List.mem_map, List.mem_range] at hx hy
    obtain ⟨i, hi, i', hi', rfl⟩ := hx
    obtain ⟨j, hj, j', hj', rfl⟩ := hy
    left; simp only; omega

/-! Calculus -/

theorem _root_.Verif.Spec.HasGrad.coord {d : Nat} (P : Matrix (Fin d) (Fin d) ℝ) (bar x : Fin d → ℝ) (i : Fin d) :
    HasGrad (fun p => scalingPoint P bar p i) (P i) x := by
  let L : (Fin d → ℝ) →L[ℝ] ℝ :=
    LinearMap.toContinuousLinearMap (LinearMap.proj i ∘ₗ P.mulVecLin)
  refine ⟨L, ?_, fun v => rfl⟩
  have h := (L.hasFDerivAt (x := x)).sub_const (L bar)
  refine h.congr_of_eventuallyEq (Filter.Eventually.of_forall fun p => ?_)
  show (P *ᵥ (p - bar)) i = (P *ᵥ p) i - (P *ᵥ bar) i
  rw [mulVec_sub]; rfl

theorem _root_.Verif.Spec.HasGrad.mul {d : Nat} {f g : (Fin d → ℝ) → ℝ} {a b x : Fin d → ℝ}
    (hf : HasGrad f a x) (hg : HasGrad g b x) :
    HasGrad (fun p => f p * g p) (f x • b + g x • a) x := by
  obtain ⟨L, hL, hL'⟩ := hf
  obtain ⟨M, hM, hM'⟩ := hg
  refine ⟨_, hL.mul hM, fun v => ?_⟩
  simp [hL', hM', add_dotProduct]

theorem _root_.Verif.Spec.HasGrad.pow {d : Nat} {f : (Fin d → ℝ) → ℝ} {a x : Fin d → ℝ} (n : Nat)
    (hf : HasGrad f a x) : HasGrad (fun p => f p ^ n) (((n : ℝ) * f x ^ (n - 1)) • a) x := by
  obtain ⟨L, hL, hL'⟩ := hf
  refine ⟨_, hL.pow n, fun v => ?_⟩
  simp [hL']

theorem _root_.Verif.Spec.HasGrad.congr_grad {d : Nat} {f : (Fin d → ℝ) → ℝ} {a b x : Fin d → ℝ}
    (hf : HasGrad f a x) (h : a = b) : HasGrad f b x := h ▸ hf

theorem dfac_eq {R : Type} [CommRing R] (b : R) (e : Nat) : dfac b e = (e : R) * b ^ (e - 1) := by
  unfold dfac
  split
  · next h => simp [h]
  · rw [c07_iexp_pow]

theorem size2 (K : Nat) : scalarBasisSize K 2 = (exps2 K).length := by
  rw [exps2_length]; exact (basisLoop_div K 2).2
theorem size3 (K : Nat) : scalarBasisSize K 3 = (exps3 K).length := by
  rw [exps3_length]; exact (basisLoop_div K 3).2
theorem sizeN2 (K : Nat) : sizeOfDegree2 K = (exps2 K).length := by
  rw [exps2_length]; exact (c09_new_bases K).2.1
theorem sizeN3 (K : Nat) : sizeOfDegree3 K = (exps3 K).length := by
  rw [exps3_length]; exact (c09_new_bases K).2.2

theorem lt_size2 (K : Nat) : K < sizeOfDegree2 K := by
  rw [(c09_new_bases K).2.1, Nat.choose_succ_succ' (K+1) 1, Nat.choose_one_right]; omega
theorem lt_size3 (K : Nat) : K < sizeOfDegree3 K := by
  rw [(c09_new_bases K).2.2, Nat.choose_succ_succ' (K+2) 2, Nat.choose_succ_succ' (K+1) 1, Nat.choose_one_right]; omega

theorem exps2_succ (K : Nat) : exps2 (K + 1) = exps2 K ++
    (List.range (K + 2)).map fun i => (K + 1 - i, i) := by
  unfold exps2
  rw [show List.range (K + 1 + 1) = List.range (K + 1) ++ [K + 1] from List.range_succ,
    List.flatMap_append, List.flatMap_singleton, ← List.range_succ]

theorem exps3_succ (K : Nat) : exps3 (K + 1) = exps3 K ++ (List.range (K + 2)).flatMap fun px =>
    (List.range (K + 1 - px + 1)).map fun py => (px, py, K + 1 - px - py) := by
  unfold exps3
  rw [show List.range (K + 1 + 1) = List.range (K + 1) ++ [K + 1] from List.range_succ,
    List.flatMap_append, List.flatMap_singleton, ← List.range_succ]

theorem exps2_drop (K : Nat) : (exps2 (K + 1)).drop (scalarBasisSize K 2) =
    (exps2 (K + 1)).filter fun e => e.1 + e.2 = K + 1 := by
  rw [size2, exps2_succ, List.drop_left, List.filter_append]
  have h1 : (exps2 K).filter (fun e => decide (e.1 + e.2 = K + 1)) = [] := by
    rw [List.filter_eq_nil_iff]
    rintro ⟨a, b⟩ h
    rw [mem_exps2] at h
    simp only [decide_eq_true_eq]; omega
  rw [h1, List.nil_append, eq_comm, List.filter_eq_self]
  intro e he
  simp only [List.mem_map, List.mem_range] at he
  obtain ⟨i, hi, rfl⟩ := he
  simp only [decide_eq_true_eq]; omega

theorem exps3_drop (K : Nat) : (exps3 (K + 1)).drop (scalarBasisSize K 3) =
    (exps3 (K + 1)).filter fun e => e.1 + e.2.1 + e.2.2 = K + 1 := by
  rw [size3, exps3_succ, List.drop_left, List.filter_append]
  have h1 : (exps3 K).filter (fun e => decide (e.1 + e.2.1 + e.2.2 = K + 1)) = [] := by
    rw [List.filter_eq_nil_iff]
    rintro ⟨a, b, c⟩ h
    rw [mem_exps3] at h
    simp only [decide_eq_true_eq]; omega
  rw [h1, List.nil_append, eq_comm, List.filter_eq_self]
  intro e he
  simp only [List.mem_flatMap, List.mem_map, List.mem_range] at he
  obtain ⟨i, hi, j, hj, rfl⟩ := he
  simp only [decide_eq_true_eq]; omega

theorem vecRows_length {R : Type} [CommRing R] (d : Nat) (phi : List R) :
    (vecRows d phi).length = d * phi.length := by
  induction phi with
  | nil => simp [vecRows]
  | cons v l ih =>
    simp only [vecRows, List.flatMap_cons, List.length_append, List.length_map,
      List.length_finRange, List.length_cons] at *
    rw [ih]; ring

theorem rtFill_eq {R : Type} [CommRing R] {d : Nat} (size beg : Nat) (b : Fin d → R) (phi : List R)
    (h : d * phi.length + (phi.length - beg) ≤ size) :
    rtFill size beg b phi = .ok (vecRows d phi ++ (phi.drop beg).map (fun v => v • b) ++
      List.replicate (size - (d * phi.length + (phi.length - beg))) 0) := by
  unfold rtFill
  rw [writeAll_eq _ _ _ (by simp [vecRows_length]; omega)]
  simp only [Outcome.bind_ok]
  rw [writeAll_eq]
  · simp only [Outcome.bind_ok, vecRows_length, List.length_map, List.length_drop]
    simp only [List.take_zero, List.nil_append, Nat.zero_add, List.drop_replicate]
    rw [List.take_left' (vecRows_length d phi), List.drop_append, vecRows_length,
      List.drop_eq_nil_of_le (as := vecRows d phi) (by rw [vecRows_length]; omega), List.nil_append,
      List.drop_replicate]
    congr 3
    omega
  · simp [vecRows_length]; omega

theorem scalarBasisSize64_2_eq (k : Nat) (h : k < 2 ^ 31) :
    scalarBasisSize64_2 k = scalarBasisSize k 2 := by
  unfold scalarBasisSize64_2 scalarBasisSize
  simp only [basisLoop, Nat.one_mul]
  have h1 : (k + 1) % 2 ^ 64 = k + 1 := Nat.mod_eq_of_lt (by omega)
  have h2 : (k + 2) % 2 ^ 64 = k + 2 := Nat.mod_eq_of_lt (by omega)
  rw [h1, h2, Nat.mod_eq_of_lt]
  have : (k + 1) * (k + 2) ≤ 2 ^ 31 * 2 ^ 32 := Nat.mul_le_mul (by omega) (by omega)
  calc _ ≤ _ := this
    _ < 2 ^ 64 := by norm_num

end Verif.Bases
