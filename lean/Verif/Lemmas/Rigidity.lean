import Verif.Model.Rigidity
import Verif.Spec.Rigidity
import Verif.Lemmas.Tensor
import Mathlib.Tactic.Ring
import Mathlib.Data.List.GetD
import Mathlib.Tactic.IntervalCases
import Mathlib.Tactic.Linarith
import Mathlib.Tactic.FinCases
import Mathlib.Algebra.BigOperators.Ring.Finset
/-!
Lemmas on the local matrices of the nonlinear solver.
-/
namespace Verif.Lemmas.Rigidity
open Verif.Rigidity Verif.Tensor Verif.Spec Finset

variable {D : Nat}

/-! ### Loops of additions -/

theorem addWrites_eq (W : List (Nat × Nat × ℝ)) (A : Nat → Nat → ℝ) (r c : Nat) :
    addWrites W A r c = A r c + (W.map fun w => if w.1 = r ∧ w.2.1 = c then w.2.2 else 0).sum := by
  unfold addWrites
  induction W generalizing A with
  | nil => simp
  | cons w W ih =>
    rw [List.foldl_cons, ih]
    simp only [List.map_cons, List.sum_cons]
    by_cases h : w.1 = r ∧ w.2.1 = c
    · rw [if_pos ⟨h.1.symm, h.2.symm⟩, if_pos h]; ring
    · rw [if_neg (fun x => h ⟨x.1.symm, x.2.symm⟩), if_neg h]; ring

theorem addWrites1_eq (W : List (Nat × ℝ)) (a : Nat → ℝ) (r : Nat) :
    addWrites1 W a r = a r + (W.map fun w => if w.1 = r then w.2 else 0).sum := by
  unfold addWrites1
  induction W generalizing a with
  | nil => simp
  | cons w W ih =>
    rw [List.foldl_cons, ih]
    simp only [List.map_cons, List.sum_cons]
    by_cases h : w.1 = r
    · rw [if_pos h.symm, if_pos h]; ring
    · rw [if_neg (fun x => h x.symm), if_neg h]; ring

theorem sum_flat {α β : Type} (l : List α) (f : α → List β) (v : β → ℝ) :
    ((l.flatMap f).map v).sum = (l.map fun a => ((f a).map v).sum).sum := by
  induction l with
  | nil => simp
  | cons a l ih => simp [ih]

theorem sum_range (n : Nat) (f : Nat → ℝ) : ((List.range n).map f).sum = ∑ i ∈ range n, f i := by
  induction n with
  | zero => simp
  | succ n ih => rw [List.range_succ, Finset.sum_range_succ, ← ih]; simp

theorem sum_fin (f : Fin D → ℝ) : ((List.finRange D).map f).sum = ∑ i, f i := (Fin.sum_univ_def f).symm

theorem foldl_add (X : Type) (f : X → ℝ) (l : List X) (x0 : ℝ) : l.foldl (fun A q => A + f q) x0 = x0 + (l.map f).sum := by
  induction l generalizing x0 with
  | nil => simp
  | cons q l ih => rw [List.foldl_cons, ih]; simp; ring

/-! ### Lists of lists of the same length -/

theorem getD_flat {α β : Type} (f : α → List β) {m : Nat} (hm : ∀ x, (f x).length = m) (l : List α) (b o : Nat)
    (ho : o < m) (d : β) :
    (l.flatMap f).getD (b * m + o) d = (l[b]?).elim d fun x => (f x).getD o d := by
  induction l generalizing b with
  | nil => simp
  | cons x l ih =>
    rw [List.flatMap_cons]
    cases b with
    | zero =>
      rw [List.getD_append _ _ _ _ (by rw [hm]; omega)]
      simp
    | succ b =>
      rw [List.getD_append_right _ _ _ _ (by rw [hm, Nat.succ_mul]; omega)]
      have e : (b + 1) * m + o - (f x).length = b * m + o := by rw [hm, Nat.succ_mul]; omega
      rw [e, ih b]
      simp

theorem length_flat {α β : Type} (f : α → List β) {m : Nat} (hm : ∀ x, (f x).length = m) (l : List α) :
    (l.flatMap f).length = l.length * m := by
  induction l with
  | nil => simp
  | cons x l ih => simp [ih, hm, Nat.succ_mul]; omega

theorem length_pairs {β : Type} (F : Fin D → Fin D → β) :
    ((List.finRange D).flatMap fun k => (List.finRange D).map fun l => F k l).length = D * D := by
  rw [length_flat (m := D) _ (by simp)]; simp

theorem getD_pairs {β : Type} (F : Fin D → Fin D → β) (k l : Fin D) (d : β) :
    ((List.finRange D).flatMap fun k => (List.finRange D).map fun l => F k l).getD (k * D + l) d = F k l := by
  rw [getD_flat (m := D) _ (by simp) _ _ _ l.isLt]
  simp [List.getD]

/-! ### The bases -/

/-- `g n` has the only entry `(l, k)`. -/
theorem full_fn (phi : List ℝ) (b : Nat) (k l : Fin D) :
    fn (fullBasis D phi) (b * (D * D) + (k * D + l)) = setM zeroM l k (phi.getD b 0) := by
  have hlt : (k * D + l : Nat) < D * D := (pos k l).isLt
  unfold fn fullBasis
  rw [getD_flat (m := D * D) _ (fun p => length_pairs _) _ _ _ hlt]
  rcases h : phi[b]? with _ | p
  · simp only [List.getD, h, Option.elim]
    funext i j; simp [setM, zeroM]
  · simp only [Option.elim, getD_pairs (fun j i => setM zeroM i j p)]
    simp only [List.getD, h, Option.getD_some]

theorem length_full (phi : List ℝ) : (fullBasis D phi).length = phi.length * (D * D) :=
  length_flat _ (fun p => length_pairs _) _

theorem inner_zero (S : Mat ℝ D) : inner S zeroM = 0 := by simp [inner, zeroM]

/-- The six functions of one scalar function. -/
noncomputable def six (p : ℝ) : List (Mat ℝ 3) := (List.finRange 3).flatMap fun j =>
    (((List.finRange 3).filter (· < j)).map fun i =>
      setM (setM zeroM i j (p * (1 / Real.sqrt 2))) j i (p * (1 / Real.sqrt 2))) ++ [setM zeroM j j p]

theorem six_eq (p : ℝ) : six p = [setM zeroM 0 0 p,
    setM (setM zeroM 0 1 (p * (1 / Real.sqrt 2))) 1 0 (p * (1 / Real.sqrt 2)), setM zeroM 1 1 p,
    setM (setM zeroM 0 2 (p * (1 / Real.sqrt 2))) 2 0 (p * (1 / Real.sqrt 2)),
    setM (setM zeroM 1 2 (p * (1 / Real.sqrt 2))) 2 1 (p * (1 / Real.sqrt 2)), setM zeroM 2 2 p] := by
  unfold six; rfl

/-- The three functions of one scalar function. -/
noncomputable def three (p : ℝ) : List (Mat ℝ 2) := (List.finRange 2).flatMap fun j =>
    (((List.finRange 2).filter (· < j)).map fun i =>
      setM (setM zeroM i j (p * (1 / Real.sqrt 2))) j i (p * (1 / Real.sqrt 2))) ++ [setM zeroM j j p]

theorem three_eq (p : ℝ) : three p = [setM zeroM 0 0 p,
    setM (setM zeroM 0 1 (p * (1 / Real.sqrt 2))) 1 0 (p * (1 / Real.sqrt 2)), setM zeroM 1 1 p] := by
  unfold three; rfl

theorem fits2 : Fits lines2 where
  pos := by decide
  len phi := length_flat (m := 3) three (fun p => by rw [three_eq]; rfl) phi
  entry phi b o ho S hS := by
    have ho' : o < 3 := ho
    have e : fn (symBasis 2 phi) (b * lines2.num + o) = (phi[b]?).elim zeroM (fun p => (three p).getD o zeroM) :=
      getD_flat (m := 3) three (fun p => by rw [three_eq]; rfl) phi b o ho' zeroM
    rw [e]
    rcases phi[b]? with _ | p
    · simp only [Option.elim, inner_zero]; simp [zeroM]
    · simp only [three_eq, Option.elim]
      have := hS 0 1
      interval_cases o <;> simp [inner, Fin.sum_univ_two, lines2, setM, zeroM] <;> first | done | (rw [← this]; ring)
  symm phi n i j := by
    obtain ⟨b, o, ho, rfl⟩ : ∃ b o, o < 3 ∧ n = b * 3 + o := ⟨n / 3, n % 3, Nat.mod_lt _ (by omega), by omega⟩
    have e : fn (symBasis 2 phi) (b * 3 + o) = (phi[b]?).elim zeroM (fun p => (three p).getD o zeroM) :=
      getD_flat (m := 3) three (fun p => by rw [three_eq]; rfl) phi b o ho zeroM
    rw [e]
    rcases phi[b]? with _ | p
    · rfl
    · simp only [three_eq, Option.elim]
      interval_cases o <;> fin_cases i <;> fin_cases j <;> simp [setM, zeroM]

theorem fits3 : Fits lines3 where
  pos := by decide
  len phi := length_flat (m := 6) six (fun p => by rw [six_eq]; rfl) phi
  entry phi b o ho S hS := by
    have ho' : o < 6 := ho
    have e : fn (symBasis 3 phi) (b * lines3.num + o) = (phi[b]?).elim zeroM (fun p => (six p).getD o zeroM) :=
      getD_flat (m := 6) six (fun p => by rw [six_eq]; rfl) phi b o ho' zeroM
    rw [e]
    rcases phi[b]? with _ | p
    · simp only [Option.elim, inner_zero]; simp [zeroM]
    · simp only [six_eq, Option.elim]
      have h1 := hS 0 1
      have h2 := hS 0 2
      have h3 := hS 1 2
      interval_cases o <;> simp [inner, Fin.sum_univ_three, lines3, setM, zeroM] <;>
        first | done | (rw [← h1]; ring) | (rw [← h2]; ring) | (rw [← h3]; ring)
  symm phi n i j := by
    obtain ⟨b, o, ho, rfl⟩ : ∃ b o, o < 6 ∧ n = b * 6 + o := ⟨n / 6, n % 6, Nat.mod_lt _ (by omega), by omega⟩
    have e : fn (symBasis 3 phi) (b * 6 + o) = (phi[b]?).elim zeroM (fun p => (six p).getD o zeroM) :=
      getD_flat (m := 6) six (fun p => by rw [six_eq]; rfl) phi b o ho zeroM
    rw [e]
    rcases phi[b]? with _ | p
    · rfl
    · simp only [six_eq, Option.elim]
      interval_cases o <;> fin_cases i <;> fin_cases j <;> simp [setM, zeroM]

/-! ### Entries of the matrices -/

theorem inner_comm (A B : Mat ℝ D) : inner A B = inner B A := by
  unfold inner; exact sum_congr rfl fun i _ => sum_congr rfl fun j _ => mul_comm _ _

/-- The contribution of one point to the upper part in small deformations. -/
theorem small_entry {L : Lines D} (hL : Fits L) (w : ℝ) (C : Tens ℝ D) (phi : List ℝ)
    (hC : ∀ A i j, tmProd C A i j = tmProd C A j i) {r c : Nat} (hc : c < (symBasis D phi).length) (hrc : r ≤ c) :
    ((smallWrites L w C (symBasis D phi)).map fun x => if x.1 = r ∧ x.2.1 = c then x.2.2 else 0).sum =
      w * inner (tmProd C (fn (symBasis D phi) c)) (fn (symBasis D phi) r) := by
  have hp := hL.pos
  unfold smallWrites
  rw [sum_flat, sum_range, sum_eq_single c]
  · rw [sum_flat, sum_range, sum_eq_single (r / L.num)]
    · rw [List.map_map, sum_range, sum_eq_single (r % L.num)]
      · have e : r / L.num * L.num + r % L.num = r := Nat.div_add_mod' r L.num
        have := hL.entry phi (r / L.num) (r % L.num) (Nat.mod_lt _ hp) (tmProd C (fn (symBasis D phi) c)) (hC _)
        rw [e] at this
        simp only [Function.comp, e, and_self, if_true]
        rw [this]; ring
      · intro o ho hne
        simp only [Function.comp, and_true]
        rw [if_neg]
        intro h
        apply hne
        have ho' : o < L.num := by simpa using ho
        rw [← h, Nat.add_comm, Nat.add_mul_mod_self_right, Nat.mod_eq_of_lt ho']
      · intro h; exact absurd (mem_range.2 (Nat.mod_lt _ hp)) h
    · intro b _ hne
      rw [List.map_map, sum_range]
      refine sum_eq_zero fun o ho => ?_
      simp only [Function.comp, and_true]
      rw [if_neg]
      intro h
      apply hne
      have ho' : o < L.num := by simpa using ho
      rw [← h, Nat.add_comm, Nat.add_mul_div_right _ _ hp, Nat.div_eq_of_lt ho', Nat.zero_add]
    · intro h
      exact absurd (mem_range.2 (Nat.lt_succ_of_le (Nat.div_le_div_right hrc))) h
  · intro j _ hne
    rw [sum_flat, sum_range]
    refine sum_eq_zero fun b _ => ?_
    rw [List.map_map, sum_range]
    refine sum_eq_zero fun o _ => ?_
    simp only [Function.comp]
    rw [if_neg]
    intro h; exact hne h.2
  · intro h; exact absurd (mem_range.2 hc) h

/-- The same for the forces. -/
theorem small_force {L : Lines D} (hL : Fits L) (w : ℝ) (s : Mat ℝ D) (phi : List ℝ) (hs : ∀ i j, s i j = s j i)
    {r : Nat} (hr : r < (symBasis D phi).length) :
    ((smallForces L w s (symBasis D phi)).map fun x => if x.1 = r then x.2 else 0).sum =
      w * inner s (fn (symBasis D phi) r) := by
  have hp := hL.pos
  have hlen := hL.len phi
  unfold smallForces
  rw [sum_flat, sum_range, sum_eq_single (r / L.num)]
  · rw [List.map_map, sum_range, sum_eq_single (r % L.num)]
    · have e : r / L.num * L.num + r % L.num = r := Nat.div_add_mod' r L.num
      have := hL.entry phi (r / L.num) (r % L.num) (Nat.mod_lt _ hp) s hs
      rw [e] at this
      simp only [Function.comp, e, if_true]
      rw [this]; ring
    · intro o ho hne
      simp only [Function.comp]
      rw [if_neg]
      intro h
      apply hne
      have ho' : o < L.num := by simpa using ho
      rw [← h, Nat.add_comm, Nat.add_mul_mod_self_right, Nat.mod_eq_of_lt ho']
    · intro h; exact absurd (mem_range.2 (Nat.mod_lt _ hp)) h
  · intro b _ hne
    rw [List.map_map, sum_range]
    refine sum_eq_zero fun o ho => ?_
    simp only [Function.comp]
    rw [if_neg]
    intro h
    apply hne
    have ho' : o < L.num := by simpa using ho
    rw [← h, Nat.add_comm, Nat.add_mul_div_right _ _ hp, Nat.div_eq_of_lt ho', Nat.zero_add]
  · intro h
    refine absurd (mem_range.2 ?_) h
    rw [hlen] at hr ⊢
    rw [Nat.mul_div_cancel _ hp]
    exact Nat.div_lt_of_lt_mul (by rwa [Nat.mul_comm])

theorem split_index {D : Nat} (hD : 0 < D) (n : Nat) : ∃ (b : Nat) (k l : Fin D), n = b * (D * D) + (k * D + l) := by
  have hDD : 0 < D * D := Nat.mul_pos hD hD
  refine ⟨n / (D * D), ⟨n % (D * D) / D, Nat.div_lt_of_lt_mul (Nat.mod_lt _ hDD)⟩,
    ⟨n % (D * D) % D, Nat.mod_lt _ hD⟩, ?_⟩
  simp only
  rw [Nat.div_add_mod', Nat.div_add_mod']

theorem index_inj {D b b' : Nat} {k l k' l' : Fin D} (h : b * (D * D) + (k * D + l) = b' * (D * D) + (k' * D + l')) :
    b = b' ∧ k = k' ∧ l = l' := by
  have h1 : (k * D + l : Nat) < D * D := (pos k l).isLt
  have h2 : (k' * D + l' : Nat) < D * D := (pos k' l').isLt
  have hDD : 0 < D * D := by omega
  have eb : b = b' := by
    have e : ∀ x y, y < D * D → (x * (D * D) + y) / (D * D) = x := by
      intro x y hy
      rw [Nat.add_comm, Nat.add_mul_div_right _ _ hDD, Nat.div_eq_of_lt hy, Nat.zero_add]
    rw [← e b _ h1, h, e b' _ h2]
  subst eb
  have hk : (pos k l) = (pos k' l') := Fin.ext (by simpa [pos] using h)
  exact ⟨rfl, pos_inj.1 hk⟩

theorem inner_setM (S : Mat ℝ D) (i j : Fin D) (v : ℝ) : inner S (setM zeroM i j v) = S i j * v := by
  unfold inner
  rw [sum_eq_single i, sum_eq_single j]
  · simp [setM]
  · intro b _ hb; simp [setM, hb, zeroM]
  · simp
  · intro b _ hb; exact sum_eq_zero fun c _ => by simp [setM, hb, zeroM]
  · simp

theorem tmProd_setM (C : Tens ℝ D) (k l : Fin D) (v : ℝ) :
    tmProd C (setM zeroM k l v) = tmProdAt C (setM zeroM k l v) k l := by
  funext i j
  have := inner_setM (fun a b => C (pos i a) (pos j b)) k l v
  simp only [inner] at this
  unfold tmProd tmProdAt
  rw [this]
  simp [setM, Tensor.get, mul_comm]

/-- Entries of `compute_A_gphi`. -/
theorem aGphi_fn (A : Tens ℝ D) (phi : List ℝ) (b : Nat) (hb : b < phi.length) (k l : Fin D) :
    fn (aGphi A (fullBasis D phi)) (b * (D * D) + (k * D + l)) =
      tmProd A (fn (fullBasis D phi) (b * (D * D) + (k * D + l))) := by
  have hlt : (k * D + l : Nat) < D * D := (pos k l).isLt
  have hDD : 0 < D * D := by omega
  have hb' : b < (fullBasis D phi).length / (D * D) := by rw [length_full, Nat.mul_div_cancel _ hDD]; exact hb
  have e : fn (aGphi A (fullBasis D phi)) (b * (D * D) + (k * D + l)) =
      tmProdAt A (fn (fullBasis D phi) (b * (D * D) + (k * D + l))) l k := by
    unfold fn aGphi
    rw [getD_flat (m := D * D) _ (fun b => length_pairs _) _ _ _ hlt]
    rw [List.getElem?_range hb']
    simp only [Option.elim, getD_pairs (fun k l : Fin D => tmProdAt A (fn (fullBasis D phi) (b * (D * D) + (k * D + l))) l k)]
    rfl
  rw [e, full_fn, tmProd_setM]

theorem tmProd_smul (w : ℝ) (C : Tens ℝ D) (A : Mat ℝ D) (i j : Fin D) :
    tmProd (fun r c => w * C r c) A i j = w * tmProd C A i j := by
  unfold tmProd
  rw [mul_sum]
  refine sum_congr rfl fun k _ => ?_
  rw [mul_sum]
  exact sum_congr rfl fun l _ => by ring

/-- The contribution of one point to the lower part in finite deformations. -/
theorem full_entry (hD : 0 < D) (w : ℝ) (C : Tens ℝ D) (phi : List ℝ) {r c : Nat}
    (hr : r < (fullBasis D phi).length) (hcr : c ≤ r) :
    ((fullWrites w C (fullBasis D phi)).map fun x => if x.1 = r ∧ x.2.1 = c then x.2.2 else 0).sum =
      w * inner (tmProd C (fn (fullBasis D phi) r)) (fn (fullBasis D phi) c) := by
  have hDD : 0 < D * D := Nat.mul_pos hD hD
  obtain ⟨b, k, l, rfl⟩ := split_index hD c
  have hlt : (k * D + l : Nat) < D * D := (pos k l).isLt
  have hlen := length_full (D := D) phi
  have hb : b < (fullBasis D phi).length / (D * D) := by
    rw [Nat.lt_div_iff_mul_lt' ⟨_, hlen.trans (Nat.mul_comm _ _)⟩]
    rw [Nat.mul_comm]
    omega
  unfold fullWrites
  rw [sum_flat, sum_range, sum_eq_single b]
  · rw [sum_flat, sum_fin, sum_eq_single k]
    · rw [sum_flat, sum_fin, sum_eq_single l]
      · rw [List.map_map, sum_range, sum_eq_single (r - (b * (D * D) + (k * D + l)))]
        · have e : b * (D * D) + (k * D + l) + (r - (b * (D * D) + (k * D + l))) = r := by omega
          simp only [Function.comp, e, and_self, if_true]
          obtain ⟨b', k', l', rfl⟩ := split_index hD r
          have hb' : b' < phi.length := by
            rw [hlen] at hr
            exact Nat.lt_of_mul_lt_mul_right (a := D * D) (by omega)
          rw [aGphi_fn _ _ _ hb', full_fn phi b k l, inner_setM, tmProd_smul]
          simp [setM]; ring
        · intro i _ hne
          simp only [Function.comp, and_true]
          rw [if_neg]
          intro h; apply hne; omega
        · intro h; refine absurd (mem_range.2 ?_) h; omega
      · intro l' _ hne
        rw [List.map_map, sum_range]
        refine sum_eq_zero fun i _ => ?_
        simp only [Function.comp]
        rw [if_neg]
        intro h; exact hne (index_inj h.2).2.2
      · simp
    · intro k' _ hne
      rw [sum_flat, sum_fin]
      refine sum_eq_zero fun l' _ => ?_
      rw [List.map_map, sum_range]
      refine sum_eq_zero fun i _ => ?_
      simp only [Function.comp]
      rw [if_neg]
      intro h; exact hne (index_inj h.2).2.1
    · simp
  · intro b' _ hne
    rw [sum_flat, sum_fin]
    refine sum_eq_zero fun k' _ => ?_
    rw [sum_flat, sum_fin]
    refine sum_eq_zero fun l' _ => ?_
    rw [List.map_map, sum_range]
    refine sum_eq_zero fun i _ => ?_
    simp only [Function.comp]
    rw [if_neg]
    intro h; exact hne (index_inj h.2).1
  · intro h; exact absurd (mem_range.2 hb) h

/-- The same for the forces. -/
theorem full_force (hD : 0 < D) (w : ℝ) (s : Mat ℝ D) (phi : List ℝ) {r : Nat} (hr : r < (fullBasis D phi).length) :
    ((fullForces w s (fullBasis D phi)).map fun x => if x.1 = r then x.2 else 0).sum =
      w * inner s (fn (fullBasis D phi) r) := by
  have hDD : 0 < D * D := Nat.mul_pos hD hD
  obtain ⟨b, k, l, rfl⟩ := split_index hD r
  have hlen := length_full (D := D) phi
  have hb : b < (fullBasis D phi).length / (D * D) := by
    rw [Nat.lt_div_iff_mul_lt' ⟨_, hlen.trans (Nat.mul_comm _ _)⟩]
    rw [Nat.mul_comm]
    omega
  unfold fullForces
  rw [sum_flat, sum_range, sum_eq_single b]
  · rw [sum_flat, sum_fin, sum_eq_single k]
    · rw [List.map_map, sum_fin, sum_eq_single l]
      · simp only [Function.comp, if_true]
        rw [full_fn, inner_setM]
        simp [setM]; ring
      · intro l' _ hne
        simp only [Function.comp]
        rw [if_neg]
        intro h; exact hne (index_inj h).2.2
      · simp
    · intro k' _ hne
      rw [List.map_map, sum_fin]
      refine sum_eq_zero fun l' _ => ?_
      simp only [Function.comp]
      rw [if_neg]
      intro h; exact hne (index_inj h).2.1
    · simp
  · intro b' _ hne
    rw [sum_flat, sum_fin]
    refine sum_eq_zero fun k' _ => ?_
    rw [List.map_map, sum_fin]
    refine sum_eq_zero fun l' _ => ?_
    simp only [Function.comp]
    rw [if_neg]
    intro h; exact hne (index_inj h).1
  · intro h; exact absurd (mem_range.2 hb) h

/-! ### Bilinear forms -/

theorem major_inner {C : Tens ℝ D} (h : MajorSymmetric C) (A B : Mat ℝ D) :
    inner A (tmProd C B) = inner B (tmProd C A) := by
  have e : ∀ A B : Mat ℝ D, inner A (tmProd C B) =
      ∑ i, ∑ j, ∑ k, ∑ l, A i j * Tensor.get C ⟨i, j, k, l⟩ * B k l := by
    intro A B
    unfold inner tmProd
    refine sum_congr rfl fun i _ => sum_congr rfl fun j _ => ?_
    rw [mul_sum]
    refine sum_congr rfl fun k _ => ?_
    rw [mul_sum]
    exact sum_congr rfl fun l _ => by simp [Tensor.get]; ring
  rw [e, e]
  have s1 : ∀ F : Fin D → Fin D → Fin D → Fin D → ℝ,
      ∑ i, ∑ j, ∑ k, ∑ l, F i j k l = ∑ k, ∑ l, ∑ i, ∑ j, F i j k l := by
    intro F
    calc ∑ i, ∑ j, ∑ k, ∑ l, F i j k l = ∑ i, ∑ k, ∑ j, ∑ l, F i j k l :=
          sum_congr rfl fun i _ => sum_comm
      _ = ∑ k, ∑ i, ∑ j, ∑ l, F i j k l := sum_comm
      _ = ∑ k, ∑ i, ∑ l, ∑ j, F i j k l := sum_congr rfl fun k _ => sum_congr rfl fun i _ => sum_comm
      _ = _ := sum_congr rfl fun k _ => sum_comm
  rw [s1]
  refine sum_congr rfl fun k _ => sum_congr rfl fun l _ => sum_congr rfl fun i _ => sum_congr rfl fun j _ => ?_
  rw [h i j k l]; ring

theorem inner_evalG (S : Mat ℝ D) (a : Nat → ℝ) (g : List (Mat ℝ D)) :
    inner S (evalG a g) = ∑ n ∈ range g.length, a n * inner S (fn g n) := by
  unfold inner evalG
  have : ∀ i, ∑ j, S i j * ∑ n ∈ range g.length, a n * fn g n i j =
      ∑ n ∈ range g.length, a n * ∑ j, S i j * fn g n i j := by
    intro i
    simp only [mul_sum]
    rw [sum_comm]
    exact sum_congr rfl fun n _ => sum_congr rfl fun j _ => by ring
  simp only [this]
  rw [sum_comm]
  exact sum_congr rfl fun n _ => by rw [mul_sum]

theorem tmProd_evalG (C : Tens ℝ D) (a : Nat → ℝ) (g : List (Mat ℝ D)) (i j : Fin D) :
    tmProd C (evalG a g) i j = ∑ n ∈ range g.length, a n * tmProd C (fn g n) i j :=
  inner_evalG (fun k l => C (pos i k) (pos j l)) a g

theorem inner_sum_right (A : Mat ℝ D) (N : Nat) (a : Nat → ℝ) (X : Nat → Mat ℝ D) :
    inner A (fun i j => ∑ n ∈ range N, a n * X n i j) = ∑ n ∈ range N, a n * inner A (X n) := by
  unfold inner
  have : ∀ i, ∑ j, A i j * ∑ n ∈ range N, a n * X n i j = ∑ n ∈ range N, a n * ∑ j, A i j * X n i j := by
    intro i
    simp only [mul_sum]
    rw [sum_comm]
    exact sum_congr rfl fun n _ => sum_congr rfl fun j _ => by ring
  simp only [this]
  rw [sum_comm]
  exact sum_congr rfl fun n _ => by rw [mul_sum]

theorem bilinear (C : Tens ℝ D) (a b : Nat → ℝ) (g : List (Mat ℝ D)) :
    inner (evalG a g) (tmProd C (evalG b g)) =
      ∑ r ∈ range g.length, ∑ c ∈ range g.length, a r * inner (fn g r) (tmProd C (fn g c)) * b c := by
  rw [inner_comm, inner_evalG]
  refine sum_congr rfl fun r _ => ?_
  have e : tmProd C (evalG b g) = fun i j => ∑ n ∈ range g.length, b n * tmProd C (fn g n) i j := by
    funext i j; exact tmProd_evalG C b g i j
  rw [inner_comm, e, inner_sum_right, mul_sum]
  exact sum_congr rfl fun c _ => by ring

theorem evalG_symm {g : List (Mat ℝ D)} (h : ∀ n i j, fn g n i j = fn g n j i) (a : Nat → ℝ) (i j : Fin D) :
    evalG a g i j = evalG a g j i := by
  unfold evalG; exact sum_congr rfl fun n _ => by rw [h n i j]

/-! ### The local system -/

theorem fold_writes (W : Point D → List (Nat × Nat × ℝ)) (qs : List (Point D)) (A : Nat → Nat → ℝ) (r c : Nat) :
    qs.foldl (fun A q => addWrites (W q) A) A r c =
      A r c + (qs.map fun q => ((W q).map fun x => if x.1 = r ∧ x.2.1 = c then x.2.2 else 0).sum).sum := by
  induction qs generalizing A with
  | nil => simp
  | cons q qs ih => rw [List.foldl_cons, ih, addWrites_eq]; simp; ring

theorem fold_writes1 (W : Point D → List (Nat × ℝ)) (qs : List (Point D)) (a : Nat → ℝ) (r : Nat) :
    qs.foldl (fun A q => addWrites1 (W q) A) a r =
      a r + (qs.map fun q => ((W q).map fun x => if x.1 = r then x.2 else 0).sum).sum := by
  induction qs generalizing a with
  | nil => simp
  | cons q qs ih => rw [List.foldl_cons, ih, addWrites1_eq]; simp; ring

theorem gphi_symm {d : Data D} (h : Fitting d) (hs : d.small = true) (q : Point D) (n : Nat) (i j : Fin D) :
    fn (q.gphi d.small) n i j = fn (q.gphi d.small) n j i := by
  unfold Point.gphi; rw [if_pos hs]; exact h.lines.symm _ _ _ _

theorem map_sum_congr {X : Type} (l : List X) (f g : X → ℝ) (h : ∀ x ∈ l, f x = g x) :
    (l.map f).sum = (l.map g).sum := by rw [List.map_congr_left h]

theorem at_entry {d : Data D} (h : Fitting d) (a : Nat → ℝ) {r c : Nat} (hr : r < d.N) (hc : c < d.N) :
    symmetrized d.small d.N (loopAT d.small d.lines d.pts a) r c =
      (d.pts.map fun q => q.w * inner (fn (q.gphi d.small) r)
        (tmProd (q.behavior d.small (evalG a (q.gphi d.small))).2 (fn (q.gphi d.small) c))).sum := by
  have key : ∀ x y, x < d.N → y < d.N → (if d.small then x ≤ y else y ≤ x) →
      loopAT d.small d.lines d.pts a x y =
        (d.pts.map fun q => q.w * inner (fn (q.gphi d.small) r)
        (tmProd (q.behavior d.small (evalG a (q.gphi d.small))).2 (fn (q.gphi d.small) c))).sum ∨
        ¬ ((x = r ∧ y = c) ∨ (x = c ∧ y = r)) := by
    intro x y hx hy hxy
    by_cases hz : (x = r ∧ y = c) ∨ (x = c ∧ y = r)
    · left
      unfold loopAT
      rw [fold_writes, zero_add]
      refine map_sum_congr _ _ _ fun q hq => ?_
      have hlen := h.len q hq
      have hadm := h.adm q hq
      have hcomm : inner (tmProd (q.behavior d.small (evalG a (q.gphi d.small))).2 (fn (q.gphi d.small) y))
            (fn (q.gphi d.small) x) =
          inner (fn (q.gphi d.small) r)
            (tmProd (q.behavior d.small (evalG a (q.gphi d.small))).2 (fn (q.gphi d.small) c)) := by
        have hm : MajorSymmetric (q.behavior d.small (evalG a (q.gphi d.small))).2 := by
          unfold Point.behavior; split <;> exact hadm.major _
        rcases hz with ⟨rfl, rfl⟩ | ⟨rfl, rfl⟩
        · exact inner_comm _ _
        · rw [inner_comm]; exact major_inner hm _ _
      have hcomm' : inner (tmProd (q.behavior d.small (evalG a (q.gphi d.small))).2 (fn (q.gphi d.small) x))
            (fn (q.gphi d.small) y) =
          inner (fn (q.gphi d.small) r)
            (tmProd (q.behavior d.small (evalG a (q.gphi d.small))).2 (fn (q.gphi d.small) c)) := by
        have hm : MajorSymmetric (q.behavior d.small (evalG a (q.gphi d.small))).2 := by
          unfold Point.behavior; split <;> exact hadm.major _
        rw [← hcomm, inner_comm, major_inner hm, inner_comm]
      by_cases hs : d.small = true
      · rw [if_pos hs] at hxy
        have hg : q.gphi d.small = symBasis D q.phi := by unfold Point.gphi; rw [if_pos hs]
        rw [← hcomm]
        rw [hg] at hlen ⊢
        rw [if_pos hs]
        refine small_entry h.lines _ _ _ ?_ (by rw [hlen]; exact hy) hxy
        intro A i j
        unfold Point.behavior
        rw [if_pos hs]
        exact hadm.minor hs _ _ _ _
      · rw [if_neg hs] at hxy
        have hg : q.gphi d.small = fullBasis D q.phi := by unfold Point.gphi; rw [if_neg hs]
        rw [← hcomm']
        rw [hg] at hlen ⊢
        rw [if_neg hs]
        exact full_entry h.dim _ _ _ (by rw [hlen]; exact hx) hxy
    · exact Or.inr hz
  have k1 : (if d.small = true then c ≤ r else r ≤ c) → loopAT d.small d.lines d.pts a c r = _ := fun hh =>
    (key c r hc hr hh).resolve_right fun e => e (Or.inr ⟨rfl, rfl⟩)
  have k2 : (if d.small = true then r ≤ c else c ≤ r) → loopAT d.small d.lines d.pts a r c = _ := fun hh =>
    (key r c hr hc hh).resolve_right fun e => e (Or.inl ⟨rfl, rfl⟩)
  unfold symmetrized
  by_cases hif : (if d.small = true then c ≤ r else r ≤ c)
  · rw [if_pos ⟨hr, hc, hif⟩]; exact k1 hif
  · rw [if_neg fun e => hif e.2.2]
    refine k2 ?_
    by_cases hs : d.small = true
    · rw [if_pos hs] at hif ⊢; omega
    · rw [if_neg hs] at hif ⊢; omega

theorem force_entry {d : Data D} (h : Fitting d) (a : Nat → ℝ) {r : Nat} (hr : r < d.N) :
    loopaT d.small d.lines d.pts a r =
      (d.pts.map fun q => q.w * inner (q.behavior d.small (evalG a (q.gphi d.small))).1
        (fn (q.gphi d.small) r)).sum := by
  unfold loopaT
  rw [fold_writes1, zero_add]
  refine map_sum_congr _ _ _ fun q hq => ?_
  have hlen := h.len q hq
  have hadm := h.adm q hq
  by_cases hs : d.small = true
  · have hsym := fun n i j => gphi_symm h hs q n i j
    have hg : q.gphi d.small = symBasis D q.phi := by unfold Point.gphi; rw [if_pos hs]
    rw [hg] at hlen hsym ⊢
    rw [if_pos hs]
    refine small_force h.lines _ _ _ ?_ (by rw [hlen]; exact hr)
    intro i j
    unfold Point.behavior
    rw [if_pos hs]
    exact hadm.stress hs _ (evalG_symm hsym _) _ _
  · have hg : q.gphi d.small = fullBasis D q.phi := by unfold Point.gphi; rw [if_neg hs]
    rw [hg] at hlen ⊢
    rw [if_neg hs]
    exact full_force h.dim _ _ _ (by rw [hlen]; exact hr)

theorem sum_list_comm {X : Type} (l : List X) (N : Nat) (f : Nat → X → ℝ) :
    ∑ r ∈ range N, (l.map (f r)).sum = (l.map fun q => ∑ r ∈ range N, f r q).sum := by
  induction l with
  | nil => simp
  | cons x l ih => simp [sum_add_distrib, ih]

theorem mul_list_sum {X : Type} (l : List X) (c : ℝ) (f : X → ℝ) : c * (l.map f).sum = (l.map fun q => c * f q).sum := by
  induction l with
  | nil => simp
  | cons x l ih => simp [mul_add, ih]

/-- The virtual work of the internal forces. -/
theorem force_work {d : Data D} (h : Fitting d) (u v : Nat → ℝ) :
    ∑ i ∈ range d.n, d.fInt u i * v i =
      (d.pts.map fun q => q.w * inner (q.behavior d.small (dofStrain d q u)).1 (dofStrain d q v)).sum := by
  have e1 : ∑ i ∈ range d.n, d.fInt u i * v i =
      ∑ r ∈ range d.N, mulVec d.n d.R v r * loopaT d.small d.lines d.pts (mulVec d.n d.R u) r := by
    unfold Data.fInt mulVec
    simp only [sum_mul]
    rw [sum_comm]
    exact sum_congr rfl fun r _ => sum_congr rfl fun i _ => by ring
  rw [e1]
  have e2 : ∑ r ∈ range d.N, mulVec d.n d.R v r * loopaT d.small d.lines d.pts (mulVec d.n d.R u) r =
      ∑ r ∈ range d.N, (d.pts.map fun q => mulVec d.n d.R v r *
        (q.w * inner (q.behavior d.small (dofStrain d q u)).1 (fn (q.gphi d.small) r))).sum := by
    refine sum_congr rfl fun r hr => ?_
    rw [force_entry h _ (mem_range.1 hr), mul_list_sum]; rfl
  rw [e2, sum_list_comm]
  refine map_sum_congr _ _ _ fun q hq => ?_
  conv_rhs => rw [show dofStrain d q v = evalG (mulVec d.n d.R v) (q.gphi d.small) from rfl, inner_evalG, h.len q hq, mul_sum]
  exact sum_congr rfl fun r _ => by ring

/-- The bilinear form of the local matrix. -/
theorem rigidity_work {d : Data D} (h : Fitting d) (u v w : Nat → ℝ) :
    ∑ i ∈ range d.n, ∑ j ∈ range d.n, v i * d.kInt u i j * w j =
      (d.pts.map fun q => q.w * inner (dofStrain d q v)
        (tmProd (q.behavior d.small (dofStrain d q u)).2 (dofStrain d q w))).sum := by
  have e1 : ∑ i ∈ range d.n, ∑ j ∈ range d.n, v i * d.kInt u i j * w j =
      ∑ r ∈ range d.N, ∑ c ∈ range d.N, mulVec d.n d.R v r *
        symmetrized d.small d.N (loopAT d.small d.lines d.pts (mulVec d.n d.R u)) r c * mulVec d.n d.R w c := by
    unfold Data.kInt sandwich mulVec
    generalize symmetrized d.small d.N (loopAT d.small d.lines d.pts fun i => ∑ j ∈ range d.n, d.R i j * u j) = A
    calc ∑ i ∈ range d.n, ∑ j ∈ range d.n, v i * (∑ r ∈ range d.N, ∑ c ∈ range d.N, d.R r i * A r c * d.R c j) * w j
        = ∑ i ∈ range d.n, ∑ j ∈ range d.n, ∑ r ∈ range d.N, ∑ c ∈ range d.N,
            (d.R r i * v i) * A r c * (d.R c j * w j) := by
          refine sum_congr rfl fun i _ => sum_congr rfl fun j _ => ?_
          rw [mul_sum, sum_mul]
          refine sum_congr rfl fun r _ => ?_
          rw [mul_sum, sum_mul]
          exact sum_congr rfl fun c _ => by ring
      _ = ∑ i ∈ range d.n, ∑ r ∈ range d.N, ∑ j ∈ range d.n, ∑ c ∈ range d.N,
            (d.R r i * v i) * A r c * (d.R c j * w j) := sum_congr rfl fun i _ => sum_comm
      _ = ∑ r ∈ range d.N, ∑ i ∈ range d.n, ∑ j ∈ range d.n, ∑ c ∈ range d.N,
            (d.R r i * v i) * A r c * (d.R c j * w j) := sum_comm
      _ = ∑ r ∈ range d.N, ∑ i ∈ range d.n, ∑ c ∈ range d.N, ∑ j ∈ range d.n,
            (d.R r i * v i) * A r c * (d.R c j * w j) :=
          sum_congr rfl fun r _ => sum_congr rfl fun i _ => sum_comm
      _ = ∑ r ∈ range d.N, ∑ c ∈ range d.N, ∑ i ∈ range d.n, ∑ j ∈ range d.n,
            (d.R r i * v i) * A r c * (d.R c j * w j) := sum_congr rfl fun r _ => sum_comm
      _ = _ := by
          refine sum_congr rfl fun r _ => sum_congr rfl fun c _ => ?_
          rw [sum_mul, sum_mul]
          refine sum_congr rfl fun i _ => ?_
          rw [mul_sum]
  rw [e1]
  have e2 : ∑ r ∈ range d.N, ∑ c ∈ range d.N, mulVec d.n d.R v r *
        symmetrized d.small d.N (loopAT d.small d.lines d.pts (mulVec d.n d.R u)) r c * mulVec d.n d.R w c =
      ∑ r ∈ range d.N, (d.pts.map fun q => ∑ c ∈ range d.N, q.w * (mulVec d.n d.R v r *
        inner (fn (q.gphi d.small) r) (tmProd (q.behavior d.small (dofStrain d q u)).2 (fn (q.gphi d.small) c)) *
        mulVec d.n d.R w c)).sum := by
    refine sum_congr rfl fun r hr => ?_
    rw [← sum_list_comm]
    refine sum_congr rfl fun c hc => ?_
    rw [at_entry h _ (mem_range.1 hr) (mem_range.1 hc), mul_list_sum, mul_comm, mul_list_sum]
    refine map_sum_congr _ _ _ fun q _ => ?_
    show _ = _
    unfold dofStrain
    ring
  rw [e2, sum_list_comm]
  refine map_sum_congr _ _ _ fun q hq => ?_
  conv_rhs => rw [show dofStrain d q v = evalG (mulVec d.n d.R v) (q.gphi d.small) from rfl,
    show dofStrain d q w = evalG (mulVec d.n d.R w) (q.gphi d.small) from rfl, bilinear, h.len q hq, mul_sum]
  refine sum_congr rfl fun r _ => ?_
  rw [mul_sum]

theorem strain_add (d : Data D) (q : Point D) (u v : Nat → ℝ) (t : ℝ) (i j : Fin D) :
    dofStrain d q (fun k => u k + t * v k) i j = dofStrain d q u i j + t * dofStrain d q v i j := by
  unfold dofStrain evalG mulVec
  rw [mul_sum, ← sum_add_distrib]
  refine sum_congr rfl fun n _ => ?_
  have : ∑ k ∈ range d.n, d.R n k * (u k + t * v k) =
      (∑ k ∈ range d.n, d.R n k * u k) + t * ∑ k ∈ range d.n, d.R n k * v k := by
    rw [mul_sum, ← sum_add_distrib]
    exact sum_congr rfl fun k _ => by ring
  rw [this]; ring

end Verif.Lemmas.Rigidity
