import Verif.Spec.Contact
import Mathlib.Tactic.Ring
import Mathlib.Tactic.Linarith
import Mathlib.Tactic.FieldSimp
import Mathlib.Algebra.BigOperators.Ring.Finset
/-!
Contact and friction: sums over unknowns, faces and quadrature points.
-/
namespace Verif.Contact
open Tensor Rigidity Finset Spec.Contact

variable {D : Nat}

theorem loopFaces_eq {A : Type} [AddCommMonoid A] (f : Nat → Face D → A) (off : Nat) (fs : List (Face D)) :
    loopFaces f off fs = ((contactFaces off fs).map fun x => f x.1 x.2).sum := by
  induction fs generalizing off with
  | nil => rfl
  | cons fc fs ih =>
    rw [loopFaces, contactFaces, List.map_append, List.sum_append, ih]
    by_cases h : fc.isContact = true <;> simp [h]

theorem contactFaces_mem {off : Nat} {fs : List (Face D)} {x : Nat × Face D} (h : x ∈ contactFaces off fs) :
    x.2 ∈ fs ∧ x.2.isContact = true ∧ off ≤ x.1 ∧ x.1 + x.2.fbs ≤ off + (fs.map Face.fbs).sum := by
  induction fs generalizing off with
  | nil => simp [contactFaces] at h
  | cons fc fs ih =>
    rw [contactFaces, List.mem_append] at h
    rcases h with h | h
    · by_cases hc : fc.isContact = true
      · simp [hc] at h
        subst h
        simp [hc]
      · simp [hc] at h
    · obtain ⟨a, b, c, e⟩ := ih h
      refine ⟨List.mem_cons_of_mem _ a, b, by omega, ?_⟩
      simp only [List.map_cons, List.sum_cons]
      omega

theorem sum1_apply {A : Type} (l : List A) (f : A → Nat → ℝ) (i : Nat) :
    (l.map f).sum i = (l.map fun a => f a i).sum := by
  induction l with
  | nil => rfl
  | cons a l ih => simp [ih]

theorem sum2_apply {A : Type} (l : List A) (f : A → Nat → Nat → ℝ) (i j : Nat) :
    (l.map f).sum i j = (l.map fun a => f a i j).sum := by
  induction l with
  | nil => rfl
  | cons a l ih => simp [ih]

theorem sum_list {A : Type} (l : List A) (s : Finset Nat) (f : A → Nat → ℝ) :
    ∑ i ∈ s, (l.map fun a => f a i).sum = (l.map fun a => ∑ i ∈ s, f a i).sum := by
  induction l with
  | nil => simp
  | cons a l ih => simp [sum_add_distrib, ih]

theorem list_mul {A : Type} (l : List A) (f : A → ℝ) (c : ℝ) : (l.map f).sum * c = (l.map fun a => f a * c).sum := by
  induction l with
  | nil => simp
  | cons a l ih => simp [add_mul, ih]

theorem mul_list {A : Type} (l : List A) (f : A → ℝ) (c : ℝ) : c * (l.map f).sum = (l.map fun a => c * f a).sum := by
  induction l with
  | nil => simp
  | cons a l ih => simp [mul_add, ih]

theorem list_add {A : Type} (l : List A) (f g : A → ℝ) :
    (l.map f).sum + (l.map g).sum = (l.map fun a => f a + g a).sum := by
  induction l with
  | nil => simp
  | cons a l ih => simp only [List.map_cons, List.sum_cons, ← ih]; ring

theorem list_congr {A : Type} (l : List A) {f g : A → ℝ} (h : ∀ a ∈ l, f a = g a) :
    (l.map f).sum = (l.map g).sum := by
  rw [List.map_congr_left h]

theorem list_nonneg {A : Type} (l : List A) {f : A → ℝ} (h : ∀ a ∈ l, 0 ≤ f a) : 0 ≤ (l.map f).sum := by
  induction l with
  | nil => simp
  | cons a l ih =>
    simp only [List.map_cons, List.sum_cons]
    exact add_nonneg (h a (by simp)) (ih fun b hb => h b (by simp [hb]))

/-- Sums over the unknowns of a trace. -/
theorem seg_sum {n off len : Nat} (h : off + len ≤ n) (a b v : Nat → ℝ) :
    ∑ i ∈ range n, (if off ≤ i ∧ i < off + len then a i - b (i - off) else a i) * v i =
      ∑ i ∈ range n, a i * v i - ∑ i ∈ range len, b i * v (off + i) := by
  have e : ∀ i ∈ range n, (if off ≤ i ∧ i < off + len then a i - b (i - off) else a i) * v i =
      a i * v i - if off ≤ i ∧ i < off + len then b (i - off) * v i else 0 := by
    intro i _; split <;> ring
  rw [sum_congr rfl e, sum_sub_distrib]
  congr 1
  rw [← sum_filter]
  refine sum_bij' (fun i _ => i - off) (fun i _ => off + i) ?_ ?_ ?_ ?_ ?_
  · intro i hi; simp only [mem_filter, mem_range] at hi ⊢; omega
  · intro i hi; simp only [mem_filter, mem_range] at hi ⊢; omega
  · intro i hi; simp only [mem_filter, mem_range] at hi ⊢; omega
  · intro i hi; simp
  · intro i hi
    simp only [mem_filter, mem_range] at hi
    rw [show off + (i - off) = i by omega]

theorem hooke_mul (mu la : ℝ) (E : Mat ℝ D) (n : Vec D) (k : Fin D) :
    ∑ j, hooke mu la E k j * n j = 2 * mu * ∑ j, E k j * n j + la * ((∑ l, E l l) * n k) := by
  have e : ∀ j, hooke mu la E k j * n j = 2 * mu * (E k j * n j) + if k = j then la * (∑ l, E l l) * n j else 0 := by
    intro j; unfold hooke; split <;> ring
  rw [sum_congr rfl fun j _ => e j, sum_add_distrib, ← mul_sum, sum_ite_eq, if_pos (mem_univ _), mul_assoc la]

/-- The rows of `sigma_n` applied to a vector of unknowns give its traction. -/
theorem sigmaN_sum (d : Data D) (fc : Face D) (p : Vec D) (v : Nat → ℝ) (k : Fin D) :
    ∑ i ∈ range d.n, sigmaN d fc.n p i k * v i = traction d fc v p k := by
  have h : ∀ A : Nat → ℝ, ∑ i ∈ range d.n, (∑ r ∈ range d.N, d.ET r i * A r) * v i =
      ∑ r ∈ range d.N, (∑ c ∈ range d.n, d.ET r c * v c) * A r := by
    intro A
    simp only [sum_mul]
    rw [sum_comm]
    exact sum_congr rfl fun r _ => sum_congr rfl fun c _ => by ring
  have e : ∀ i, sigmaN d fc.n p i k * v i =
      2 * d.mu * ((∑ r ∈ range d.N, d.ET r i * ∑ l, fn (d.gb p) r k l * fc.n l) * v i) +
      d.lambda * ((∑ r ∈ range d.N, d.ET r i * ((∑ l, fn (d.gb p) r l l) * fc.n k)) * v i) := by
    intro i; unfold sigmaN; ring
  rw [sum_congr rfl fun i _ => e i, sum_add_distrib, ← mul_sum, ← mul_sum, h, h, traction, hooke_mul]
  congr 2
  · simp only [strain, sum_mul, mul_sum]
    rw [sum_comm]
    exact sum_congr rfl fun j _ => sum_congr rfl fun r _ => sum_congr rfl fun c _ => by ring
  · simp only [strain, sum_mul, mul_sum]
    rw [sum_comm]
    exact sum_congr rfl fun j _ => sum_congr rfl fun r _ => sum_congr rfl fun c _ => by ring

theorem strain_eq {d : Data D} {p : Vec D} (h : (d.gb p).length = d.N) (v : Nat → ℝ) :
    evalG (mulVec d.n d.ET v) (d.gb p) = strain d v p := by
  funext i j
  simp only [evalG, strain, mulVec, h]

theorem stressN_eq {d : Data D} {p : Vec D} (h : (d.gb p).length = d.N) (fc : Face D) (v : Nat → ℝ) :
    evalStressN d (mulVec d.n d.ET v) fc.n p = traction d fc v p := by
  funext k
  unfold evalStressN traction
  refine sum_congr rfl fun l _ => ?_
  simp only [evalStress, strain_eq h, hooke]
  split <;> ring

theorem trial_eq {d : Data D} {p : Vec D} (h : (d.gb p).length = d.N) (fc : Face D) (off : Nat) (u : Nat → ℝ) :
    d.phiN1u fc off u p = trial d fc off u p := by
  unfold Data.phiN1u trial gap
  have e : evalStressNN d (mulVec d.n d.ET u) fc.n p = along fc.n (traction d fc u p) := by
    unfold evalStressNN; rw [stressN_eq h]; rfl
  dsimp only
  rw [e]
  by_cases hc : fc.ctype = .signoriniCell
  · rw [if_pos hc, if_pos hc]
    have e2 : evalUN (d.cb p) fc.n u 0 d.cbs = along fc.n (disp d fc off u p) := by
      unfold evalUN along disp uN dot
      simp only [hc, if_true, sum_mul]
      rw [sum_comm]
      exact sum_congr rfl fun i _ => sum_congr rfl fun k _ => by rw [Nat.zero_add]; ring
    rw [e2]
    unfold Data.gammaF
    ring
  · rw [if_neg hc, if_neg hc]; rfl

theorem disp_eq (d : Data D) (fc : Face D) (off : Nat) (v : Nat → ℝ) (p : Vec D) (k : Fin D) :
    disp d fc off v p k = ∑ i ∈ range (d.trLen fc), d.trBasis fc p i k * v (trOff fc off + i) := by
  unfold disp Data.trLen Data.trBasis trOff
  by_cases hc : fc.ctype = .signoriniCell
  · simp only [hc, if_true, Nat.zero_add]; exact sum_congr rfl fun i _ => by ring
  · simp only [hc, if_false]; exact sum_congr rfl fun i _ => by ring

theorem dispN_eq (d : Data D) (fc : Face D) (off : Nat) (v : Nat → ℝ) (p : Vec D) :
    ∑ i ∈ range (d.trLen fc), uN fc.n (d.trBasis fc p) i * v (trOff fc off + i) = along fc.n (disp d fc off v p) := by
  unfold along uN dot
  simp only [disp_eq, sum_mul]
  rw [sum_comm]
  exact sum_congr rfl fun i _ => sum_congr rfl fun k _ => by ring

theorem dispT_eq (d : Data D) (fc : Face D) (off : Nat) (v : Nat → ℝ) (p : Vec D) (k : Fin D) :
    ∑ i ∈ range (d.trLen fc), uT fc.n (d.trBasis fc p) i k * v (trOff fc off + i) =
      rest fc.n (disp d fc off v p) k := by
  unfold rest
  rw [← dispN_eq, disp_eq, sum_mul, ← sum_sub_distrib]
  exact sum_congr rfl fun i _ => by unfold uT; ring

theorem tang_eq {d : Data D} {p : Vec D} (h : (d.gb p).length = d.N) (fc : Face D) (off : Nat) (u : Nat → ℝ) :
    d.phiT1u fc off u p = phiTV d 1 fc off u p := by
  funext k
  unfold Data.phiT1u phiTV
  unfold evalStressNT evalStressNN evalUT
  rw [stressN_eq h, dispT_eq, one_mul]
  rfl

/-- The unknowns of the trace are unknowns of the cell and its faces. -/
theorem tr_le {d : Data D} (hd : WellSized d) {x : Nat × Face D} (hx : x ∈ contactFaces d.cbs d.faces) :
    trOff x.2 x.1 + d.trLen x.2 ≤ d.n := by
  obtain ⟨_, _, _, h⟩ := contactFaces_mem hx
  rw [hd.dofs]
  unfold trOff Data.trLen
  split <;> omega

theorem phiNAt_sum {d : Data D} (hd : WellSized d) {x : Nat × Face D} (hx : x ∈ contactFaces d.cbs d.faces)
    (th : ℝ) (p : Vec D) (v : Nat → ℝ) :
    ∑ i ∈ range d.n, d.phiNAt th x.2 x.1 p i * v i = phiNV d th x.2 x.1 v p := by
  unfold Data.phiNAt phiN
  rw [seg_sum (tr_le hd hx) (fun i => th * sigmaNN d x.2.n p i)
    (fun i => d.gammaF x.2 * uN x.2.n (d.trBasis x.2 p) i)]
  unfold phiNV
  congr 1
  · unfold along
    simp only [← sigmaN_sum, sigmaNN, dot, sum_mul, mul_sum]
    rw [sum_comm]
    exact sum_congr rfl fun i _ => sum_congr rfl fun k _ => by ring
  · rw [← dispN_eq, mul_sum]
    exact sum_congr rfl fun i _ => by unfold Data.gammaF; ring

theorem sigmaNT_sum (d : Data D) (fc : Face D) (p : Vec D) (v : Nat → ℝ) (k : Fin D) :
    ∑ i ∈ range d.n, sigmaNT d fc.n p i k * v i = rest fc.n (traction d fc v p) k := by
  unfold rest along
  simp only [← sigmaN_sum, sigmaNT, sub_mul, sum_sub_distrib, sigmaNN, dot]
  congr 1
  simp only [sum_mul]
  rw [sum_comm]
  exact sum_congr rfl fun i _ => sum_congr rfl fun k _ => by ring

theorem phiTAt_sum {d : Data D} (hd : WellSized d) {x : Nat × Face D} (hx : x ∈ contactFaces d.cbs d.faces)
    (th : ℝ) (p : Vec D) (v : Nat → ℝ) (k : Fin D) :
    ∑ i ∈ range d.n, d.phiTAt th x.2 x.1 p i k * v i = phiTV d th x.2 x.1 v p k := by
  unfold Data.phiTAt phiT
  rw [seg_sum (tr_le hd hx) (fun i => th * sigmaNT d x.2.n p i k)
    (fun i => d.gammaF x.2 * uT x.2.n (d.trBasis x.2 p) i k)]
  unfold phiTV
  congr 1
  · rw [← sigmaNT_sum, mul_sum]
    exact sum_congr rfl fun i _ => by ring
  · rw [← dispT_eq, mul_sum]
    exact sum_congr rfl fun i _ => by unfold Data.gammaF; ring

/-- A bilinear form given by a matrix that is a product. -/
theorem form_mul (n : Nat) (c : ℝ) (a b v w : Nat → ℝ) :
    ∑ i ∈ range n, ∑ j ∈ range n, v i * (c * a i * b j) * w j =
      c * (∑ i ∈ range n, a i * v i) * ∑ j ∈ range n, b j * w j := by
  rw [mul_assoc, sum_mul_sum, mul_sum]
  refine sum_congr rfl fun i _ => ?_
  rw [mul_sum]
  exact sum_congr rfl fun j _ => by ring

theorem form_list {A : Type} (l : List A) (n : Nat) (K : A → Nat → Nat → ℝ) (v w : Nat → ℝ) :
    ∑ i ∈ range n, ∑ j ∈ range n, v i * (l.map fun a => K a i j).sum * w j =
      (l.map fun a => ∑ i ∈ range n, ∑ j ∈ range n, v i * K a i j * w j).sum := by
  induction l with
  | nil => simp
  | cons a l ih =>
    simp only [List.map_cons, List.sum_cons, ← ih, ← sum_add_distrib]
    exact sum_congr rfl fun i _ => sum_congr rfl fun j _ => by ring

theorem work_list {A : Type} (l : List A) (n : Nat) (F : A → Nat → ℝ) (v : Nat → ℝ) :
    ∑ i ∈ range n, (l.map fun a => F a i).sum * v i = (l.map fun a => ∑ i ∈ range n, F a i * v i).sum := by
  simp only [list_mul]
  exact sum_list l _ _

theorem nitsche_form (d : Data D) (v w : Nat → ℝ) :
    ∑ i ∈ range d.n, ∑ j ∈ range d.n, v i * d.nitsche i j * w j = d.theta * tractionForm d v w := by
  unfold Data.nitsche tractionForm
  have e : ∀ i j, v i * (d.theta * ((d.faces.filter fun fc => fc.ctype ≠ .noContact).map fun fc =>
      (fc.nqps.map fun q => d.nitschePt fc q i j).sum).sum) * w j =
      d.theta * (v i * ((d.faces.filter fun fc => fc.ctype ≠ .noContact).map fun fc =>
      (fc.nqps.map fun q => d.nitschePt fc q i j).sum).sum * w j) := fun i j => by ring
  rw [sum_congr rfl fun i _ => sum_congr rfl fun j _ => e i j]
  simp only [← mul_sum]
  congr 1
  rw [form_list _ _ fun (fc : Face D) i j => (fc.nqps.map fun q => d.nitschePt fc q i j).sum]
  refine list_congr _ fun fc _ => ?_
  rw [form_list _ _ fun (q : ℝ × Vec D) i j => d.nitschePt fc q i j]
  refine list_congr _ fun q _ => ?_
  have e : ∀ i j, v i * d.nitschePt fc q i j * w j =
      ∑ k, v i * (q.1 / d.gammaF fc * sigmaN d fc.n q.2 i k * sigmaN d fc.n q.2 j k) * w j := by
    intro i j; unfold Data.nitschePt dot; rw [mul_sum, sum_mul]
  rw [sum_congr rfl fun i _ => sum_congr rfl fun j _ => e i j, mul_sum]
  have : ∀ k, ∑ i ∈ range d.n, ∑ j ∈ range d.n,
      v i * (q.1 / d.gammaF fc * sigmaN d fc.n q.2 i k * sigmaN d fc.n q.2 j k) * w j =
      q.1 / (d.gamma0 / fc.hF) * (traction d fc v q.2 k * traction d fc w q.2 k) := by
    intro k
    rw [form_mul, sigmaN_sum, sigmaN_sum, mul_assoc]
    rfl
  rw [← sum_congr rfl fun k _ => this k]
  calc _ = ∑ i ∈ range d.n, ∑ k, ∑ j ∈ range d.n,
        v i * (q.1 / d.gammaF fc * sigmaN d fc.n q.2 i k * sigmaN d fc.n q.2 j k) * w j :=
          sum_congr rfl fun i _ => sum_comm
    _ = _ := sum_comm

theorem heaviside_form {d : Data D} (hd : WellSized d) (u v w : Nat → ℝ) {x : Nat × Face D}
    (hx : x ∈ contactFaces d.cbs d.faces) {q : ℝ × Vec D} (hq : q ∈ x.2.qps) :
    ∑ i ∈ range d.n, ∑ j ∈ range d.n, v i * d.heavisidePt u x.1 x.2 q i j * w j =
      q.1 / (d.gamma0 / x.2.hF) * if trial d x.2 x.1 u q.2 ≤ 0 then
        phiNV d d.theta x.2 x.1 v q.2 * phiNV d 1 x.2 x.1 w q.2 else 0 := by
  unfold Data.heavisidePt
  rw [trial_eq (hd.qps _ (contactFaces_mem hx).1 _ hq)]
  split
  · rw [form_mul, phiNAt_sum hd hx, phiNAt_sum hd hx, mul_assoc]; rfl
  · simp

theorem friction_form {d : Data D} (hd : WellSized d) (u v w : Nat → ℝ) {x : Nat × Face D}
    (hx : x ∈ contactFaces d.cbs d.faces) {q : ℝ × Vec D} (hq : q ∈ x.2.qps) {s : Vec D → ℝ} (hs : x.2.s = some s) :
    ∑ i ∈ range d.n, ∑ j ∈ range d.n, v i * d.frictionPt u x.1 x.2 s q i j * w j =
      q.1 / (d.gamma0 / x.2.hF) * ∑ k, phiTV d d.theta x.2 x.1 v q.2 k *
        ∑ l, dProj (phiTV d 1 x.2 x.1 u q.2) (limit d x.2 x.1 u q.2) k l * phiTV d 1 x.2 x.1 w q.2 l := by
  have hl := hd.qps _ (contactFaces_mem hx).1 _ hq
  have hb : d.bound u x.1 x.2 s q.2 = limit d x.2 x.1 u q.2 := by
    unfold Data.bound limit
    rw [hs, trial_eq hl]
    dsimp only
    split
    · rw [← neg_neg (max 0 (-trial d x.2 x.1 u q.2)), ← min_neg_neg, neg_neg, neg_zero]; ring
    · rfl
  unfold Data.frictionPt
  rw [tang_eq hl, hb]
  generalize dProj (phiTV d 1 x.2 x.1 u q.2) (limit d x.2 x.1 u q.2) = P
  unfold dot
  have e : ∀ i j, v i * (∑ k, q.1 / d.gammaF x.2 * d.phiTAt d.theta x.2 x.1 q.2 i k *
      ∑ l, P k l * d.phiTAt 1 x.2 x.1 q.2 j l) * w j =
      ∑ k, ∑ l, v i * (q.1 / d.gammaF x.2 * P k l * d.phiTAt d.theta x.2 x.1 q.2 i k * d.phiTAt 1 x.2 x.1 q.2 j l) * w j := by
    intro i j
    rw [mul_sum, sum_mul]
    refine sum_congr rfl fun k _ => ?_
    rw [mul_sum, mul_sum, sum_mul]
    exact sum_congr rfl fun l _ => by ring
  rw [sum_congr rfl fun i _ => sum_congr rfl fun j _ => e i j]
  have c : ∀ k l, ∑ i ∈ range d.n, ∑ j ∈ range d.n, v i * (q.1 / d.gammaF x.2 * P k l *
      d.phiTAt d.theta x.2 x.1 q.2 i k * d.phiTAt 1 x.2 x.1 q.2 j l) * w j =
      q.1 / (d.gamma0 / x.2.hF) * (phiTV d d.theta x.2 x.1 v q.2 k * (P k l * phiTV d 1 x.2 x.1 w q.2 l)) := by
    intro k l
    rw [form_mul, phiTAt_sum hd hx, phiTAt_sum hd hx]
    unfold Data.gammaF
    ring
  simp only [mul_sum]
  rw [← sum_congr rfl fun k _ => sum_congr rfl fun l _ => c k l]
  calc _ = ∑ i ∈ range d.n, ∑ k, ∑ j ∈ range d.n, ∑ l, v i * (q.1 / d.gammaF x.2 * P k l *
      d.phiTAt d.theta x.2 x.1 q.2 i k * d.phiTAt 1 x.2 x.1 q.2 j l) * w j :=
        sum_congr rfl fun i _ => sum_comm
    _ = ∑ k, ∑ i ∈ range d.n, ∑ j ∈ range d.n, ∑ l, v i * (q.1 / d.gammaF x.2 * P k l *
      d.phiTAt d.theta x.2 x.1 q.2 i k * d.phiTAt 1 x.2 x.1 q.2 j l) * w j := sum_comm
    _ = ∑ k, ∑ i ∈ range d.n, ∑ l, ∑ j ∈ range d.n, v i * (q.1 / d.gammaF x.2 * P k l *
      d.phiTAt d.theta x.2 x.1 q.2 i k * d.phiTAt 1 x.2 x.1 q.2 j l) * w j :=
        sum_congr rfl fun k _ => sum_congr rfl fun i _ => sum_comm
    _ = _ := sum_congr rfl fun k _ => sum_comm

theorem negative_work {d : Data D} (hd : WellSized d) (u v : Nat → ℝ) {x : Nat × Face D}
    (hx : x ∈ contactFaces d.cbs d.faces) {q : ℝ × Vec D} (hq : q ∈ x.2.qps) :
    ∑ i ∈ range d.n, d.negativePt u x.1 x.2 q i * v i =
      q.1 / (d.gamma0 / x.2.hF) * (min 0 (trial d x.2 x.1 u q.2) * phiNV d d.theta x.2 x.1 v q.2) := by
  unfold Data.negativePt
  rw [trial_eq (hd.qps _ (contactFaces_mem hx).1 _ hq)]
  split
  · rename_i h
    rw [min_eq_right h, ← phiNAt_sum hd hx, mul_sum, mul_sum]
    exact sum_congr rfl fun i _ => by unfold Data.gammaF; ring
  · rename_i h
    rw [min_eq_left (le_of_not_ge h)]
    simp

theorem threshold_work {d : Data D} (hd : WellSized d) (u v : Nat → ℝ) {x : Nat × Face D}
    (hx : x ∈ contactFaces d.cbs d.faces) {q : ℝ × Vec D} (hq : q ∈ x.2.qps) {s : Vec D → ℝ} (hs : x.2.s = some s) :
    ∑ i ∈ range d.n, d.thresholdPt u x.1 x.2 s q i * v i =
      q.1 / (d.gamma0 / x.2.hF) * ∑ k, proj (phiTV d 1 x.2 x.1 u q.2) (limit d x.2 x.1 u q.2) k *
        phiTV d d.theta x.2 x.1 v q.2 k := by
  have hl := hd.qps _ (contactFaces_mem hx).1 _ hq
  have hb : d.bound u x.1 x.2 s q.2 = limit d x.2 x.1 u q.2 := by
    unfold Data.bound limit
    rw [hs, trial_eq hl]
    dsimp only
    split
    · rw [← neg_neg (max 0 (-trial d x.2 x.1 u q.2)), ← min_neg_neg, neg_neg, neg_zero]; ring
    · rfl
  unfold Data.thresholdPt
  rw [tang_eq hl, hb]
  generalize proj (phiTV d 1 x.2 x.1 u q.2) (limit d x.2 x.1 u q.2) = P
  unfold dot
  simp only [← phiTAt_sum hd hx, mul_sum, sum_mul]
  rw [sum_comm]
  exact sum_congr rfl fun k _ => sum_congr rfl fun i _ => by unfold Data.gammaF; ring

/-- The work of the contact forces. -/
theorem fCont_work {d : Data D} (hd : WellSized d) (hs : Limited d) (u v : Nat → ℝ) :
    ∑ i ∈ range d.n, d.fCont u i * v i = -(d.theta * tractionForm d v u) +
      ((contactFaces d.cbs d.faces).map fun x => (x.2.qps.map (pointWork d u v x.1 x.2)).sum).sum := by
  have e1 : ∑ i ∈ range d.n, (if d.theta ≠ 0 then -∑ j ∈ range d.n, d.nitsche i j * u j else 0) * v i =
      -(d.theta * tractionForm d v u) := by
    by_cases h : d.theta = 0
    · simp [h]
    · rw [← nitsche_form]
      simp only [h, ne_eq, not_false_eq_true, if_true, neg_mul, sum_neg_distrib, sum_mul]
      congr 1
      exact sum_congr rfl fun i _ => sum_congr rfl fun j _ => by ring
  have e2 : ∑ i ∈ range d.n, d.negative u i * v i = ((contactFaces d.cbs d.faces).map fun x => (x.2.qps.map fun q =>
      q.1 / (d.gamma0 / x.2.hF) * (min 0 (trial d x.2 x.1 u q.2) * phiNV d d.theta x.2 x.1 v q.2)).sum).sum := by
    unfold Data.negative
    simp only [loopFaces_eq, sum1_apply]
    rw [work_list]
    refine list_congr _ fun x hx => ?_
    rw [work_list]
    exact list_congr _ fun q hq => negative_work hd u v hx hq
  have e3 : ∑ i ∈ range d.n, (if d.frot = .none then 0 else d.threshold u i) * v i =
      ((contactFaces d.cbs d.faces).map fun x => (x.2.qps.map fun q => q.1 / (d.gamma0 / x.2.hF) *
        if d.frot = .none then 0 else ∑ k, proj (phiTV d 1 x.2 x.1 u q.2) (limit d x.2 x.1 u q.2) k *
        phiTV d d.theta x.2 x.1 v q.2 k).sum).sum := by
    by_cases h : d.frot = .none
    · simp [h]
    · simp only [h, if_false]
      unfold Data.threshold
      simp only [loopFaces_eq, sum1_apply]
      rw [work_list]
      refine list_congr _ fun x hx => ?_
      obtain ⟨hm, hc, -⟩ := contactFaces_mem hx
      obtain ⟨s, hs'⟩ := Option.ne_none_iff_exists'.1 (hs h _ hm hc)
      rw [hs']
      dsimp only
      simp only [sum1_apply]
      rw [work_list]
      exact list_congr _ fun q hq => threshold_work hd u v hx hq hs'
  unfold Data.fCont
  simp only [add_mul, sum_add_distrib]
  rw [e1, e2, e3, add_assoc, list_add]
  congr 1
  refine list_congr _ fun x _ => ?_
  rw [list_add]
  refine list_congr _ fun q _ => ?_
  unfold pointWork
  ring

/-- The form of the contact matrix. -/
theorem kCont_form {d : Data D} (hd : WellSized d) (hs : Limited d) (u v w : Nat → ℝ) :
    ∑ i ∈ range d.n, ∑ j ∈ range d.n, v i * d.kCont u i j * w j = -(d.theta * tractionForm d v w) +
      ((contactFaces d.cbs d.faces).map fun x => (x.2.qps.map (pointForm d u v w x.1 x.2)).sum).sum := by
  have e1 : ∑ i ∈ range d.n, ∑ j ∈ range d.n, v i * (if d.theta ≠ 0 then -d.nitsche i j else 0) * w j =
      -(d.theta * tractionForm d v w) := by
    by_cases h : d.theta = 0
    · simp [h]
    · rw [← nitsche_form]
      simp only [h, ne_eq, not_false_eq_true, if_true, neg_mul, mul_neg, sum_neg_distrib]
  have e2 : ∑ i ∈ range d.n, ∑ j ∈ range d.n, v i * d.heaviside u i j * w j =
      ((contactFaces d.cbs d.faces).map fun x => (x.2.qps.map fun q =>
      q.1 / (d.gamma0 / x.2.hF) * if trial d x.2 x.1 u q.2 ≤ 0 then
        phiNV d d.theta x.2 x.1 v q.2 * phiNV d 1 x.2 x.1 w q.2 else 0).sum).sum := by
    unfold Data.heaviside
    simp only [loopFaces_eq, sum2_apply]
    rw [form_list]
    refine list_congr _ fun x hx => ?_
    rw [form_list]
    exact list_congr _ fun q hq => heaviside_form hd u v w hx hq
  have e3 : ∑ i ∈ range d.n, ∑ j ∈ range d.n, v i * (if d.frot = .none then 0 else d.friction u i j) * w j =
      ((contactFaces d.cbs d.faces).map fun x => (x.2.qps.map fun q => q.1 / (d.gamma0 / x.2.hF) *
        if d.frot = .none then 0 else ∑ k, phiTV d d.theta x.2 x.1 v q.2 k *
        ∑ l, dProj (phiTV d 1 x.2 x.1 u q.2) (limit d x.2 x.1 u q.2) k l * phiTV d 1 x.2 x.1 w q.2 l).sum).sum := by
    by_cases h : d.frot = .none
    · simp [h]
    · simp only [h, if_false]
      unfold Data.friction
      simp only [loopFaces_eq, sum2_apply]
      rw [form_list]
      refine list_congr _ fun x hx => ?_
      obtain ⟨hm, hc, -⟩ := contactFaces_mem hx
      obtain ⟨s, hs'⟩ := Option.ne_none_iff_exists'.1 (hs h _ hm hc)
      rw [hs']
      dsimp only
      simp only [sum2_apply]
      rw [form_list]
      exact list_congr _ fun q hq => friction_form hd u v w hx hq hs'
  unfold Data.kCont
  simp only [add_mul, mul_add, sum_add_distrib]
  rw [e1, e2, e3, add_assoc, list_add]
  congr 1
  refine list_congr _ fun x _ => ?_
  rw [list_add]
  refine list_congr _ fun q _ => ?_
  unfold pointForm
  ring

end Verif.Contact
