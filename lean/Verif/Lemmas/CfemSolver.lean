import Verif.Spec.CfemSolver
import Verif.Lemmas.Cfem
import Verif.Lemmas.HhoSolverRows
/-!
The numbering of the free points and the assembled form of the first-order finite element program.
-/
namespace Verif.Lemmas.P1
open Finset Verif.CfemSolver Verif.Spec Verif.Spec.P1 Verif.Hho

/-- The marks: exactly the ends of the faces. -/
theorem mark_ok (fs : List (Nat × Nat)) (D : List Bool) (h : ∀ f ∈ fs, f.1 < D.length ∧ f.2 < D.length) :
    ∃ D', mark fs D = .ok D' ∧ D'.length = D.length ∧
      ∀ i, D'.getD i false = true ↔ D.getD i false = true ∨ ∃ f ∈ fs, i = f.1 ∨ i = f.2 := by
  induction fs generalizing D with
  | nil => exact ⟨D, rfl, rfl, by simp⟩
  | cons f fs ih =>
    obtain ⟨h1, h2⟩ := h f (by simp)
    have hl : ((D.set f.1 true).set f.2 true).length = D.length := by simp
    obtain ⟨D', e, l, hD⟩ := ih ((D.set f.1 true).set f.2 true) (by
      rw [hl]; exact fun g hg => h g (List.mem_cons_of_mem _ hg))
    refine ⟨D', ?_, l.trans hl, fun i => ?_⟩
    · unfold mark setAt
      rw [if_pos h1, Outcome.bind_ok, if_pos (by simpa using h2), Outcome.bind_ok, e]
    · rw [hD]
      simp only [List.getD_eq_getElem?_getD, List.getElem?_set, List.length_set, List.mem_cons, exists_eq_or_imp]
      by_cases e2 : f.2 = i
      · subst e2; simp [h2]
      · by_cases e1 : f.1 = i
        · subst e1; simp [e2, h1]
        · simp [e1, e2, Ne.symm e1, Ne.symm e2]

/-- Number of free points before `i`. -/
def cnt (D : List Bool) (i : Nat) : Nat := (D.take i).count false

theorem cnt_succ {D : List Bool} {i : Nat} (h : i < D.length) :
    cnt D (i + 1) = cnt D i + if D.getD i false then 0 else 1 := by
  unfold cnt
  rw [List.take_succ_eq_append_getElem h, List.count_append]
  simp only [List.getD_eq_getElem?_getD, List.getElem?_eq_getElem h, Option.getD_some]
  cases D[i] <;> simp

theorem cnt_le (D : List Bool) (i : Nat) : cnt D i ≤ D.count false :=
  (List.take_sublist i D).count_le _

theorem cnt_lt {D : List Bool} {i : Nat} (h : i < D.length) (hf : D.getD i false = false) : cnt D i < D.count false := by
  have := cnt_succ h
  rw [hf] at this
  have := cnt_le D (i + 1)
  simp_all

/-- The maps: `compress_map` counts the free points, `expand_map` is its inverse. -/
theorem fill_ok {D : List Bool} (r i : Nat) (e c : List Nat) (hr : r + i = D.length) (he : e.length = D.count false)
    (hc : c.length = D.length) (h1 : ∀ j < i, D.getD j false = false → c.getD j 0 = cnt D j)
    (h2 : ∀ a < cnt D i, e.getD a 0 < D.length ∧ D.getD (e.getD a 0) false = false ∧ cnt D (e.getD a 0) = a) :
    ∃ e' c', fill D r i (cnt D i) e c = .ok (e', c') ∧
      (∀ j < D.length, D.getD j false = false → c'.getD j 0 = cnt D j) ∧
      ∀ a < D.count false, e'.getD a 0 < D.length ∧ D.getD (e'.getD a 0) false = false ∧ cnt D (e'.getD a 0) = a := by
  induction r generalizing i e c with
  | zero =>
    obtain rfl : i = D.length := by omega
    refine ⟨e, c, rfl, h1, fun a ha => h2 a ?_⟩
    unfold cnt
    rwa [List.take_length]
  | succ r ih =>
    have hi : i < D.length := by omega
    unfold fill
    by_cases hd : D.getD i false = true
    · rw [if_pos hd]
      have hs : cnt D (i + 1) = cnt D i := by rw [cnt_succ hi, if_pos hd, Nat.add_zero]
      rw [← hs]
      refine ih (i + 1) e c (by omega) he hc (fun j hj hf => h1 j ?_ hf) (by rwa [hs])
      rcases Nat.lt_succ_iff_lt_or_eq.1 hj with h | rfl
      · exact h
      · rw [hf] at hd; cases hd
    · have hf : D.getD i false = false := by simpa using hd
      have hs : cnt D (i + 1) = cnt D i + 1 := by rw [cnt_succ hi, if_neg hd]
      rw [if_neg hd]
      unfold setAt
      rw [if_pos (by rw [he]; exact cnt_lt hi hf), Outcome.bind_ok, if_pos (by omega), Outcome.bind_ok, ← hs]
      refine ih (i + 1) _ _ (by omega) (by simpa using he) (by simpa using hc) (fun j hj hfj => ?_) fun a ha => ?_
      · simp only [List.getD_eq_getElem?_getD, List.getElem?_set]
        by_cases hij : i = j
        · subst hij; simp [hc, hi]
        · rw [if_neg hij, ← List.getD_eq_getElem?_getD]
          exact h1 j (by omega) hfj
      · have hset : (e.set (cnt D i) i).getD a 0 = if cnt D i = a then i else e.getD a 0 := by
          simp only [List.getD_eq_getElem?_getD, List.getElem?_set]
          by_cases h : cnt D i = a
          · subst h; simp [he, cnt_lt hi hf]
          · simp [h]
        rw [hset]
        by_cases h : cnt D i = a
        · rw [if_pos h]; exact ⟨hi, hf, h⟩
        · rw [if_neg h]; exact h2 a (by omega)

/-- The values at the points of a vector of unknowns. -/
def spread (D : List Bool) (x : Nat → ℝ) (i : Nat) : ℝ :=
  if D.getD i false = false ∧ i < D.length then x (cnt D i) else 0

theorem expand_eq {D : List Bool} {e : List Nat}
    (h : ∀ a < D.count false, e.getD a 0 < D.length ∧ D.getD (e.getD a 0) false = false ∧ cnt D (e.getD a 0) = a)
    (hinj : ∀ i < D.length, ∀ j < D.length, D.getD i false = false → D.getD j false = false → cnt D i = cnt D j → i = j)
    (gx : Nat → ℝ) : expandSol (D.count false) e gx = spread D gx := by
  have key : ∀ n ≤ D.count false, ∀ j, (List.range n).foldl (fun (v : Nat → ℝ) i => fun j => if j = e.getD i 0 then gx i else v j)
      (fun _ => 0) j = if D.getD j false = false ∧ j < D.length ∧ cnt D j < n then gx (cnt D j) else 0 := by
    intro n
    induction n with
    | zero => intro _ j; simp
    | succ n ih =>
      intro hn j
      rw [List.range_succ, List.foldl_append, List.foldl_cons, List.foldl_nil, ih (by omega)]
      obtain ⟨a1, a2, a3⟩ := h n (by omega)
      by_cases hj : j = e.getD n 0
      · subst hj
        rw [if_pos rfl, if_pos ⟨a2, a1, by omega⟩, a3]
      · rw [if_neg hj]
        by_cases hc : D.getD j false = false ∧ j < D.length ∧ cnt D j < n
        · rw [if_pos hc, if_pos ⟨hc.1, hc.2.1, by omega⟩]
        · rw [if_neg hc, if_neg]
          rintro ⟨b1, b2, b3⟩
          rcases Nat.lt_succ_iff_lt_or_eq.1 b3 with b | b
          · exact hc ⟨b1, b2, b⟩
          · exact hj (hinj j b2 _ a1 b1 a2 (by omega))
  funext j
  unfold expandSol spread
  rw [key _ le_rfl]
  by_cases hj : D.getD j false = false ∧ j < D.length
  · rw [if_pos ⟨hj.1, hj.2, cnt_lt hj.2 hj.1⟩, if_pos hj]
  · rw [if_neg hj, if_neg fun h => hj ⟨h.1, h.2.1⟩]

theorem cnt_mono {D : List Bool} {i j : Nat} (h : i ≤ j) : cnt D i ≤ cnt D j :=
  (List.take_sublist_take_left h).count_le _

theorem cnt_inj {D : List Bool} {i j : Nat} (hi : i < D.length) (hj : j < D.length) (fi : D.getD i false = false)
    (fj : D.getD j false = false) (h : cnt D i = cnt D j) : i = j := by
  have a := cnt_succ hi
  have b := cnt_succ hj
  rw [fi] at a
  rw [fj] at b
  rcases Nat.lt_trichotomy i j with l | l | l
  · have := cnt_mono (D := D) (show i + 1 ≤ j from l)
    simp at a b; omega
  · exact l
  · have := cnt_mono (D := D) (show j + 1 ≤ i from l)
    simp at a b; omega

theorem form_addAt {N r c : Nat} (hr : r < N) (hc : c < N) (v : ℝ) (M : Mat ℝ) (y x : Nat → ℝ) :
    Spec.Hho.form N (addAt r c v M) y x = Spec.Hho.form N M y x + y r * v * x c := by
  unfold Spec.Hho.form Spec.Hho.app addAt
  have : ∀ i ∈ range N, y i * ∑ j ∈ range N, (M i j + if i = r ∧ j = c then v else 0) * x j =
      y i * ∑ j ∈ range N, M i j * x j + if i = r then y r * v * x c else 0 := by
    intro i _
    simp only [add_mul, sum_add_distrib, mul_add]
    congr 1
    by_cases h : i = r
    · subst h
      simp only [true_and, if_true]
      rw [sum_eq_single c (fun j _ hj => by rw [if_neg hj, zero_mul]) fun h => absurd (mem_range.2 hc) h, if_pos rfl]
      ring
    · simp [h]
  rw [sum_congr rfl this, sum_add_distrib, sum_ite_eq' (range N) r, if_pos (mem_range.2 hr)]

section
variable {D : List Bool} {cm : List Nat} (hcm : ∀ j < D.length, D.getD j false = false → cm.getD j 0 = cnt D j)
include hcm

theorem row_form {ids : Fin 3 → Nat} (hid : ∀ a, ids a < D.length) (l : List (Fin 3)) {r : Nat} (hr : r < D.count false)
    (A : Fin 3 → ℝ) (M : Mat ℝ) (y x : Nat → ℝ) :
    Spec.Hho.form (D.count false) (l.foldl (fun M j =>
        if D.getD (ids j) false then M else addAt r (cm.getD (ids j) 0) (A j) M) M) y x =
      Spec.Hho.form (D.count false) M y x + (l.map fun j => y r * A j * spread D x (ids j)).sum := by
  induction l generalizing M with
  | nil => simp
  | cons j l ih =>
    rw [List.foldl_cons, ih, List.map_cons, List.sum_cons]
    by_cases h : D.getD (ids j) false = true
    · rw [if_pos h]
      have : spread D x (ids j) = 0 := by unfold spread; rw [if_neg]; rw [h]; simp
      rw [this]; ring
    · have hf : D.getD (ids j) false = false := by simpa using h
      rw [if_neg h, hcm _ (hid j) hf, form_addAt hr (cnt_lt (hid j) hf)]
      have : spread D x (ids j) = x (cnt D (ids j)) := if_pos ⟨hf, hid j⟩
      rw [this]; ring

theorem step_form {ids : Fin 3 → Nat} (hid : ∀ a, ids a < D.length) (A : Matrix (Fin 3) (Fin 3) ℝ) (b : Fin 3 → ℝ)
    (s : Mat ℝ × (Nat → ℝ)) (y x : Nat → ℝ) :
    Spec.Hho.form (D.count false) (cellStep D cm ids A b s).1 y x = Spec.Hho.form (D.count false) s.1 y x +
        ∑ i, ∑ j, spread D y (ids i) * A i j * spread D x (ids j) ∧
      ∑ r ∈ range (D.count false), (cellStep D cm ids A b s).2 r * y r =
        ∑ r ∈ range (D.count false), s.2 r * y r + ∑ i, b i * spread D y (ids i) := by
  have key : ∀ (l : List (Fin 3)) (s : Mat ℝ × (Nat → ℝ)),
      Spec.Hho.form (D.count false) (l.foldl (fun (s : Mat ℝ × (Nat → ℝ)) i =>
        if D.getD (ids i) false then s
        else ((List.finRange 3).foldl (fun M j =>
            if D.getD (ids j) false then M else addAt (cm.getD (ids i) 0) (cm.getD (ids j) 0) (A i j) M) s.1,
          fun r => s.2 r + if r = cm.getD (ids i) 0 then b i else 0)) s).1 y x =
      Spec.Hho.form (D.count false) s.1 y x + (l.map fun i => ∑ j, spread D y (ids i) * A i j * spread D x (ids j)).sum ∧
      ∑ r ∈ range (D.count false), (l.foldl (fun (s : Mat ℝ × (Nat → ℝ)) i =>
        if D.getD (ids i) false then s
        else ((List.finRange 3).foldl (fun M j =>
            if D.getD (ids j) false then M else addAt (cm.getD (ids i) 0) (cm.getD (ids j) 0) (A i j) M) s.1,
          fun r => s.2 r + if r = cm.getD (ids i) 0 then b i else 0)) s).2 r * y r =
        ∑ r ∈ range (D.count false), s.2 r * y r + (l.map fun i => b i * spread D y (ids i)).sum := by
    intro l
    induction l with
    | nil => intro s; simp
    | cons i l ih =>
      intro s
      rw [List.foldl_cons, List.map_cons, List.sum_cons, List.map_cons, List.sum_cons]
      obtain ⟨h1, h2⟩ := ih (if D.getD (ids i) false then s
        else ((List.finRange 3).foldl (fun M j =>
            if D.getD (ids j) false then M else addAt (cm.getD (ids i) 0) (cm.getD (ids j) 0) (A i j) M) s.1,
          fun r => s.2 r + if r = cm.getD (ids i) 0 then b i else 0))
      rw [h1, h2]
      by_cases h : D.getD (ids i) false = true
      · have : spread D y (ids i) = 0 := by unfold spread; rw [if_neg]; rw [h]; simp
        rw [if_pos h, this]; simp
      · have hf : D.getD (ids i) false = false := by simpa using h
        have he : spread D y (ids i) = y (cnt D (ids i)) := if_pos ⟨hf, hid i⟩
        have hl := cnt_lt (hid i) hf
        rw [if_neg h, hcm _ (hid i) hf, he]
        constructor
        · rw [row_form hcm hid _ hl, add_assoc]
          congr 2
        · simp only [add_mul, sum_add_distrib, ite_mul, zero_mul]
          rw [sum_ite_eq' (range _) (cnt D (ids i)), if_pos (mem_range.2 hl), add_assoc]
  obtain ⟨h1, h2⟩ := key (List.finRange 3) s
  unfold cellStep
  rw [h1, h2]
  simp [List.finRange_succ, Fin.sum_univ_succ]

end

theorem get_pt {m : Mesh} {i : Nat} (h : i < m.points.length) : m.points[i]? = some (pt m i) := by
  unfold pt
  rw [List.getD_eq_getElem?_getD, List.getElem?_eq_getElem h, Option.getD_some]

/-- The element matrix and vector. -/
theorem local_eq {p0 p1 p2 : P2 ℝ} (h : turn p0 p1 p2 ≠ 0) (e : ℝ) (f : P2 ℝ → ℝ) :
    ∃ A b, Cfem.stiffnessK p0 p1 p2 !![e, 0; 0, e] = some A ∧ Cfem.rhs p0 p1 p2 f = some b ∧
      (∀ y x : Fin 3 → ℝ, ∑ i, ∑ j, y i * A i j * x j = triInt p0 p1 p2 fun _ => e *
        ((slopes p0 p1 p2 (x 0) (x 1) (x 2)).1 * (slopes p0 p1 p2 (y 0) (y 1) (y 2)).1 +
          (slopes p0 p1 p2 (x 0) (x 1) (x 2)).2 * (slopes p0 p1 p2 (y 0) (y 1) (y 2)).2)) ∧
      ∀ y : Fin 3 → ℝ, ∑ i, b i * y i =
        triInt p0 p1 p2 fun _ => f (Simplex.bary2 p0 p1 p2) * ((y 0 + y 1 + y 2) / 3) := by
  have h' : Cfem.den p0 p1 p2 ≠ 0 := by rwa [Cfem.den_eq]
  refine ⟨_, _, by unfold Cfem.stiffnessK Cfem.grad; rw [Cfem.measure_eq, if_neg h']; rfl,
    by unfold Cfem.rhs; rw [Cfem.measure_eq]; rfl, fun y x => ?_, fun y => ?_⟩
  · rw [Cfem.triInt_const]
    simp only [slopes, Cfem.den_eq, Matrix.mul_apply, Fin.sum_univ_succ, Matrix.smul_apply, Matrix.transpose_apply]
    simp
    field_simp
    ring
  · rw [Cfem.triInt_const]
    simp [Fin.sum_univ_succ]
    ring

theorem loop_ok {m : Mesh} (hm : Ok m) {D : List Bool} {cm : List Nat} (hl : D.length = m.points.length)
    (hcm : ∀ j < D.length, D.getD j false = false → cm.getD j 0 = cnt D j) (eps f : P2 ℝ → ℝ) (cs : List (Fin 3 → Nat))
    (hcs : ∀ t ∈ cs, t ∈ m.cells) (s : Mat ℝ × (Nat → ℝ)) :
    ∃ s', cellLoop m.points eps f D cm cs s = .ok s' ∧
      (∀ y x, Spec.Hho.form (D.count false) s'.1 y x = Spec.Hho.form (D.count false) s.1 y x +
        (cs.map fun t => triInt (pt m (t 0)) (pt m (t 1)) (pt m (t 2)) fun _ => eps (center m t) *
          ((gradIn m t (spread D x)).1 * (gradIn m t (spread D y)).1 +
            (gradIn m t (spread D x)).2 * (gradIn m t (spread D y)).2)).sum) ∧
      ∀ y, ∑ r ∈ range (D.count false), s'.2 r * y r = ∑ r ∈ range (D.count false), s.2 r * y r +
        (cs.map fun t => triInt (pt m (t 0)) (pt m (t 1)) (pt m (t 2)) fun _ =>
          f (center m t) * mean (spread D y) t).sum := by
  induction cs generalizing s with
  | nil => exact ⟨s, rfl, by simp, by simp⟩
  | cons t cs ih =>
    have ht := hcs t (by simp)
    have hid : ∀ a, t a < D.length := fun a => by rw [hl]; exact hm.cell t ht a
    obtain ⟨A, b, e1, e2, h1, h2⟩ := local_eq (hm.area t ht) (eps (center m t)) f
    obtain ⟨s', e, g1, g2⟩ := ih (fun t' h => hcs t' (List.mem_cons_of_mem _ h)) (cellStep D cm t A b s)
    refine ⟨s', ?_, fun y x => ?_, fun y => ?_⟩
    · unfold cellLoop
      rw [get_pt (hm.cell t ht 0), get_pt (hm.cell t ht 1), get_pt (hm.cell t ht 2)]
      simp only
      have e1' : Cfem.stiffnessK (pt m (t 0)) (pt m (t 1)) (pt m (t 2))
        !![eps (Simplex.bary2 (pt m (t 0)) (pt m (t 1)) (pt m (t 2))), 0;
          0, eps (Simplex.bary2 (pt m (t 0)) (pt m (t 1)) (pt m (t 2)))] = some A := e1
      rw [e1', e2]
      exact e
    · rw [g1, (step_form hcm hid A b s y x).1, List.map_cons, List.sum_cons, add_assoc]
      congr 2
      exact h1 (fun i => spread D y (t i)) fun i => spread D x (t i)
    · rw [g2, (step_form hcm hid A b s y y).2, List.map_cons, List.sum_cons, add_assoc]
      congr 2
      exact h2 fun i => spread D y (t i)

/-- What is assembled. -/
theorem assemble_ok {m : Mesh} (hm : Ok m) (eps f : P2 ℝ → ℝ) : ∃ s D, assemble eps f m = .ok s ∧
    s.size = D.count false ∧ D.length = m.points.length ∧ (∀ i, D.getD i false = true ↔ OnBoundary m i) ∧
    (∀ gx, expandSol s.size s.expand gx = spread D gx) ∧
    (∀ y x, Spec.Hho.form s.size s.gA y x = energy m eps (spread D x) (spread D y)) ∧
    ∀ y, ∑ r ∈ range s.size, s.gb r * y r = loadOf m f (spread D y) := by
  obtain ⟨D, e, l, hD⟩ := mark_ok m.bfaces (List.replicate m.points.length false) (by simpa using hm.face)
  rw [List.length_replicate] at l
  obtain ⟨ex, cm, e2, hc, he⟩ := fill_ok (D := D) D.length 0 (List.replicate (D.count false) 0)
    (List.replicate m.points.length 0) (by omega) (by simp) (by simp [l]) (by simp) (by simp [cnt])
  obtain ⟨s, e3, g1, g2⟩ := loop_ok hm l hc eps f m.cells (fun _ h => h) (fun _ _ => 0, fun _ => 0)
  refine ⟨⟨D.count false, ex, cm, s.1, s.2⟩, D, ?_, rfl, l, fun i => ?_, fun gx => ?_, fun y x => ?_, fun y => ?_⟩
  · unfold assemble
    rw [e, Outcome.bind_ok]
    rw [show cnt D 0 = 0 from by simp [cnt], l] at e2
    simp only [e2, Outcome.bind_ok, e3]
  · rw [hD]
    simp only [List.getD_eq_getElem?_getD, List.getElem?_replicate]
    constructor
    · rintro (h | h)
      · split at h <;> simp at h
      · exact h
    · exact Or.inr
  · exact expand_eq he (fun i hi j hj fi fj h => cnt_inj hi hj fi fj h) gx
  · rw [g1]
    simp [Spec.Hho.form, Spec.Hho.app, energy]
  · rw [g2]
    simp [loadOf]

/-- Every unknown belongs to a free point. -/
theorem free_of_lt {D : List Bool} {a : Nat} (h : a < D.count false) :
    ∃ j < D.length, D.getD j false = false ∧ cnt D j = a := by
  obtain ⟨e, _, _, _, he⟩ := fill_ok (D := D) D.length 0 (List.replicate (D.count false) 0)
    (List.replicate D.length 0) (by omega) (by simp) (by simp) (by simp) (by simp [cnt])
  exact ⟨_, he a h⟩

/-- Values vanishing on the boundary come from a vector of unknowns. -/
theorem ext_of {D : List Bool} {v : Nat → ℝ} (hv : ∀ i, D.getD i false = true → v i = 0) :
    ∃ y, ∀ i < D.length, spread D y i = v i := by
  have : ∀ a, ∃ r : ℝ, ∀ j < D.length, D.getD j false = false → cnt D j = a → r = v j := by
    intro a
    by_cases h : ∃ j < D.length, D.getD j false = false ∧ cnt D j = a
    · obtain ⟨j, hj, fj, cj⟩ := h
      exact ⟨v j, fun i hi fi ci => by rw [cnt_inj hj hi fj fi (cj.trans ci.symm)]⟩
    · exact ⟨0, fun j hj fj cj => absurd ⟨j, hj, fj, cj⟩ h⟩
  choose y hy using this
  refine ⟨y, fun i hi => ?_⟩
  unfold spread
  by_cases hf : D.getD i false = false
  · rw [if_pos ⟨hf, hi⟩]; exact hy _ i hi hf rfl
  · rw [if_neg fun h => hf h.1, hv i (by simpa using hf)]

theorem energy_congr {m : Mesh} (hm : Ok m) (eps : P2 ℝ → ℝ) {u u' v v' : Nat → ℝ} (hu : ∀ i < m.points.length, u i = u' i)
    (hv : ∀ i < m.points.length, v i = v' i) : energy m eps u v = energy m eps u' v' := by
  unfold energy gradIn
  congr 1
  refine List.map_congr_left fun t ht => ?_
  simp only [hu _ (hm.cell t ht 0), hu _ (hm.cell t ht 1), hu _ (hm.cell t ht 2), hv _ (hm.cell t ht 0),
    hv _ (hm.cell t ht 1), hv _ (hm.cell t ht 2)]

theorem load_congr {m : Mesh} (hm : Ok m) (f : P2 ℝ → ℝ) {v v' : Nat → ℝ} (hv : ∀ i < m.points.length, v i = v' i) :
    loadOf m f v = loadOf m f v' := by
  unfold loadOf mean
  congr 1
  refine List.map_congr_left fun t ht => ?_
  simp only [hv _ (hm.cell t ht 0), hv _ (hm.cell t ht 1), hv _ (hm.cell t ht 2)]

theorem energy_symm (m : Mesh) (eps : P2 ℝ → ℝ) (u v : Nat → ℝ) : energy m eps u v = energy m eps v u := by
  unfold energy
  congr 1
  refine List.map_congr_left fun t _ => ?_
  congr 1
  funext _
  ring

theorem energy_sub (m : Mesh) (eps : P2 ℝ → ℝ) (u w v : Nat → ℝ) :
    energy m eps (fun i => u i - w i) v = energy m eps u v - energy m eps w v := by
  unfold energy
  induction m.cells with
  | nil => simp
  | cons t cs ih =>
    simp only [List.map_cons, List.sum_cons]
    rw [ih]
    have : ∀ a b c d e : ℝ, a = b - c → a + (d - e) = b + d - (c + e) := fun a b c d e h => by rw [h]; ring
    refine this _ _ _ _ _ ?_
    simp only [Cfem.triInt_const, gradIn, slopes]
    ring

theorem slope_diff {p0 p1 p2 : P2 ℝ} (h : turn p0 p1 p2 ≠ 0) (u0 u1 u2 : ℝ) :
    u1 - u0 = (slopes p0 p1 p2 u0 u1 u2).1 * (p1.x - p0.x) + (slopes p0 p1 p2 u0 u1 u2).2 * (p1.y - p0.y) ∧
    u2 - u0 = (slopes p0 p1 p2 u0 u1 u2).1 * (p2.x - p0.x) + (slopes p0 p1 p2 u0 u1 u2).2 * (p2.y - p0.y) := by
  unfold slopes
  constructor <;> field_simp <;> unfold turn <;> ring

theorem sum_zero_mem (l : List ℝ) (hn : ∀ x ∈ l, 0 ≤ x) (hz : l.sum = 0) (x : ℝ) (hx : x ∈ l) : x = 0 := by
  refine le_antisymm ?_ (hn x hx)
  rw [← hz]
  exact List.single_le_sum hn x hx

theorem energy_nonneg {m : Mesh} {eps : P2 ℝ → ℝ} (he : ∀ t ∈ m.cells, 0 < eps (center m t)) (u : Nat → ℝ) :
    0 ≤ energy m eps u u := by
  unfold energy
  refine List.sum_nonneg fun x hx => ?_
  obtain ⟨t, ht, rfl⟩ := List.mem_map.1 hx
  rw [Cfem.triInt_const]
  have := he t ht
  nlinarith [mul_self_nonneg (gradIn m t u).1, mul_self_nonneg (gradIn m t u).2,
    mul_nonneg (abs_nonneg (turn (pt m (t 0)) (pt m (t 1)) (pt m (t 2))))
      (mul_nonneg this.le (add_nonneg (mul_self_nonneg (gradIn m t u).1) (mul_self_nonneg (gradIn m t u).2)))]

theorem energy_zero {m : Mesh} (hm : Ok m) {eps : P2 ℝ → ℝ} (he : ∀ t ∈ m.cells, 0 < eps (center m t)) {u : Nat → ℝ}
    (hz : energy m eps u u = 0) {t : Fin 3 → Nat} (ht : t ∈ m.cells) (a b : Fin 3) : u (t a) = u (t b) := by
  have hn : ∀ x ∈ m.cells.map fun t => triInt (pt m (t 0)) (pt m (t 1)) (pt m (t 2)) fun _ => eps (center m t) *
      ((gradIn m t u).1 * (gradIn m t u).1 + (gradIn m t u).2 * (gradIn m t u).2), 0 ≤ x := by
    intro x hx
    obtain ⟨t, ht, rfl⟩ := List.mem_map.1 hx
    rw [Cfem.triInt_const]
    exact mul_nonneg (by positivity) (mul_nonneg (he t ht).le (add_nonneg (mul_self_nonneg _) (mul_self_nonneg _)))
  have := sum_zero_mem _ hn hz _ (List.mem_map.2 ⟨t, ht, rfl⟩)
  rw [Cfem.triInt_const] at this
  have ha : 0 < |turn (pt m (t 0)) (pt m (t 1)) (pt m (t 2))| := abs_pos.2 (hm.area t ht)
  have hg : (gradIn m t u).1 * (gradIn m t u).1 + (gradIn m t u).2 * (gradIn m t u).2 = 0 := by
    rcases mul_eq_zero.1 this with h | h
    · linarith
    · exact (mul_eq_zero.1 h).resolve_left (he t ht).ne'
  have g1 : (gradIn m t u).1 = 0 := by nlinarith [mul_self_nonneg (gradIn m t u).1, mul_self_nonneg (gradIn m t u).2]
  have g2 : (gradIn m t u).2 = 0 := by nlinarith [mul_self_nonneg (gradIn m t u).1, mul_self_nonneg (gradIn m t u).2]
  obtain ⟨d1, d2⟩ := slope_diff (hm.area t ht) (u (t 0)) (u (t 1)) (u (t 2))
  unfold gradIn at g1 g2
  rw [g1, g2] at d1 d2
  have hall : ∀ c, u (t c) = u (t 0) := by
    intro c
    fin_cases c
    · rfl
    · simpa [sub_eq_zero] using d1
    · simpa [sub_eq_zero] using d2
  rw [hall a, hall b]

theorem linked_zero {m : Mesh} (hm : Ok m) {eps : P2 ℝ → ℝ} (he : ∀ t ∈ m.cells, 0 < eps (center m t)) {u : Nat → ℝ}
    (hb : ∀ i, OnBoundary m i → u i = 0) (hz : energy m eps u u = 0) {i : Nat} (hi : Linked m i) : u i = 0 := by
  induction hi with
  | boundary h => exact hb _ h
  | step a b ht _ ih => rw [← energy_zero hm he hz ht a b, ih]

theorem vals_ok {m : Mesh} (hm : Ok m) (u : Nat → ℝ) (cs : List (Fin 3 → Nat)) (hcs : ∀ t ∈ cs, t ∈ m.cells) :
    cellVals m.points u cs = .ok (cs.map (mean u)) := by
  induction cs with
  | nil => rfl
  | cons t cs ih =>
    have ht := hcs t (by simp)
    unfold cellVals
    rw [get_pt (hm.cell t ht 0), get_pt (hm.cell t ht 1), get_pt (hm.cell t ht 2)]
    have hb : Cfem.basis (pt m (t 0)) (pt m (t 1)) (pt m (t 2)) (Simplex.bary2 (pt m (t 0)) (pt m (t 1)) (pt m (t 2))) =
        some ![1 / 3, 1 / 3, 1 / 3] := Cfem.basis_eq (hm.area t ht) (by simp; norm_num) (by simp [Simplex.bary2]; ring)
          (by simp [Simplex.bary2]; ring)
    simp only [hb]
    rw [ih fun t' h => hcs t' (List.mem_cons_of_mem _ h), Outcome.bind_ok, List.map_cons]
    congr 2
    simp [List.finRange_succ, mean]
    ring

end Verif.Lemmas.P1
